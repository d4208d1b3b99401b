import Verif.Model.SkyMap

/-!
# `x in skyMap`, `x in tract`, `x in patch`, and `reversed`

The classes define `__iter__`, `__len__` and `__getitem__`, but neither `__contains__` nor `__reversed__`: Python then answers `x in s` by
`any(e is x or e == x for e in s)`, with `e == x` calling `e.__eq__(x)`, and `reversed(s)` by `s[len(s) - 1]`, ..., `s[0]`
(not part of /repo).
-/

namespace Skymap

/-- `any(e is x or e == x for e in s)` where the loop runs over `get i` and `eq` is the comparison. -/
def anyM {ι α : Type} (get : ι → PyM α) (eq : α → PyM Bool) : List ι → PyM Bool
  | [] => .ok false
  | i :: l => do
    let e ← get i
    if ← eq e then return true
    anyM get eq l

/-- What may stand left of `in` for a tract or a patch: a patch, a cell, or an object without `getIndex`. -/
inductive InObj (W : Type)
  | patch (p : PatchInfo W)
  | cell (c : CellInfo W)
  | other

/-- `PatchInfo.__eq__` (patchInfo.py:350-355) for any object: `and` stops at the first difference; a cell has `getIndex`,
`getInnerBBox` and `getOuterBBox` (cellInfo.py:55-91), but not `getNumCells`. -/
def PatchInfo.eqObj {W : Type} (a : PatchInfo W) : InObj W → PyM Bool
  | .patch b => .ok (a.eq b)
  | .cell c => if a.index == c.index && a.innerBBox == c.innerBBox && a.outerBBox == c.outerBBox then .error .AttributeError else .ok false
  | .other => .error .AttributeError

/-- `CellInfo.__eq__` (cellInfo.py:155-158) for any object: a patch has all methods that are called. -/
def CellInfo.eqObj {W : Type} (a : CellInfo W) : InObj W → PyM Bool
  | .patch p => .ok (a.index == p.index && a.innerBBox == p.innerBBox && a.outerBBox == p.outerBBox)
  | .cell c => .ok (a.eq c)
  | .other => .error .AttributeError

/-- `x in patch`, by `__iter__` (patchInfo.py:337-341). -/
def PatchInfo.has {W : Type} (p : PatchInfo W) (x : InObj W) : PyM Bool :=
  anyM (fun i => p.getCellInfo (.index2D i)) (fun c => c.eqObj x)
    ((pyRange 0 p.numCells.y).flatMap fun y => (pyRange 0 p.numCells.x).map fun x => ⟨x, y⟩)

/-- `list(reversed(patch))`, by `__len__` and `__getitem__` (patchInfo.py:343-348). -/
def PatchInfo.reversed {W : Type} (p : PatchInfo W) : PyM (List (CellInfo W)) :=
  pyMapM (fun k : Int => p.getItem (.number k)) (pyRange 0 p.len).reverse

section
variable {Sky K σ : Type} [Field K] [LinearOrder K] [FloorRing K]

/-- `x in tract`, by `__iter__` (tractInfo.py:405-409), in one go with one builder state. -/
def TractInfo.has (t : TractInfo Sky K) (b : TractBuilder) (x : InObj (Wcs Sky K)) : PyM Bool :=
  anyM (fun i => t.getPatchInfo b (.index2D i)) (fun p => p.eqObj x)
    ((pyRange 0 t.numPatches.y).flatMap fun y => (pyRange 0 t.numPatches.x).map fun x => ⟨x, y⟩)

/-- `list(reversed(tract))`, by `__len__` and `__getitem__` (tractInfo.py:411-416). -/
def TractInfo.reversed (t : TractInfo Sky K) (b : TractBuilder) : PyM (List (PatchInfo (Wcs Sky K))) :=
  pyMapM (fun k : Int => t.getItem b (.number k)) (pyRange 0 t.len).reverse

namespace BaseSkyMap

/-- The loop of `x in skyMap`. -/
def hasTractFrom (M : SkyMapOps σ Sky K) (x : Option Nat) : List Nat → PyS σ Bool
  | [] => pure false
  | k :: l => do
    let r ← M.getItem (k : Int)
    if some r.oid = x then pure true else hasTractFrom M x l

/-- `x in skyMap`, by `__iter__` (cachingSkyMap.py:71-74, baseSkyMap.py:302-303).  `TractInfo` defines no `__eq__`, so `==` is identity:
`x` is the identity of a tract of this sky map, or `none` for any other object (that does not claim to be equal to tracts itself). -/
def hasTract (M : SkyMapOps σ Sky K) (x : Option Nat) : PyS σ Bool := hasTractFrom M x (List.range M.len)

/-- `list(reversed(skyMap))`, by `__len__` and `__getitem__` (cachingSkyMap.py:76-92, baseSkyMap.py:299-306). -/
def reversed (M : SkyMapOps σ Sky K) : PyS σ (List (TractRef Sky K)) :=
  PyS.mapM (fun k : Nat => M.getItem (k : Int)) (List.range M.len).reverse

end BaseSkyMap
end
end Skymap
