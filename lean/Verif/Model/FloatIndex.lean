import Verif.Model.NonFinite
import Verif.Model.SkyMap

/-!
# Indices that are floats

`__getitem__`, `getPatchInfo`, `getCellInfo` and the conversions between pairs and sequential indices, for indices that may be Python
floats (numpy.float64 is a subclass) instead of ints.  `Model/TractBuilder.lean`, `Model/Patch.lean` and `Model/SkyMap.lean` are the same code
for ints.  Simplification: a Python int in arithmetic with a float is converted without overflow.
-/

namespace Skymap

/-- A Python number: an `int` or a `float`. -/
inductive PyNum (K : Type)
  | int (n : Int)
  | float (x : XFloat K)
  deriving DecidableEq

/-- Python's arithmetic of a float with an int or a float: `x % n`, `x // n` for an int `n` other than zero, `x * n`, `u + v` (not part of /repo). -/
structure PyFloatOps (K : Type) where
  mod : XFloat K → Int → XFloat K
  floorDiv : XFloat K → Int → XFloat K
  mul : XFloat K → Int → XFloat K
  add : PyNum K → PyNum K → XFloat K

/-- An `Index2D` whose fields may be floats: the NamedTuple (detail/utils.py:81-93) does not check them. -/
structure Index2DX (K : Type) where
  x : PyNum K
  y : PyNum K
  deriving DecidableEq

/-- The `index` argument, as `IndexArg`, with numbers that may be floats. -/
inductive IndexArgX (K : Type)
  | index2D (i : Index2DX K)
  | number (v : PyNum K)
  | seq (l : List (PyNum K))
  deriving DecidableEq

variable {K : Type}

namespace PyNum

/-- `v * n`, or `n * v`. -/
def mul (F : PyFloatOps K) (v : PyNum K) (n : Int) : PyNum K :=
  match v with
  | .int m => .int (n * m)
  | .float x => .float (F.mul x n)

/-- `u + v`. -/
def add (F : PyFloatOps K) (u v : PyNum K) : PyNum K :=
  match u, v with
  | .int m, .int n => .int (m + n)
  | u, v => .float (F.add u v)

/-- `v % n`. -/
def mod (F : PyFloatOps K) (v : PyNum K) (n : Int) : PyM (PyNum K) :=
  match v with
  | .int m => (pyMod m n).map .int
  | .float x => if n = 0 then .error .ZeroDivisionError else .ok (.float (F.mod x n))

/-- `v // n`. -/
def floorDiv (F : PyFloatOps K) (v : PyNum K) (n : Int) : PyM (PyNum K) :=
  match v with
  | .int m => (pyFloorDiv m n).map .int
  | .float x => if n = 0 then .error .ZeroDivisionError else .ok (.float (F.floorDiv x n))

/-- The conversion to a C int of an argument of `geom.Point2I` (pybind11, not part of /repo): floats are refused. -/
def toCInt (v : PyNum K) : PyM Int :=
  match v with
  | .int n => .ok n
  | .float _ => .error .TypeError

variable [Field K] [LinearOrder K] [FloorRing K]

/-- `0 <= v < n`. -/
def inRange (v : PyNum K) (n : Int) : Bool :=
  match v with
  | .int m => decide (0 ≤ m ∧ m < n)
  | .float x => x.ge 0 && x.lt (n : K)

end PyNum

/-- `Index2D(*l)` (detail/utils.py:81-93). -/
def Index2DX.ofSeq : List (PyNum K) → PyM (Index2DX K)
  | [x, y] => .ok ⟨x, y⟩
  | _ => .error .TypeError

/-- `geom.Point2I(*[u, v])` for an index with the components u and v: from here on both are ints. -/
def Index2DX.toCInts (i : Index2DX K) : PyM Index2D := do
  let x ← i.x.toCInt
  let y ← i.y.toCInt
  return ⟨x, y⟩

namespace TractBuilder

/-- `getSequentialPatchIndexFromPair` (tractBuilder.py:144-165). -/
def getSequentialPatchIndexFromPairX (F : PyFloatOps K) (b : TractBuilder) (index : IndexArgX K) : PyM (PyNum K) := do
  let i ← match index with
    | .index2D i => Except.ok i
    | .number _ => .error .ValueError
    | .seq l => if l.length ≠ 2 then .error .ValueError else Index2DX.ofSeq l
  let st ← b.getState
  return (i.y.mul F st.numPatches.x).add F i.x

/-- `getPatchIndexPair` (tractBuilder.py:167-181). -/
def getPatchIndexPairX (F : PyFloatOps K) (b : TractBuilder) (v : PyNum K) : PyM (Index2DX K) := do
  let st ← b.getState
  let x ← v.mod F st.numPatches.x
  let y ← v.floorDiv F st.numPatches.x
  return ⟨x, y⟩

/-- tractBuilder.py:227-233 and 324-330. -/
def resolveX (F : PyFloatOps K) (b : TractBuilder) : IndexArgX K → PyM (Index2DX K)
  | .index2D i => .ok i
  | .number v => b.getPatchIndexPairX F v
  | .seq l => Index2DX.ofSeq l

variable [Field K] [LinearOrder K] [FloorRing K]

/-- `getPatchInfo` (tractBuilder.py:223-253 and 320-354) up to `geom.Point2I(...)` (lines 238 and 335), of which the components are products
of the index and the dimensions of a patch, floats where the index is; from there on the index consists of ints and the rest is that of
`getPatchInfo` (which repeats the comparisons). -/
def getPatchInfoX {W : Type} (F : PyFloatOps K) (b : TractBuilder) (index : IndexArgX K) (tractWcs : W) : PyM (PatchInfo W) :=
  match b.state with
  | none => .error .RuntimeError
  | some st => do
    let i ← b.resolveX F index
    if !i.x.inRange st.numPatches.x || !i.y.inRange st.numPatches.y then throw .IndexError
    let _ ← Index2DX.toCInts ⟨i.x.mul F b.patchInnerDimensions.x, i.y.mul F b.patchInnerDimensions.y⟩
    let i ← i.toCInts
    b.getPatchInfo (.index2D i) tractWcs

end TractBuilder

namespace PatchInfo
variable {W : Type}

/-- `getSequentialCellIndexFromPair` (patchInfo.py:289-311). -/
def getSequentialCellIndexFromPairX (F : PyFloatOps K) (p : PatchInfo W) (index : IndexArgX K) : PyM (PyNum K) := do
  let i ← match index with
    | .index2D i => Except.ok i
    | .number _ => .error .TypeError
    | .seq l => Index2DX.ofSeq l
  return (i.y.mul F p.numCells.x).add F i.x

/-- `getCellIndexPair` (patchInfo.py:313-335). -/
def getCellIndexPairX (F : PyFloatOps K) (p : PatchInfo W) (v : PyNum K) : PyM (Index2DX K) :=
  if p.numCells.x = 0 ∨ p.numCells.y = 0 then .error .IndexError
  else do
    let x ← v.mod F p.numCells.x
    let y ← v.floorDiv F p.numCells.x
    return ⟨x, y⟩

/-- patchInfo.py:230-236. -/
def resolveCellX (F : PyFloatOps K) (p : PatchInfo W) : IndexArgX K → PyM (Index2DX K)
  | .index2D i => .ok i
  | .number v => p.getCellIndexPairX F v
  | .seq l => Index2DX.ofSeq l

variable [Field K] [LinearOrder K] [FloorRing K]

/-- `getCellInfo` (patchInfo.py:208-260) up to `Point2I(...)` (line 245), of which a component is a float if that of the index is; the
rest as in `getCellInfo`. -/
def getCellInfoX (F : PyFloatOps K) (p : PatchInfo W) (index : IndexArgX K) : PyM (CellInfo W) :=
  if p.numCells.x = 0 ∨ p.numCells.y = 0 then .error .IndexError
  else do
    let i ← p.resolveCellX F index
    if !i.x.inRange p.numCells.x || !i.y.inRange p.numCells.y then throw .IndexError
    let _ ← Index2DX.toCInts
      ⟨((i.x.add F (.int (-p.numCellsInPatchBorder))).mul F p.cellInnerDimensions.x).add F (.int p.innerBBox.getMin.x),
       ((i.y.add F (.int (-p.numCellsInPatchBorder))).mul F p.cellInnerDimensions.y).add F (.int p.innerBBox.getMin.y)⟩
    let i ← i.toCInts
    p.getCellInfo (.index2D i)

end PatchInfo

section
variable [Field K] [LinearOrder K] [FloorRing K] {Sky : Type}

/-- `CachingSkyMap.__getitem__` (cachingSkyMap.py:80-92): `"%d" % index` (line 87) fails for infinities, a list refuses a float as an
index (line 88). -/
def CachingSkyMap.getItemX (m : CachingDef Sky K) (v : PyNum K) : PyS (MapState Sky K) (TractRef Sky K) :=
  match v with
  | .int n => CachingSkyMap.getItem m n
  | .float x => fun s =>
    if x.lt 0 || x.gt (m.numTracts : K) then
      match x with
      | .fin _ | .nan => (.error .IndexError, s)
      | _ => (.error .OverflowError, s)
    else (.error .TypeError, s)

/-- `BaseSkyMap.__getitem__` (baseSkyMap.py:299-300): an index into a list. -/
def EagerSkyMap.getItemX (tracts : List (TractRef Sky K)) (v : PyNum K) : PyM (TractRef Sky K) :=
  match v with
  | .int n => pyGetItem tracts n
  | .float _ => .error .TypeError

end
end Skymap
