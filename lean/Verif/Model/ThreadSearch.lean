import Verif.Model.Threads

/-!
# Searches for tracts and patches in a sky map shared by threads

`findTractPatchList` and `findClosestTractPatchList` (baseSkyMap.py:247-297) and the override of the former in ringsSkyMap.py:361-368, as sequences of
atomic steps: each tract is obtained by `skyMap[i]` (or a `findTract` that uses it), and `findPatchList` of that tract reads the attributes of the
shared tract builder, while other threads may construct tracts.  The list under construction, `retList`, is a local variable.
-/

namespace Skymap

/-- A `for` loop updating an accumulator. -/
def Thread.foldM {σ α β : Type} (f : β → α → Thread σ β) : List α → β → Thread σ β
  | [], b => .done (.ok b)
  | a :: l, b => (f b a).bind (Thread.foldM f l)

namespace Threads
variable {Sky K : Type}

/-- What the searches return: tracts with patches. -/
abbrev Found (Sky K : Type) := List (TractRef Sky K × List (PatchInfo (Wcs Sky K)))

/-- The `findTract` of a class: inherited from `BaseSkyMap`, or one that computes the number of the tract from the position (see `findTractAt`). -/
inductive Finder (Sky : Type)
  | inherited
  | byNumber (index : Sky → PyM Int)

variable [Field K] [LinearOrder K] [FloorRing K]

/-- `self.findTract(coord)`. -/
def Finder.run (m : CachingDef Sky K) (b : TractBuilder) : Finder Sky → Sky → Thread (SharedMap Sky K) (TractRef Sky K)
  | .inherited, c => findTract m b c
  | .byNumber index, c => findTractAt m b (index c)

/-- `findTractPatchList` (baseSkyMap.py:247-274); tracts without patches are left out at the end instead of in the loop, as in
`BaseSkyMap.findTractPatchList`. -/
def findTractPatchList (m : CachingDef Sky K) (b : TractBuilder) (coordList : List Sky) : Thread (SharedMap Sky K) (Found Sky K) := do
  let l ← Thread.mapM (fun i : Nat => do
    let t ← getItem m b (i : Int)
    let pl ← findPatchList m.env b t.info coordList
    return (t, pl)) (List.range m.numTracts)
  return l.filter fun e => !e.2.isEmpty

/-- The end of the loop body (baseSkyMap.py:294-296, ringsSkyMap.py:366-367). -/
def addFound (retList : Found Sky K) (t : TractRef Sky K) (pl : List (PatchInfo (Wcs Sky K))) : Found Sky K :=
  if !pl.isEmpty && !BaseSkyMap.inRetList (t, pl) retList then retList ++ [(t, pl)] else retList

/-- `findClosestTractPatchList` (baseSkyMap.py:276-297). -/
def findClosestTractPatchList (m : CachingDef Sky K) (b : TractBuilder) (find : Finder Sky) (coordList : List Sky) :
    Thread (SharedMap Sky K) (Found Sky K) :=
  Thread.foldM (fun retList c => do
    let t ← find.run m b c
    let pl ← findPatchList m.env b t.info coordList
    return addFound retList t pl) coordList []

/-- `RingsSkyMap.findTractPatchList` (ringsSkyMap.py:361-368); `near c` are the numbers of the tracts that `findAllTracts(c)` looks at. -/
def ringsTractPatchList (m : CachingDef Sky K) (b : TractBuilder) (near : Sky → PyM (List Int)) (coordList : List Sky) :
    Thread (SharedMap Sky K) (Found Sky K) :=
  Thread.foldM (fun retList c => do
    let ts ← findAllTracts m b (near c) c
    Thread.foldM (fun retList t => do
      let pl ← findPatchList m.env b t.info coordList
      return addFound retList t pl) ts retList) coordList []

/-- What threads ask for: one of the calls of `Call`, or a search. -/
inductive Request (Sky K : Type)
  | call (q : Call Sky K)
  | all (coordList : List Sky)
  | closest (find : Finder Sky) (coordList : List Sky)
  | rings (near : Sky → PyM (List Int)) (coordList : List Sky)

/-- What they are given. -/
inductive Answer (Sky K : Type)
  | value (v : Value Sky K)
  | found (l : Found Sky K)

/-- The method run by a request. -/
def serve (m : CachingDef Sky K) (b : TractBuilder) (H : Bytes → Bytes) (message : PyM Bytes) :
    Request Sky K → Thread (SharedMap Sky K) (Answer Sky K)
  | .call q => do return .value (← program m b H message q)
  | .all l => do return .found (← findTractPatchList m b l)
  | .closest find l => do return .found (← findClosestTractPatchList m b find l)
  | .rings near l => do return .found (← ringsTractPatchList m b near l)

/-- The tracts in an answer. -/
def Answer.Has (t : TractRef Sky K) : Answer Sky K → Prop
  | .value v => v = .tract t ∨ ∃ l, v = .tracts l ∧ t ∈ l
  | .found l => ∃ pl, (t, pl) ∈ l

/-- Threads call methods of tracts that they were given. -/
def permitted (ended : List (Request Sky K × PyM (Answer Sky K))) : Request Sky K → Prop
  | .call q => ∀ t, q.on = some t → ∃ p v, (p, .ok v) ∈ ended ∧ v.Has t
  | _ => True

/-- Everything that any number of threads can do with a caching sky map, searches included, starting from the shared state `s₀`. -/
def Served (m : CachingDef Sky K) (b : TractBuilder) (H : Bytes → Bytes) (message : PyM Bytes) (s₀ : SharedMap Sky K) :
    System (SharedMap Sky K) (Request Sky K) (Answer Sky K) → Prop :=
  System.Reached permitted (serve m b H message) s₀

end Threads
end Skymap
