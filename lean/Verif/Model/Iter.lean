import Verif.Model.SkyMap

/-! # Iterators over the tracts of a sky map and over the patches of a tract

`CachingSkyMap.__iter__` (cachingSkyMap.py:71-74) and `TractInfo.__iter__` (tractInfo.py:405-409) are generators: each call of `next`
runs the body up to the following `yield`, with the sky map as it is by then.  Between two calls the program can do anything else
with the sky map, other iterators included. -/

namespace Skymap
variable {Sky K σ : Type}

/-- What one call of `next(iterator)` does: give a value, raise an exception other than `StopIteration`, or raise `StopIteration`. -/
inductive NextRes (α : Type)
  | yields (a : α)
  | raises (e : PyErr)
  | stop
  deriving DecidableEq

/-- An iterator over the tracts: the index that comes next (`none`: the generator has ended, after the last tract or by an exception),
and what the calls of `next` did so far. -/
structure TractIter (Sky K : Type) where
  pos : Option Nat
  out : List (NextRes (TractRef Sky K))

/-- An iterator over the patches of a tract: the indices still to come (none after an exception), and what the calls of `next` did so
far. -/
structure PatchIter (Sky K : Type) where
  tract : TractRef Sky K
  rest : List Index2D
  out : List (NextRes (PatchInfo (Wcs Sky K)))

/-- A program that uses a sky map: the sky map and the iterators that it has opened, oldest first. -/
structure Session (σ Sky K : Type) where
  state : σ
  tracts : List (TractIter Sky K)
  patches : List (PatchIter Sky K)

/-- What the program does: `skyMap[i]`, `iter(skyMap)`, `next` of the j-th iterator over tracts, `iter(skyMap[i])`, `next` of the j-th
iterator over patches. -/
inductive Use
  | access (i : Int)
  | iterTracts
  | nextTract (j : Nat)
  | iterPatches (i : Int)
  | nextPatch (j : Nat)

section
variable [Field K] [LinearOrder K] [FloorRing K]

/-- `next` of an iterator over tracts (cachingSkyMap.py:73-74; baseSkyMap.py:302-303, a list iterator, behaves the same way). -/
def TractIter.next (M : SkyMapOps σ Sky K) (it : TractIter Sky K) (s : σ) : TractIter Sky K × σ :=
  match it.pos with
  | none => (⟨none, it.out ++ [.stop]⟩, s)
  | some k =>
    if k < M.len then
      match M.getItem (k : Int) s with
      | (.ok r, s') => (⟨some (k + 1), it.out ++ [.yields r]⟩, s')
      | (.error e, s') => (⟨none, it.out ++ [.raises e]⟩, s')
    else (⟨none, it.out ++ [.stop]⟩, s)

/-- `iter(tract)`: the indices of tractInfo.py:406-408. -/
def PatchIter.start (t : TractRef Sky K) : PatchIter Sky K :=
  ⟨t, (pyRange 0 t.info.numPatches.y).flatMap fun y => (pyRange 0 t.info.numPatches.x).map fun x => ⟨x, y⟩, []⟩

/-- `next` of an iterator over patches (tractInfo.py:409), with the shared builder as it is at this moment. -/
def PatchIter.next (it : PatchIter Sky K) (b : TractBuilder) : PatchIter Sky K :=
  match it.rest with
  | [] => { it with out := it.out ++ [.stop] }
  | i :: l => match it.tract.info.getPatchInfo b (.index2D i) with
    | .ok p => { it with rest := l, out := it.out ++ [.yields p] }
    | .error e => { it with rest := [], out := it.out ++ [.raises e] }

/-- One step of the program. -/
def Session.step (M : SkyMapOps σ Sky K) (S : Session σ Sky K) : Use → Session σ Sky K
  | .access i => { S with state := (M.getItem i S.state).2 }
  | .iterTracts => { S with tracts := S.tracts ++ [⟨some 0, []⟩] }
  | .nextTract j => match S.tracts[j]? with
    | none => S
    | some it => { S with state := (it.next M S.state).2, tracts := S.tracts.set j (it.next M S.state).1 }
  | .iterPatches i => match M.getItem i S.state with
    | (.ok r, s') => { S with state := s', patches := S.patches ++ [PatchIter.start r] }
    | (.error _, s') => { S with state := s' }
  | .nextPatch j => match S.patches[j]? with
    | none => S
    | some it => { S with patches := S.patches.set j (it.next (M.builder S.state)) }

/-- A program run on a sky map in the given state. -/
def Session.run (M : SkyMapOps σ Sky K) (s : σ) (prog : List Use) : Session σ Sky K :=
  prog.foldl (Session.step M) ⟨s, [], []⟩

end
end Skymap
