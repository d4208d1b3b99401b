import Verif.Model.Tract

/-!
# baseSkyMap.py and cachingSkyMap.py: sequences of tracts and searches

A sky map is mutable: accessing a tract may generate it (filling the cache) and every tract generation
overwrites the state of the tract builder shared by all tracts.  A method is a function from the state
before to its result (a value or an exception) and the state after; the state survives an exception.
-/

namespace Skymap

/-- A Python method acting on a mutable object of state `σ`. -/
def PyS (σ α : Type) := σ → PyM α × σ

namespace PyS
variable {σ α β : Type}

/-- Return a value, leaving the state alone. -/
protected def pure (a : α) : PyS σ α := fun s => (.ok a, s)

/-- Sequencing: an exception stops the method, keeping the state reached. -/
protected def bind (m : PyS σ α) (f : α → PyS σ β) : PyS σ β := fun s =>
  match m s with
  | (.ok a, s') => f a s'
  | (.error e, s') => (.error e, s')

instance : Monad (PyS σ) where
  pure := PyS.pure
  bind := PyS.bind

/-- A computation that does not touch the state. -/
def lift (x : PyM α) : PyS σ α := fun s => (x, s)

/-- Read the state. -/
def get : PyS σ σ := fun s => (.ok s, s)

/-- A `for` loop collecting one result per element. -/
def mapM (f : α → PyS σ β) : List α → PyS σ (List β)
  | [] => PyS.pure []
  | a :: l => PyS.bind (f a) fun b => PyS.bind (mapM f l) fun bs => PyS.pure (b :: bs)

/-- A `for` loop updating an accumulator. -/
def foldM (f : β → α → PyS σ β) : List α → β → PyS σ β
  | [], b => PyS.pure b
  | a :: l, b => PyS.bind (f b a) (foldM f l)

end PyS

section
variable {Sky K : Type}

/-- A `TractInfo` object: its contents and its identity (Python's `is`), a number that is different
for every object created. -/
structure TractRef (Sky K : Type) where
  oid : Nat
  info : TractInfo Sky K

/-- What a subclass of `CachingSkyMap` defines: the number of tracts and the arguments with which
`generateTract(index)` calls the tract constructor (or the exception it raises first). -/
structure CachingDef (Sky K : Type) where
  env : FloatEnv K
  ops : SkyOps Sky K
  numTracts : Nat
  tractArgs : Int → PyM (TractArgs Sky K)

/-- The mutable attributes of a `CachingSkyMap`: the shared tract builder (baseSkyMap.py:170) and the
cache (cachingSkyMap.py:54); `nextOid` counts the tract objects created so far. -/
structure MapState (Sky K : Type) where
  builder : TractBuilder
  cache : List (Option (TractRef Sky K))
  nextOid : Nat

/-- What the generic methods of `BaseSkyMap` use of a sky map: `len(self)`, `self[i]`, and the shared
tract builder reached through a tract. -/
structure SkyMapOps (σ Sky K : Type) where
  len : Nat
  getItem : Int → PyS σ (TractRef Sky K)
  builder : σ → TractBuilder

namespace CachingSkyMap
variable [Field K] [LinearOrder K] [FloorRing K]

/-- `__init__` (cachingSkyMap.py:51-56, baseSkyMap.py:158-170): nothing generated yet. -/
def init (m : CachingDef Sky K) (b : TractBuilder) : MapState Sky K :=
  ⟨b, List.replicate m.numTracts none, 0⟩

/-- `generateTract` (cachingSkyMap.py:94-96 and its overrides): computes the constructor arguments and
constructs the tract.  A construction that fails does so before `setupPatches` assigns the builder's
attributes (tractBuilder.py:88-91), so it leaves the builder as it was. -/
def generateTract (m : CachingDef Sky K) (index : Int) : PyS (MapState Sky K) (TractRef Sky K) := fun s =>
  match m.tractArgs index with
  | .error e => (.error e, s)
  | .ok a => match TractInfo.new m.env m.ops s.builder a with
    | .error e => (.error e, s)
    | .ok (t, b) => (.ok ⟨s.nextOid, t⟩, { s with builder := b, nextOid := s.nextOid + 1 })

/-- `__getitem__` (cachingSkyMap.py:80-92). -/
def getItem (m : CachingDef Sky K) (index : Int) : PyS (MapState Sky K) (TractRef Sky K) := fun s =>
  if index < 0 ∨ index > (m.numTracts : Int) then (.error .IndexError, s)
  else match pyGetItem s.cache index with
    | .error e => (.error e, s)
    | .ok (some r) => (.ok r, s)
    | .ok none => match generateTract m index s with
      | (.error e, s') => (.error e, s')
      | (.ok r, s') => (.ok r, { s' with cache := s'.cache.set index.toNat (some r) })

/-- A `CachingSkyMap` as seen by the generic methods: `__len__` (cachingSkyMap.py:76-78). -/
def skyMapOps (m : CachingDef Sky K) : SkyMapOps (MapState Sky K) Sky K where
  len := m.numTracts
  getItem := getItem m
  builder := MapState.builder

end CachingSkyMap

namespace EagerSkyMap
variable [Field K] [LinearOrder K] [FloorRing K]

/-- The loops in `DodecaSkyMap.__init__` (dodecaSkyMap.py:68-93) and `EquatSkyMap.__init__`
(equatSkyMap.py:64-99), which construct all tracts at once, with one shared builder. -/
def buildAll (env : FloatEnv K) (ops : SkyOps Sky K) : List (TractArgs Sky K) → Nat → TractBuilder →
    PyM (List (TractRef Sky K) × TractBuilder)
  | [], _, b => .ok ([], b)
  | a :: l, n, b => do
    let (t, b') ← TractInfo.new env ops b a
    let (ts, b'') ← buildAll env ops l (n + 1) b'
    return (⟨n, t⟩ :: ts, b'')

/-- The generic methods' view of a sky map with a list of tracts (baseSkyMap.py:299-306); its state,
the shared builder, is never changed after construction. -/
def skyMapOps (tracts : List (TractRef Sky K)) : SkyMapOps TractBuilder Sky K where
  len := tracts.length
  getItem i := PyS.lift (pyGetItem tracts i)
  builder b := b

end EagerSkyMap

namespace BaseSkyMap
variable [Field K] [LinearOrder K] [FloorRing K] {σ : Type}

/-- `for tractInfo in self: body` (cachingSkyMap.py:71-74, baseSkyMap.py:302-303): the body for tract i
runs after tract i was obtained and before tract i+1 is. -/
def forTracts {β : Type} (M : SkyMapOps σ Sky K) (body : Nat → TractRef Sky K → PyS σ β) : PyS σ (List β) :=
  PyS.mapM (fun i : Nat => do
    let t ← M.getItem (i : Int)
    body i t) (List.range M.len)

/-- `list(self)`. -/
def iter (M : SkyMapOps σ Sky K) : PyS σ (List (TractRef Sky K)) :=
  forTracts M fun _ t => pure t

/-- The order of the tuples `(angSep, i, tractInfo)` in `findTract`; `i` differs, so the tracts are
never compared. -/
def tupleLe (a b : K × Nat × TractRef Sky K) : Bool :=
  decide (a.1 < b.1) || (decide (a.1 = b.1) && decide (a.2.1 ≤ b.2.1))

/-- `findTract` (baseSkyMap.py:172-204). -/
def findTract (ops : SkyOps Sky K) (M : SkyMapOps σ Sky K) (coord : Sky) : PyS σ (TractRef Sky K) := do
  let l ← forTracts M fun i t => pure (ops.separation coord t.info.ctrCoord, i, t)
  match (pySort tupleLe l).head? with
  | some x => pure x.2.2
  | none => PyS.lift (.error .IndexError)

/-- `numpy.atleast_1d` of a scalar or a one-dimensional array. -/
inductive NpArg (K : Type)
  | scalar (x : K)
  | array (l : List K)

/-- `numpy.atleast_1d`. -/
def NpArg.atleast1d : NpArg K → List K
  | .scalar x => [x]
  | .array l => l

/-- `findTractIdArray` (baseSkyMap.py:206-245), for any `findTract`; `mkSky` makes a `SpherePoint` from
two numbers in the chosen unit. -/
def findTractIdArray (mkSky : K → K → Sky) (findTract : Sky → PyS σ (TractRef Sky K)) (ra dec : NpArg K) :
    PyS σ (List Int) :=
  PyS.mapM (fun c => do
    let t ← findTract c
    return t.info.id) ((ra.atleast1d.zip dec.atleast1d).map fun p => mkSky p.1 p.2)

/-- `tractInfo.findPatchList(coordList)` on a tract of the sky map, with the builder in its current
state. -/
def findPatchList (env : FloatEnv K) (M : SkyMapOps σ Sky K) (t : TractRef Sky K) (coordList : List Sky) :
    PyS σ (List (PatchInfo (Wcs Sky K))) := do
  let s ← PyS.get
  PyS.lift (t.info.findPatchList env (M.builder s) coordList)

/-- `findTractPatchList` (baseSkyMap.py:247-274). -/
def findTractPatchList (env : FloatEnv K) (M : SkyMapOps σ Sky K) (coordList : List Sky) :
    PyS σ (List (TractRef Sky K × List (PatchInfo (Wcs Sky K)))) := do
  let l ← forTracts M fun _ t => do
    let pl ← findPatchList env M t coordList
    return (t, pl)
  return l.filter fun e => !e.2.isEmpty

/-- `a == b` on lists of patches (element-wise `PatchInfo.__eq__`). -/
def patchListEq {W : Type} : List (PatchInfo W) → List (PatchInfo W) → Bool
  | [], [] => true
  | a :: l, b :: l' => a.eq b && patchListEq l l'
  | _, _ => false

/-- `(tractInfo, patchList) in retList` (baseSkyMap.py:295): tracts are compared by identity, as
`TractInfo` does not define `__eq__`. -/
def inRetList (e : TractRef Sky K × List (PatchInfo (Wcs Sky K)))
    (l : List (TractRef Sky K × List (PatchInfo (Wcs Sky K)))) : Bool :=
  l.any fun x => decide (x.1.oid = e.1.oid) && patchListEq x.2 e.2

/-- `findClosestTractPatchList` (baseSkyMap.py:276-297), for any `findTract`. -/
def findClosestTractPatchList (env : FloatEnv K) (M : SkyMapOps σ Sky K)
    (findTract : Sky → PyS σ (TractRef Sky K)) (coordList : List Sky) :
    PyS σ (List (TractRef Sky K × List (PatchInfo (Wcs Sky K)))) :=
  PyS.foldM (fun retList c => do
    let t ← findTract c
    let pl ← findPatchList env M t coordList
    return if !pl.isEmpty && !inRetList (t, pl) retList then retList ++ [(t, pl)] else retList) coordList []

end BaseSkyMap
end
end Skymap
