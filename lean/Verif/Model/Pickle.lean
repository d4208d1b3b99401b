import Verif.Model.Sha1

/-!
# Whole sky map objects and pickling

cachingSkyMap.py `__reduce__`, dodecaSkyMap.py and equatSkyMap.py `__getstate__`, `__setstate__`.
-/

namespace Skymap
variable {Sky K : Type}

/-- The tracts of a sky map: generated on demand, or all at once (with the shared builder). -/
inductive Tracts (Sky K : Type)
  | caching (m : CachingDef Sky K) (s : MapState Sky K)
  | eager (l : List (TractRef Sky K)) (b : TractBuilder)

/-- A sky map object. -/
structure SkyMapObj (Sky K : Type) where
  hashed : HashedMap
  tracts : Tracts Sky K

/-- What the constructor of each class does beyond `BaseSkyMap.__init__`, as a function of class, configuration and version:
for `CachingSkyMap`s the number of tracts and how one is generated, for the others the constructor arguments of all tracts.
Any function: what it is for the classes of /repo is modelled in the file of each class. -/
structure ClassImpl (Sky K : Type) where
  env : FloatEnv K
  ops : SkyOps Sky K
  tracts : MapClass → SkyMapConfig Dbl → Version → PyM (CachingDef Sky K ⊕ List (TractArgs Sky K))

/-- Dodeca and Equat sky maps are not `CachingSkyMap`s. -/
def MapClass.isCaching : MapClass → Bool
  | .dodeca _ => false
  | .equat _ _ => false
  | _ => true

namespace SkyMapObj
variable [Field K] [LinearOrder K] [FloorRing K]

/-- The `_version` attribute: the argument `version` of a `CachingSkyMap` (cachingSkyMap.py:56), the class attribute (1, 0) of
the others, whose constructors take no version (dodecaSkyMap.py:66, equatSkyMap.py:62). -/
def versionOf (cls : MapClass) (version : Version) : Version :=
  if cls.isCaching then version else .tuple [1, 0]

/-- The constructors of the sky map classes (cachingSkyMap.py:51-56, dodecaSkyMap.py:68-93, equatSkyMap.py:64-99).
Simplification: the order in which the base class and the subclass raise exceptions. -/
def new (impl : ClassImpl Sky K) (cls : MapClass) (config : SkyMapConfig Dbl) (version : Version) :
    PyM (SkyMapObj Sky K) :=
  match BaseSkyMap.init config with
  | (.error e, _) => .error e
  | (.ok b, config) => match impl.tracts cls config (versionOf cls version) with
    | .error e => .error e
    | .ok (.inl m) => .ok ⟨⟨cls, config, versionOf cls version, none⟩, .caching m (CachingSkyMap.init m b)⟩
    | .ok (.inr l) => match EagerSkyMap.buildAll impl.env impl.ops l 0 b with
      | .error e => .error e
      | .ok (ts, b) => .ok ⟨⟨cls, config, versionOf cls version, none⟩, .eager ts b⟩

/-- `skyMap[index]`. -/
def getItem (index : Int) : PyS (SkyMapObj Sky K) (TractRef Sky K) := fun o =>
  match o.tracts with
  | .caching m s => match CachingSkyMap.getItem m index s with
    | (x, s') => (x, { o with tracts := .caching m s' })
  | .eager l _ => (pyGetItem l index, o)

/-- `len(skyMap)` (cachingSkyMap.py:76-78, baseSkyMap.py:305-306). -/
def len (o : SkyMapObj Sky K) : Nat :=
  match o.tracts with
  | .caching m _ => m.numTracts
  | .eager l _ => l.length

/-- `skyMap.getSha1()`. -/
def getSha1 (H : Bytes → Bytes) : PyS (SkyMapObj Sky K) Bytes := fun o =>
  match HashedMap.getSha1 H o.hashed with
  | (x, h) => (x, { o with hashed := h })

/-- An assignment to a field of `skyMap.config`, or of a sub-config. -/
def assign (f : SkyMapConfig Dbl → SkyMapConfig Dbl) : PyS (SkyMapObj Sky K) Unit := fun o =>
  match SkyMapConfig.assign f o.hashed.config with
  | (x, c) => (x, { o with hashed := { o.hashed with config := c } })

end SkyMapObj

/-- What is written to the pickle: `(class, (config, version))` (cachingSkyMap.py:58-69) or the class and the state dict
(dodecaSkyMap.py:95-108, equatSkyMap.py:101-114). -/
inductive Pickled
  | reduce (cls : MapClass) (config : SkyMapConfig Dbl) (version : Version)
  | state (cls : MapClass) (version : Version) (config : SkyMapConfig Dbl)

/-- Python's `a >= b` on tuples of ints. -/
def tupleGe : List Int → List Int → Bool
  | _, [] => true
  | [], _ :: _ => false
  | a :: l, b :: l' => decide (a > b) || (decide (a = b) && tupleGe l l')

/-- `version >= (2, 0)`; comparing an int with a tuple raises `TypeError`. -/
def Version.ge20 : Version → PyM Bool
  | .int _ => .error .TypeError
  | .tuple v => .ok (tupleGe v [2, 0])

/-- Pickling uses these attributes only. -/
def HashedMap.pickle (h : HashedMap) : Pickled :=
  if h.cls.isCaching then .reduce h.cls h.config h.version else .state h.cls h.version h.config

namespace SkyMapObj
variable [Field K] [LinearOrder K] [FloorRing K]

/-- Pickling: `__reduce__` of `CachingSkyMap` (cachingSkyMap.py:58-69), `__getstate__` of the others. -/
def pickle (o : SkyMapObj Sky K) : Pickled := o.hashed.pickle

/-- Unpickling: calls the class with the arguments, or `__setstate__` (dodecaSkyMap.py:110-122, equatSkyMap.py:116-129).  A
configuration is pickled by value; the copy is not frozen. -/
def unpickle (impl : ClassImpl Sky K) : Pickled → PyM (SkyMapObj Sky K)
  | .reduce cls config version => new impl cls { config with frozen := false } version
  | .state cls version config => do
    let newer ← version.ge20
    if newer then throw .RuntimeError
    new impl cls { config with frozen := false } version

end SkyMapObj
end Skymap
