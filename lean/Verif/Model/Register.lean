import Verif.Model.Pickle
import Verif.Model.Packer

/-!
# baseSkyMap.py: `register`

The butler is not part of /repo.  Its registry is modelled by four tables and two flags; the constraints are those of the
dimension universe: the skymap table has the primary key `skymap` and a unique `hash`; tract, patch and dataset rows have their
data ID as key and must refer to existing rows.  Every call to the butler, and the commit of the transaction, may also fail for
reasons of its own (database down, disk full): `fault n` says whether, and how, the n-th call fails.
-/

namespace Skymap

/-- A row of the skymap table. -/
structure SkymapRec where
  skymap : String
  hash : Bytes
  tractMax : Int
  patchNxMax : Int
  patchNyMax : Int
  deriving DecidableEq, Repr

/-- A row of the tract table. -/
structure TractRec (Sky : Type) where
  skymap : String
  tract : Int
  region : List Sky
  deriving DecidableEq, Repr

/-- A row of the patch table. -/
structure PatchRec (Sky : Type) where
  skymap : String
  tract : Int
  patch : Int
  cellX : Int
  cellY : Int
  region : List Sky
  deriving DecidableEq, Repr

/-- A stored skyMap dataset: its data ID and its contents. -/
structure DatasetRec where
  skymap : String
  content : Pickled

/-- The part of a butler repository that `register` uses. -/
structure Registry (Sky : Type) where
  skymaps : List SkymapRec := []
  tracts : List (TractRec Sky) := []
  patches : List (PatchRec Sky) := []
  datasets : List DatasetRec := []
  hasRun : Bool := false
  hasDatasetType : Bool := false

/-- A sky map (its tracts, in state `map`, and the attributes for hashing) and a butler, which has been called `calls` times. -/
structure World (σ Sky : Type) where
  map : σ
  hashed : HashedMap
  reg : Registry Sky
  calls : Nat

variable {σ Sky K : Type}

namespace Butler
variable (fault : Nat → Option PyErr)

/-- A call to the butler: fails by itself, or acts on the registry. -/
def call {α : Type} (f : Registry Sky → PyM (α × Registry Sky)) : PyS (World σ Sky) α := fun w =>
  let w' := { w with calls := w.calls + 1 }
  match fault w.calls with
  | some e => (.error e, w')
  | none => match f w.reg with
    | .error e => (.error e, w')
    | .ok (a, r) => (.ok a, { w' with reg := r })

/-- `butler.registry.registerRun("skymaps")`. -/
def registerRun : PyS (World σ Sky) Unit := call fault fun r => .ok ((), { r with hasRun := true })

/-- `butler.registry.registerDatasetType(datasetType)`. -/
def registerDatasetType : PyS (World σ Sky) Unit := call fault fun r => .ok ((), { r with hasDatasetType := true })

/-- `butler.registry.syncDimensionData("skymap", record)`: `False` if this very row is there; otherwise inserts it and returns
`True`, unless the key or the unique hash is taken. -/
def syncSkymap (rec : SkymapRec) : PyS (World σ Sky) Bool := call fault fun r =>
  if rec ∈ r.skymaps then .ok (false, r)
  else if r.skymaps.any (fun x => x.skymap == rec.skymap || x.hash == rec.hash) then .error .ConflictingDefinitionError
  else .ok (true, { r with skymaps := r.skymaps ++ [rec] })

/-- `butler.registry.insertDimensionData("tract", record)`. -/
def insertTract (rec : TractRec Sky) : PyS (World σ Sky) Unit := call fault fun r =>
  if r.tracts.any (fun x => x.skymap == rec.skymap && decide (x.tract = rec.tract)) then .error .IntegrityError
  else if !r.skymaps.any (fun x => x.skymap == rec.skymap) then .error .IntegrityError
  else .ok ((), { r with tracts := r.tracts ++ [rec] })

/-- The key of a patch row. -/
def patchKey (p : PatchRec Sky) : String × Int × Int := (p.skymap, p.tract, p.patch)

/-- `butler.registry.insertDimensionData("patch", *records)`: all or nothing. -/
def insertPatches (recs : List (PatchRec Sky)) : PyS (World σ Sky) Unit := call fault fun r =>
  if recs.any (fun p => r.patches.any (fun x => patchKey x == patchKey p)) || !decide (recs.map patchKey).Nodup then
    .error .IntegrityError
  else if !recs.all (fun p => r.tracts.any (fun x => x.skymap == p.skymap && decide (x.tract = p.tract))) then
    .error .IntegrityError
  else .ok ((), { r with patches := r.patches ++ recs })

/-- `butler.put(self, datasetType, {"skymap": name}, run="skymaps")`. -/
def put (name : String) : PyS (World σ Sky) Unit := fun w => call fault (fun r =>
  if r.datasets.any (fun x => x.skymap == name) then .error .ConflictingDefinitionError
  else if !r.skymaps.any (fun x => x.skymap == name) || !r.hasRun || !r.hasDatasetType then .error .IntegrityError
  else .ok ((), { r with datasets := r.datasets ++ [⟨name, w.hashed.pickle⟩] })) w

/-- `with butler.transaction(): body`: an exception, also one raised by the commit, restores the registry. -/
def transaction {α : Type} (body : PyS (World σ Sky) α) : PyS (World σ Sky) α := fun w =>
  match body w with
  | (.error e, w') => (.error e, { w' with reg := w.reg })
  | (.ok a, w') => match call fault (fun r => .ok ((), r)) w' with
    | (.error e, w'') => (.error e, { w'' with reg := w.reg })
    | (.ok _, w'') => (.ok a, w'')

end Butler

/-- Python's `max` of a sequence of ints. -/
def pyMax : List Int → PyM Int
  | [] => .error .ValueError
  | a :: l => .ok (l.foldl max a)

/-- A method of the sky map's tracts. -/
def onMap {α : Type} (m : PyS σ α) : PyS (World σ Sky) α := fun w =>
  match m w.map with
  | (x, s) => (x, { w with map := s })

/-- `self.getSha1()`. -/
def worldSha1 (H : Bytes → Bytes) : PyS (World σ Sky) Bytes := fun w =>
  match HashedMap.getSha1 H w.hashed with
  | (x, h) => (x, { w with hashed := h })

/-- The sky map of a world. -/
def worldOps (M : SkyMapOps σ Sky K) : SkyMapOps (World σ Sky) Sky K where
  len := M.len
  getItem i := onMap (M.getItem i)
  builder w := M.builder w.map

namespace BaseSkyMap
variable [Field K] [LinearOrder K] [FloorRing K]

/-- The patch records of a tract (baseSkyMap.py:460-472): `for patchInfo in tractInfo` (tractInfo.py:405-409), with the shared
builder in state `b`. -/
def patchRecords (name : String) (t : TractInfo Sky K) (b : TractBuilder) : PyM (List (PatchRec Sky)) :=
  pyMapM (fun i : Index2D => do
    let p ← t.getPatchInfo b (.index2D i)
    let n ← t.getSequentialPatchIndex b p
    return ⟨name, t.id, n, p.index.x, p.index.y, p.getOuterSkyPolygon (some t.wcs)⟩)
    ((pyRange 0 t.numPatches.y).flatMap fun y => (pyRange 0 t.numPatches.x).map fun x => ⟨x, y⟩)

/-- The loop body for one tract (baseSkyMap.py:450-473). -/
def registerTract (fault : Nat → Option PyErr) (M : SkyMapOps σ Sky K) (name : String) (t : TractRef Sky K) :
    PyS (World σ Sky) Unit := do
  Butler.insertTract fault ⟨name, t.info.id, t.info.getOuterSkyPolygon⟩
  let w ← PyS.get
  let recs ← PyS.lift (patchRecords name t.info (M.builder w.map))
  Butler.insertPatches fault recs

/-- What is done if the skymap record was inserted (baseSkyMap.py:448-475). -/
def registerContents (fault : Nat → Option PyErr) (M : SkyMapOps σ Sky K) (name : String) : Bool → PyS (World σ Sky) Unit
  | false => pure ()
  | true => do
    let _ ← forTracts (worldOps M) fun _ t => registerTract fault M name t
    Butler.put fault name

/-- The skymap record (baseSkyMap.py:417-427). -/
def skymapRecord (H : Bytes → Bytes) (M : SkyMapOps σ Sky K) (name : String) : PyS (World σ Sky) SkymapRec := do
  let numPatches ← onMap (forTracts M fun _ t => pure t.info.numPatches)
  let nxMax ← PyS.lift (pyMax (numPatches.map fun n => n.x))
  let nyMax ← PyS.lift (pyMax (numPatches.map fun n => n.y))
  let h ← worldSha1 H
  return ⟨name, h, M.len, nxMax, nyMax⟩

/-- `register` (baseSkyMap.py:387-475).  A `ConflictingDefinitionError` of `syncDimensionData` is raised again as another
`ConflictingDefinitionError` (baseSkyMap.py:442-447). -/
def register (H : Bytes → Bytes) (fault : Nat → Option PyErr) (M : SkyMapOps σ Sky K) (name : String) :
    PyS (World σ Sky) Unit := do
  let rec ← skymapRecord H M name
  Butler.registerRun fault
  Butler.registerDatasetType fault
  Butler.transaction fault do
    let inserted ← Butler.syncSkymap fault rec
    registerContents fault M name inserted

end BaseSkyMap
end Skymap
