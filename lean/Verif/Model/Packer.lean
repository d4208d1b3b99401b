import Verif.Model.Py

/-! # packers.py: `SkyMapDimensionPacker` -/

namespace Skymap

/-- The fields of a `skymap` dimension record that the packer reads. -/
structure SkyMapRecord where
  tract_max : Int
  patch_nx_max : Int
  patch_ny_max : Int
  deriving DecidableEq, Repr

/-- The data ID `fixed`: the skymap name and the dimension record, if records are attached. -/
structure FixedId where
  skymap : String
  record : Option SkyMapRecord
  deriving DecidableEq, Repr

/-- A data ID with tract, patch and possibly band. -/
structure DataId where
  skymap : String
  tract : Int
  patch : Int
  band : Option String
  deriving DecidableEq, Repr

/-- A band mapping: a Python dict in insertion order.  A key is a band name or `None`. -/
abbrev BandDict := List (Option String × Int)

/-- `bands.get(key)`. -/
def BandDict.get (d : BandDict) (key : Option String) : Option Int :=
  (d.find? fun e => e.1 == key).map Prod.snd

/-- A constructed `SkyMapDimensionPacker`; `hasBand` says whether its dimensions include `band`. -/
structure Packer where
  fixed : FixedId
  hasBand : Bool
  bands : BandDict
  nBands : Int
  nTracts : Int
  nPatches : Int
  deriving DecidableEq, Repr

/-- `SUPPORTED_FILTERS` (packers.py:120-125). -/
def supportedFilters : List (Option String) :=
  [none] ++ ["u", "g", "r", "i", "z", "y", "U", "B", "G", "V", "R", "I", "Z", "Y", "J", "H", "K"].map some
    ++ ["N387", "N515", "N656", "N816", "N921", "N1010"].map some
    ++ ["N419", "N540", "N708", "N964"].map some

/-- `{b: i for i, b in enumerate(self.SUPPORTED_FILTERS)}` (packers.py:146). -/
def defaultBands : BandDict := supportedFilters.zipIdx.map fun p => (p.1, (p.2 : Int))

/-- Equality of a set of dimension names with a given set. -/
def sameNames (a b : List String) : Bool := a.all (b.contains ·) && b.all (a.contains ·)

/-- `fixed.records["skymap"]`; without attached records the library raises.  Simplification: the class of
that exception is not distinguished. -/
def FixedId.getRecord (f : FixedId) : PyM SkyMapRecord :=
  match f.record with
  | some r => .ok r
  | none => .error .AttributeError

namespace Packer

/-- `__init__` (packers.py:136-180).  `dimensions` is the set of dimension names, if given. -/
def new (fixed : FixedId) (dimensions : Option (List String) := none) (bands : Option BandDict := none)
    (nBands nTracts nPatches : Option Int := none) : PyM Packer := do
  let bands := bands.getD defaultBands
  let (hasBand, nBands) ← match dimensions with
    | none =>
      let n := nBands.getD bands.length
      pure (decide (n ≠ 0), n)
    | some names =>
      if !names.contains "band" then
        if !sameNames names ["tract", "patch", "skymap"] then Except.error PyErr.ValueError
        else pure (false, 0)
      else if !sameNames names ["tract", "patch", "skymap", "band"] then Except.error PyErr.ValueError
      else pure (true, nBands.getD bands.length)
  let nTracts ← match nTracts with
    | some n => pure n
    | none => do
      let r ← fixed.getRecord
      pure r.tract_max
  let nPatches ← match nPatches with
    | some n => pure n
    | none => do
      let r ← fixed.getRecord
      pure (r.patch_nx_max * r.patch_ny_max)
  return { fixed := fixed, hasBand := hasBand, bands := bands, nBands := nBands, nTracts := nTracts
           nPatches := nPatches }

/-- `SkyMapDimensionPackerConfig` (packers.py:32-64), with its defaults. -/
structure Config where
  bands : Option BandDict := none
  n_bands : Option Int := some 0
  n_tracts : Option Int := none
  n_patches : Option Int := none

/-- `from_config` (packers.py:202-236), on a data ID reduced to its skymap. -/
def fromConfig (fixed : FixedId) (c : Config) : PyM Packer :=
  new fixed none c.bands c.n_bands c.n_tracts c.n_patches

/-- `maxBits` (packers.py:238-244). -/
def maxBits (p : Packer) : Nat :=
  let packedMax := p.nTracts * p.nPatches
  let packedMax := if p.nBands ≠ 0 then packedMax * p.nBands else packedMax
  pyBitLength (packedMax - 1)

/-- `pack` (the library method, which refuses a data ID for another skymap) and `_pack`
(packers.py:246-265).  `dataId["band"]` is a `KeyError` if there is no band. -/
def pack (p : Packer) (d : DataId) : PyM Int := do
  if d.skymap ≠ p.fixed.skymap then throw .ValueError
  if d.patch ≥ p.nPatches then throw .ValueError
  if d.tract ≥ p.nTracts then throw .ValueError
  let packed := d.patch + p.nPatches * d.tract
  if p.nBands ≠ 0 then
    match d.band with
    | none => throw .KeyError
    | some b =>
      match p.bands.get (some b) with
      | none => throw .ValueError
      | some bandIndex =>
        if bandIndex ≥ p.nBands then throw .ValueError
        return packed + bandIndex * p.nPatches * p.nTracts
  else return packed

/-- `DataCoordinate.standardize(d, dimensions=self.dimensions)`: a band is required exactly if the
dimensions include it (a `None` value counts as missing); a superfluous one is dropped.  Simplification:
the class of the exception. -/
def standardize (p : Packer) (d : DataId) : PyM DataId :=
  if p.hasBand then
    match d.band with
    | none => .error .KeyError
    | some _ => .ok d
  else .ok { d with band := none }

/-- `unpack` (packers.py:267-276). -/
def unpack (p : Packer) (packedId : Int) : PyM DataId := do
  if p.nBands ≠ 0 then
    let (index, rest) ← pyDivMod packedId (p.nTracts * p.nPatches)
    let key ← pyGetItem (p.bands.map Prod.fst) index
    let (tract, patch) ← pyDivMod rest p.nPatches
    p.standardize ⟨p.fixed.skymap, tract, patch, key⟩
  else
    let (tract, patch) ← pyDivMod packedId p.nPatches
    p.standardize ⟨p.fixed.skymap, tract, patch, none⟩

end Packer
end Skymap
