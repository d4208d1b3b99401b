import Verif.Model.Packer
import Verif.Model.SkyMap

/-! # packers.py: a `SkyMapDimensionPacker` as an object in use -/

namespace Skymap

/-- A packer object.  `_bands` is the mapping given to the constructor itself, not a copy (packers.py:176), so `packer.bands` is what
the mapping holds at present; `_bands_list` is `None` until `unpack` first needs it (packers.py:180, 272-273). -/
structure PackerObj where
  packer : Packer
  bandsList : Option (List (Option String))

namespace PackerObj

/-- `__init__` (packers.py:136-180). -/
def new (fixed : FixedId) (dimensions : Option (List String) := none) (bands : Option BandDict := none)
    (nBands nTracts nPatches : Option Int := none) : PyM PackerObj := do
  let p ← Packer.new fixed dimensions bands nBands nTracts nPatches
  return ⟨p, none⟩

/-- `pack` (packers.py:246-265): it changes nothing. -/
def pack (d : DataId) : PyS PackerObj Int := fun o => (o.packer.pack d, o)

/-- `self._bands_list`, filled in if it is `None` (packers.py:272-273). -/
def keys (o : PackerObj) : List (Option String) := o.bandsList.getD (o.packer.bands.map Prod.fst)

/-- `unpack` (packers.py:267-276). -/
def unpack (packedId : Int) : PyS PackerObj DataId := fun o =>
  let p := o.packer
  if p.nBands ≠ 0 then
    match pyDivMod packedId (p.nTracts * p.nPatches) with
    | .error e => (.error e, o)
    | .ok (index, rest) => (do
        let key ← pyGetItem o.keys index
        let (tract, patch) ← pyDivMod rest p.nPatches
        p.standardize ⟨p.fixed.skymap, tract, patch, key⟩, { o with bandsList := some o.keys })
  else (do
    let (tract, patch) ← pyDivMod packedId p.nPatches
    p.standardize ⟨p.fixed.skymap, tract, patch, none⟩, o)

/-- The caller changes the mapping that it gave to the constructor. -/
def setBands (bands : BandDict) : PyS PackerObj Unit := fun o =>
  (.ok (), { o with packer := { o.packer with bands := bands } })

end PackerObj
end Skymap
