import Verif.Model.PackerObj
import Verif.Model.Threads

/-!
# Several threads using one packer

`pack` and `unpack` of packers.py as sequences of atomic steps, as in Threads.lean: each look-up in the mapping of the bands, each copy of its
keys, and each read or write of `_bands_list` is a step.  The mapping belongs to the caller (packers.py:176 does not copy it), who may change
it in between.
-/

namespace Skymap

/-- What threads share of a packer: the mapping of the bands and `_bands_list` (packers.py:176, 180). -/
structure SharedPacker where
  bands : BandDict
  bandsList : Option (List (Option String))

/-- Calls: of the packer, and of the caller who changes the mapping. -/
inductive PackerReq
  | pack (d : DataId)
  | unpack (n : Int)
  | change (bands : BandDict)

/-- Results. -/
inductive PackerRes
  | int (n : Int)
  | dataId (d : DataId)
  | unit
  deriving DecidableEq

namespace PackerThreads

/-- `pack` and `_pack` (packers.py:246-265): the band is looked up twice, at lines 254 and 264. -/
def pack (p : Packer) (d : DataId) : Thread SharedPacker PackerRes :=
  if d.skymap ≠ p.fixed.skymap then .done (.error .ValueError)
  else if d.patch ≥ p.nPatches then .done (.error .ValueError)
  else if d.tract ≥ p.nTracts then .done (.error .ValueError)
  else if p.nBands ≠ 0 then
    match d.band with
    | none => .done (.error .KeyError)
    | some b =>
      .step id fun s => match s.bands.get (some b) with
        | none => .done (.error .ValueError)
        | some bandIndex =>
          if bandIndex ≥ p.nBands then .done (.error .ValueError)
          else .step id fun s' => match s'.bands.get (some b) with
            | none => .done (.error .KeyError)
            | some v => .done (.ok (.int (d.patch + p.nPatches * d.tract + v * p.nPatches * p.nTracts)))
  else .done (.ok (.int (d.patch + p.nPatches * d.tract)))

/-- The last lines of `unpack` (packers.py:274-276), with a band list that was read. -/
def finish (p : Packer) (index rest : Int) (keys : List (Option String)) : PyM PackerRes := do
  let key ← pyGetItem keys index
  let (tract, patch) ← pyDivMod rest p.nPatches
  let r ← p.standardize ⟨p.fixed.skymap, tract, patch, key⟩
  return .dataId r

/-- `self._bands_list[index]` and what follows (packers.py:274-276); a list that is `None` cannot be indexed. -/
def useList (p : Packer) (index rest : Int) : Thread SharedPacker PackerRes :=
  .step id fun s => match s.bandsList with
    | none => .done (.error .TypeError)
    | some keys => .done (finish p index rest keys)

/-- `unpack` (packers.py:267-276): `_bands_list` is read at line 272, the keys are copied and the list is written at line 273, and it is
read again at line 274. -/
def unpack (p : Packer) (packedId : Int) : Thread SharedPacker PackerRes :=
  if p.nBands ≠ 0 then
    match pyDivMod packedId (p.nTracts * p.nPatches) with
    | .error e => .done (.error e)
    | .ok (index, rest) =>
      .step id fun s =>
        if s.bandsList.isNone then
          .step id fun s' =>
            .step (fun s'' => { s'' with bandsList := some (s'.bands.map Prod.fst) }) fun _ => useList p index rest
        else useList p index rest
  else .done (do
    let (tract, patch) ← pyDivMod packedId p.nPatches
    let r ← p.standardize ⟨p.fixed.skymap, tract, patch, none⟩
    return .dataId r)

/-- The program of a call. -/
def program (p : Packer) : PackerReq → Thread SharedPacker PackerRes
  | .pack d => pack p d
  | .unpack n => unpack p n
  | .change m => .step (fun s => { s with bands := m }) fun _ => .done (.ok .unit)

end PackerThreads
end Skymap
