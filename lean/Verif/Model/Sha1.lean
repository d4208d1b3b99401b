import Verif.Model.Config

/-!
# baseSkyMap.py: `getSha1`, `__eq__`, `__hash__`; tractBuilder.py: `getPackedConfig`; `updateSha1` of every class

A float is its 64-bit pattern.  The hash function is a parameter: any function on byte strings.
-/

namespace Skymap

abbrev Bytes := List UInt8

/-- A float as the bits that `struct` writes. -/
abbrev Dbl := BitVec 64

/-- The `n` low bytes of a number, least significant first. -/
def leBytes : Nat → Nat → Bytes
  | 0, _ => []
  | n + 1, x => UInt8.ofNat (x % 256) :: leBytes n (x / 256)

/-- `struct.pack("<i", v)`: `struct.error` beyond 32 bits. -/
def packI (v : Int) : PyM Bytes :=
  if -2 ^ 31 ≤ v ∧ v < 2 ^ 31 then .ok (leBytes 4 (v % 2 ^ 32).toNat) else .error .StructError

/-- `struct.pack("<d", x)`. -/
def packD (x : Dbl) : Bytes := leBytes 8 x.toNat

/-- `struct.pack("<?", x)`. -/
def packBool (x : Bool) : Bytes := [if x then 1 else 0]

/-- `struct.pack("<{n}d", *l)`: `struct.error` unless `l` has `n` elements. -/
def packDs (n : Nat) (l : List Dbl) : PyM Bytes :=
  if l.length ≠ n then .error .StructError else .ok (l.flatMap packD)

/-- `struct.pack("3s", b)`: truncated or padded with zeros. -/
def pack3s (b : Bytes) : Bytes := (b ++ [0, 0, 0]).take 3

/-- `s.encode("ascii")`. -/
def encodeAscii (s : String) : PyM Bytes :=
  if s.toList.all (fun c => decide (c.toNat < 128)) then .ok (s.toList.map fun c => UInt8.ofNat c.toNat)
  else .error .UnicodeEncodeError

/-- The sky map classes and the fields that their configurations add: dodecaSkyMap.py:40-44, equatSkyMap.py:34-44,
ringsSkyMap.py:38-40, healpixSkyMap.py:80-81, discreteSkyMap.py:33-38. -/
inductive MapClass
  | dodeca (withTractsOnPoles : Bool)
  | equat (numTracts : Int) (decRange : List Dbl)
  | rings (numRings : Int) (raStart : Dbl)
  | healpix (log2NSide : Int) (nest : Bool)
  | discrete (raList decList radiusList : List Dbl)
  deriving DecidableEq, Repr

namespace MapClass

/-- `type(self).__name__`. -/
def name : MapClass → String
  | .dodeca _ => "DodecaSkyMap"
  | .equat _ _ => "EquatSkyMap"
  | .rings _ _ => "RingsSkyMap"
  | .healpix _ _ => "HealpixSkyMap"
  | .discrete _ _ _ => "DiscreteSkyMap"

/-- `updateSha1` (dodecaSkyMap.py:154-156, equatSkyMap.py:141-143, ringsSkyMap.py:370-372, healpixSkyMap.py:138-140,
discreteSkyMap.py:78-83): the bytes added. -/
def updateSha1 : MapClass → PyM Bytes
  | .dodeca w => .ok (packBool w)
  | .equat n r => do
    let a ← packI n
    let b ← packDs 2 r
    return a ++ b
  | .rings n s => do
    let a ← packI n
    return a ++ packD s
  | .healpix n nest => do
    let a ← packI n
    return a ++ packBool nest
  | .discrete ra dec rad => do
    let a ← packDs rad.length ra
    let b ← packDs rad.length dec
    let c ← packDs rad.length rad
    return a ++ (b ++ c)

end MapClass

/-- The first part of `LegacyTractBuilder.getPackedConfig` (tractBuilder.py:255-268) and `CellTractBuilder.getPackedConfig`
(tractBuilder.py:356-371): the builder's own fields.  The sub-config read is that of the selected builder, which is the sky
map's builder, as the configuration is frozen. -/
def packedHead (c : SkyMapConfig Dbl) : PyM Bytes :=
  match c.builderName with
  | .legacy => do
    let x ← pyGetItem c.legacy.patchInnerDimensions 0
    let y ← pyGetItem c.legacy.patchInnerDimensions 1
    let a ← packI x
    let b ← packI y
    let d ← packI c.legacy.patchBorder
    pure (a ++ b ++ d)
  | .cells => do
    let x ← pyGetItem c.cells.cellInnerDimensions 0
    let y ← pyGetItem c.cells.cellInnerDimensions 1
    let a ← packI x
    let b ← packI y
    let d ← packI c.cells.cellBorder
    let e ← packI c.cells.numCellsPerPatchInner
    let f ← packI c.cells.numCellsInPatchBorder
    pure (a ++ b ++ d ++ e ++ f)

/-- `LegacyTractBuilder.getPackedConfig` (tractBuilder.py:255-268) and `CellTractBuilder.getPackedConfig`
(tractBuilder.py:356-371). -/
def getPackedConfig (c : SkyMapConfig Dbl) : PyM Bytes := do
  let head ← packedHead c
  let p ← encodeAscii c.projection
  return head ++ (packD c.tractOverlap ++ (packD c.pixelScale ++ (pack3s p ++ packD c.rotation)))

/-- The bytes fed to SHA-1 by `getSha1` (baseSkyMap.py:357-362).  (Class names are ASCII, so UTF-8 is ASCII.) -/
def sha1Message (cls : MapClass) (c : SkyMapConfig Dbl) : PyM Bytes := do
  let n ← encodeAscii cls.name
  let p ← getPackedConfig c
  let u ← cls.updateSha1
  return n ++ (p ++ u)

/-- `_version`: an int or a tuple of ints. -/
inductive Version
  | int (v : Int)
  | tuple (v : List Int)
  deriving DecidableEq, Repr

/-- The attributes of a sky map that are used for hashing and pickling. -/
structure HashedMap where
  cls : MapClass
  config : SkyMapConfig Dbl
  version : Version
  sha1 : Option Bytes
  deriving DecidableEq, Repr

namespace HashedMap

/-- `getSha1` (baseSkyMap.py:344-364). -/
def getSha1 (H : Bytes → Bytes) : PyS HashedMap Bytes := fun m =>
  match m.sha1 with
  | some h => (.ok h, m)
  | none => match sha1Message m.cls m.config with
    | .error e => (.error e, m)
    | .ok b => (.ok (H b), { m with sha1 := some (H b) })

/-- `__eq__` (baseSkyMap.py:311-315) between two sky maps, different objects; both hashes are cached. -/
def eq (H : Bytes → Bytes) : PyS (HashedMap × HashedMap) Bool := fun s =>
  match getSha1 H s.1 with
  | (.error e, m) => (.error e, (m, s.2))
  | (.ok a, m) => match getSha1 H s.2 with
    | (.error e, m') => (.error e, (m, m'))
    | (.ok b, m') => (.ok (a == b), (m, m'))

/-- `__ne__` (baseSkyMap.py:317-318). -/
def ne (H : Bytes → Bytes) : PyS (HashedMap × HashedMap) Bool := fun s =>
  match eq H s with
  | (.error e, s') => (.error e, s')
  | (.ok b, s') => (.ok (!b), s')

/-- `__hash__` (baseSkyMap.py:308-309); `hash` is Python's hash of a bytes object. -/
def pyHash (H : Bytes → Bytes) (hash : Bytes → Int) : PyS HashedMap Int := fun m =>
  match getSha1 H m with
  | (.error e, m') => (.error e, m')
  | (.ok b, m') => (.ok (hash b), m')

end HashedMap
end Skymap
