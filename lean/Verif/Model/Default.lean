import Verif.Model.AllMaps
import Verif.Model.Wcs

/-!
# Default configurations, and the sky maps with exact geometry

The defaults of the configuration fields (baseSkyMap.py:39-69, tractBuilder.py:198-209, 271-292) and `setDefaults` of each class, and the
library of `AllMaps` with the sphere geometry and the world coordinate systems of `Wcs`.
-/

namespace Skymap

/-- The number that a finite double stands for (IEEE 754 binary64; not code of /repo).  Simplification: infinities and NaNs get a
number too, which is meaningless. -/
noncomputable def Dbl.value (x : Dbl) : ℝ :=
  (if x.toNat / 2 ^ 63 = 1 then -1 else 1) *
    if x.toNat / 2 ^ 52 % 2048 = 0 then ((x.toNat % 2 ^ 52 : ℕ) : ℝ) / 2 ^ 1074
    else ((2 ^ 52 + x.toNat % 2 ^ 52 : ℕ) : ℝ) * 2 ^ (((x.toNat / 2 ^ 52 % 2048 : ℕ) : ℤ) - 1075)

namespace SkyMapConfig

/-- The defaults of the fields of `BaseSkyMapConfig` (baseSkyMap.py:39-69): the legacy builder with its defaults, overlap 1.0, pixel
scale 0.333, STG, rotation 0. -/
def default : SkyMapConfig Dbl where
  tractOverlap := 0x3ff0000000000000
  pixelScale := 0x3fd54fdf3b645a1d
  rotation := 0

/-- `DodecaSkyMapConfig.setDefaults` (dodecaSkyMap.py:46-51); `patchBorder` and `patchInnerDimensions` are the properties of
baseSkyMap.py:71-125; 10.0 / 50.0 is the double 0.2. -/
def setDefaultsDodeca : PyS (SkyMapConfig Dbl) Unit := fun c =>
  match assign (fun c => { c with tractOverlap := (0x400c000000000000 : Dbl) }) c with
  | (.error e, c) => (.error e, c)
  | (.ok _, c) => match setPatchBorder 250 c with
    | (.error e, c) => (.error e, c)
    | (.ok _, c) => match assign (fun c => { c with pixelScale := (0x3fc999999999999a : Dbl) }) c with
      | (.error e, c) => (.error e, c)
      | (.ok _, c) => match setPatchInnerDimensions [4000, 4000] c with
        | (.error e, c) => (.error e, c)
        | (.ok _, c) => assign (fun c : SkyMapConfig Dbl => { c with projection := "STG" }) c

/-- `EquatSkyMapConfig.setDefaults` (equatSkyMap.py:46-47). -/
def setDefaultsEquat : PyS (SkyMapConfig Dbl) Unit := assign fun c => { c with projection := "CEA" }

/-- `HealpixSkyMapConfig.setDefaults` (healpixSkyMap.py:83-84). -/
def setDefaultsHealpix : PyS (SkyMapConfig Dbl) Unit := assign fun c => { c with rotation := (0x4046800000000000 : Dbl) }

end SkyMapConfig

/-- The classes that have a default for every field, and `RingsSkyMap`, whose `numRings` has none (ringsSkyMap.py:37-38). -/
inductive DefaultClass
  | dodeca | equat | rings (numRings : Int) | healpix | discrete

namespace DefaultClass

/-- The defaults of the fields that the class adds: dodecaSkyMap.py:40-44 (`withTractsOnPoles` False), equatSkyMap.py:34-44 (4 tracts,
declinations -1.25 and 1.25), ringsSkyMap.py:39-40 (`raStart` 0), healpixSkyMap.py:80-81, discreteSkyMap.py:36-38. -/
def fields : DefaultClass → MapClass
  | dodeca => .dodeca false
  | equat => .equat 4 [0xbff4000000000000, 0x3ff4000000000000]
  | rings n => .rings n 0
  | healpix => .healpix 0 false
  | discrete => .discrete [] [] []

/-- `ConfigClass()`: the defaults of the fields, then `setDefaults`. -/
def config : DefaultClass → SkyMapConfig Dbl
  | dodeca => (SkyMapConfig.setDefaultsDodeca .default).2
  | equat => (SkyMapConfig.setDefaultsEquat .default).2
  | rings _ => .default
  | healpix => (SkyMapConfig.setDefaultsHealpix .default).2
  | discrete => .default

end DefaultClass

/-- The parts of the library that may be chosen freely below: rounding in the tract code, hpgeom, the order of Python's sets, the
constant of detail/utils.py:31, and the world coordinate systems of projections other than TAN, STG and CEA. -/
structure SkyChoice where
  env : FloatEnv ℝ
  hp : HpGeom ℝ
  order : Dodeca.SetOrder
  tiny : ℝ
  other : P2 ℝ → SpherePoint ℝ → CdMatrix → String → Wcs (SpherePoint ℝ) ℝ

/-- The library with exact geometry.  `makeWcs` is the `WcsFactory` of baseSkyMap.py:164-168 with the pixel scale in arcseconds and the rotation
in degrees, not flipped in x (detail/wcsFactory.py:47).  Simplification: exact arithmetic, not rounded (the properties with rounding are
those of the arithmetic of each class); a projection code without 3 characters, for which the constructor has already raised, gets some
world coordinate system. -/
noncomputable def SkyChoice.lib (x : SkyChoice) : SkyLib where
  arith := ⟨id, Real.pi, Real.cos⟩
  val := Dbl.value
  env := x.env
  ops := sphereOps
  tiny := x.tiny
  order := x.order
  hp := x.hp
  makeWcs pixelScale projection rotation ctr :=
    match WcsFactory.new (pixelScale * (Real.pi / 648000)) projection (rotation * (Real.pi / 180)) false with
    | .ok f => f.makeWcs x.other ⟨0, 0⟩ ctr
    | .error _ => x.other ⟨0, 0⟩ ctr (makeCdMatrix 0 0 false) projection

end Skymap
