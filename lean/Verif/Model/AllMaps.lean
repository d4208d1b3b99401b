import Verif.Model.Pickle
import Verif.Model.Discrete
import Verif.Model.Healpix
import Verif.Model.Rings
import Verif.Model.Equat
import Verif.Model.Dodecahedron

/-!
# The classes of sky maps as functions of class, configuration and version

The constructors of dodecaSkyMap.py, equatSkyMap.py, ringsSkyMap.py, healpixSkyMap.py and discreteSkyMap.py, which are modelled in
the file of each class, with the values that they read from the configuration.
-/

namespace Skymap

/-- What is not part of /repo: the floating-point arithmetic and the number of each bit pattern, sphere geometry, hpgeom, the order of
Python's sets, the constant of detail/utils.py:31, and `afwGeom.makeSkyWcs`. -/
structure SkyLib where
  arith : FloatArith ℝ
  val : Dbl → ℝ
  env : FloatEnv ℝ
  ops : SkyOps (SpherePoint ℝ) ℝ
  tiny : ℝ
  order : Dodeca.SetOrder
  hp : HpGeom ℝ
  /-- `WcsFactory(pixelScale, projection, rotation).makeWcs(crPixPos, crValCoord)` (detail/wcsFactory.py:47-69) with the configured
  pixel scale, projection and rotation (baseSkyMap.py:164-168); `crPixPos` is (0, 0) always. -/
  makeWcs : (pixelScale : ℝ) → (projection : String) → (rotation : ℝ) → SpherePoint ℝ → Wcs (SpherePoint ℝ) ℝ

namespace SkyLib
variable (L : SkyLib)

/-- `self._wcsFactory.makeWcs` (baseSkyMap.py:164-168). -/
noncomputable def wcs (c : SkyMapConfig Dbl) : SpherePoint ℝ → Wcs (SpherePoint ℝ) ℝ :=
  L.makeWcs (L.val c.pixelScale) c.projection (L.val c.rotation)

/-- What the constructor of each class does beyond `BaseSkyMap.__init__`: dodecaSkyMap.py:68-93, equatSkyMap.py:64-99,
ringsSkyMap.py:79-93 (`numRings` is positive: the configuration field refuses other values, ringsSkyMap.py:37-38; only the ints 0
and 1 are versions), healpixSkyMap.py:108-111, discreteSkyMap.py:66-68. -/
noncomputable def tracts (cls : MapClass) (c : SkyMapConfig Dbl) (version : Version) :
    PyM (CachingDef (SpherePoint ℝ) ℝ ⊕ List (TractArgs (SpherePoint ℝ) ℝ)) :=
  match cls with
  | .dodeca w => (DodecaSkyMap.tracts L.tiny (L.wcs c) L.order w (L.val c.tractOverlap)).map fun r => .inr r.2
  | .equat n r => (Equat.tracts L.arith (L.wcs c) ⟨n, r.map L.val, L.val c.tractOverlap⟩).map .inr
  | .rings n s =>
    if n ≤ 0 then .error .FieldValidationError
    else match version with
      | .tuple _ => .error .AssertionError
      | .int v => (Rings.new L.arith ⟨n.toNat, L.val s, L.val c.tractOverlap⟩ v).map fun R =>
        .inl (R.cachingDef L.arith L.env L.ops (L.wcs c))
  | .healpix n nest => (HealpixSkyMap.cachingDef L.arith.pi L.env L.ops L.hp (L.wcs c)
      ⟨n, nest, L.arith.deg2rad (L.val c.tractOverlap)⟩).map .inl
  | .discrete ra dec rad => .ok (.inl (DiscreteSkyMap.cachingDef L.env L.ops
      ⟨fun ra dec => L.arith.point (L.arith.deg2rad ra) (L.arith.deg2rad dec), L.arith.deg2rad, L.wcs c⟩
      ⟨ra.map L.val, dec.map L.val, rad.map L.val, L.val c.tractOverlap⟩))

/-- The classes of /repo. -/
noncomputable def impl : ClassImpl (SpherePoint ℝ) ℝ := ⟨L.env, L.ops, L.tracts⟩

end SkyLib
end Skymap
