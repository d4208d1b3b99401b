import Verif.Model.Sphere
import Verif.Model.SkyMap

/-! # healpixSkyMap.py -/

namespace Skymap
variable {K : Type} [Field K] [LinearOrder K] [FloorRing K]

/-- `angToCoord` (healpixSkyMap.py:40-47). -/
def angToCoord (pi : K) (thetaphi : K × K) : PyM (SpherePoint K) :=
  SpherePoint.new pi thetaphi.2 (thetaphi.1 - 1 / 2 * pi)

/-- `coordToAng` (healpixSkyMap.py:53-58). -/
def coordToAng (pi : K) (coord : SpherePoint K) : K × K := (coord.lat + 1 / 2 * pi, coord.lon)

/-- The functions of `hpgeom` that are used, for a given number of sides and ordering: `boundaries`,
`pixel_to_angle` (which refuses an index out of range) and `angle_to_pixel`. -/
structure HpGeom (K : Type) where
  boundaries : (nside : Nat) → (nest : Bool) → Int → PyM (List (K × K))
  pixelToAngle : (nside : Nat) → (nest : Bool) → Int → PyM (K × K)
  angleToPixel : (nside : Nat) → (nest : Bool) → K × K → Int

/-- `HealpixSkyMapConfig` (healpixSkyMap.py:78-84), with the base field it uses; overlap as an angle. -/
structure HealpixConfig (K : Type) where
  log2NSide : Int
  nest : Bool
  tractOverlap : K

/-- `1 << n` raises `ValueError` for negative n. -/
def pyShiftLeft (a : Nat) (n : Int) : PyM Nat := if n < 0 then .error .ValueError else .ok (a * 2 ^ n.toNat)

namespace HealpixSkyMap

/-- `self._nside` (healpixSkyMap.py:109). -/
def nside (c : HealpixConfig K) : PyM Nat := pyShiftLeft 1 c.log2NSide

/-- `HealpixSkyMap.__init__` and `generateTract` (healpixSkyMap.py:108-111, 130-136), with
`hpgeom.nside_to_npixel(n) = 12*n*n`; the tract's vertices come from `HealpixTractInfo.__init__`
(healpixSkyMap.py:67-72). -/
def cachingDef (pi : K) (env : FloatEnv K) (ops : SkyOps (SpherePoint K) K) (hp : HpGeom K)
    (makeWcs : SpherePoint K → Wcs (SpherePoint K) K) (c : HealpixConfig K) : PyM (CachingDef (SpherePoint K) K) := do
  let n ← nside c
  return {
    env := env
    ops := ops
    numTracts := 12 * n * n
    tractArgs := fun index => do
      let ang ← hp.pixelToAngle n c.nest index
      let center ← angToCoord pi ang
      let bnd ← hp.boundaries n c.nest index
      let vertexList ← pyMapM (angToCoord pi) bnd
      return { id := index, ctrCoord := center, shape := .vertices vertexList
               tractOverlap := c.tractOverlap, wcs := makeWcs center } }

/-- `findTract` (healpixSkyMap.py:113-128). -/
def findTract (pi : K) (hp : HpGeom K) (n : Nat) (nest : Bool) (m : CachingDef (SpherePoint K) K)
    (coord : SpherePoint K) : PyS (MapState (SpherePoint K) K) (TractRef (SpherePoint K) K) :=
  CachingSkyMap.getItem m (hp.angleToPixel n nest (coordToAng pi coord))

end HealpixSkyMap
end Skymap
