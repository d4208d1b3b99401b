import Verif.Model.Sphere
import Verif.Spec.Sphere
import Mathlib.Analysis.SpecialFunctions.Complex.Arg

/-!
# detail/wcsFactory.py, and the projections and sphere geometry that it rests on

`lsst.afw.geom.makeSkyWcs`, `makeCdMatrix` and `SpherePoint.offset` are not part of /repo; they are written from their documented
behaviour and the FITS standard (Calabretta & Greisen 2002), in exact arithmetic.  Only the projections TAN, STG and CEA, which the
configurations of /repo select, are written out.
-/

namespace Skymap
open Real

/-- The component of the direction `p` along east at `c`. -/
noncomputable def eastOf (c p : SpherePoint ℝ) : ℝ := cos p.lat * sin (p.lon - c.lon)

/-- The component of the direction `p` along north at `c`.  (The component along `c` itself is the cosine of their separation.) -/
noncomputable def northOf (c p : SpherePoint ℝ) : ℝ :=
  cos c.lat * sin p.lat - sin c.lat * cos p.lat * cos (p.lon - c.lon)

/-- The position of the direction that has the given components along east and north at `c`, and along `c`. -/
noncomputable def fromLocal (c : SpherePoint ℝ) (e n z : ℝ) : SpherePoint ℝ :=
  ⟨wrapAngle π (c.lon + Complex.arg ⟨cos c.lat * z - sin c.lat * n, e⟩), arcsin (cos c.lat * n + sin c.lat * z)⟩

/-- `SpherePoint.offset(bearing, amount)` (not part of /repo): the position reached along a great circle that starts at `bearing`
degrees from east towards north. -/
noncomputable def SpherePoint.offset (c : SpherePoint ℝ) (bearing amount : ℝ) : SpherePoint ℝ :=
  fromLocal c (sin amount * cos (bearing * (π / 180))) (sin amount * sin (bearing * (π / 180))) (cos amount)

/-- The library operations on sky positions, in exact arithmetic. -/
noncomputable def sphereOps : SkyOps (SpherePoint ℝ) ℝ := ⟨SpherePoint.offset, greatCircle⟩

/-- The FITS projections that the configurations of /repo select (baseSkyMap.py:55-62, dodecaSkyMap.py:51, equatSkyMap.py:47). -/
inductive Projection
  | TAN
  | STG
  | CEA
  deriving DecidableEq

namespace Projection

/-- The plane coordinates (radians) of a position for the reference position `c`; `none` where the projection is not defined.
Simplification: CEA is written for reference positions on the equator only (equatSkyMap.py:85-86 uses no other). -/
noncomputable def toPlane : Projection → SpherePoint ℝ → SpherePoint ℝ → Option (P2 ℝ)
  | .TAN, c, p => if 0 < cosSep c p then some ⟨eastOf c p / cosSep c p, northOf c p / cosSep c p⟩ else none
  | .STG, c, p => if -1 < cosSep c p then some ⟨2 * eastOf c p / (1 + cosSep c p), 2 * northOf c p / (1 + cosSep c p)⟩ else none
  | .CEA, c, p => if c.lat = 0 then some ⟨Complex.arg ⟨cos (p.lon - c.lon), sin (p.lon - c.lon)⟩, sin p.lat⟩ else none

/-- The inverse of `toPlane`. -/
noncomputable def fromPlane : Projection → SpherePoint ℝ → P2 ℝ → SpherePoint ℝ
  | .TAN, c, q => fromLocal c (q.x / √(1 + q.x ^ 2 + q.y ^ 2)) (q.y / √(1 + q.x ^ 2 + q.y ^ 2)) (1 / √(1 + q.x ^ 2 + q.y ^ 2))
  | .STG, c, q => fromLocal c (4 * q.x / (4 + q.x ^ 2 + q.y ^ 2)) (4 * q.y / (4 + q.x ^ 2 + q.y ^ 2))
      ((4 - q.x ^ 2 - q.y ^ 2) / (4 + q.x ^ 2 + q.y ^ 2))
  | .CEA, c, q => ⟨wrapAngle π (c.lon + q.x), arcsin q.y⟩

/-- The FITS code. -/
def ofCode : String → Option Projection
  | "TAN" => some .TAN
  | "STG" => some .STG
  | "CEA" => some .CEA
  | _ => none

end Projection

/-- A CD matrix: plane coordinates (radians) per pixel. -/
structure CdMatrix where
  xx : ℝ
  xy : ℝ
  yx : ℝ
  yy : ℝ

/-- `afwGeom.makeCdMatrix(scale, orientation, flipX)` (not part of /repo); angles in radians. -/
noncomputable def makeCdMatrix (scale orientation : ℝ) (flipX : Bool) : CdMatrix :=
  let xmult := if flipX then 1 else -1
  ⟨cos orientation * scale * xmult, sin orientation * scale, -sin orientation * scale * xmult, cos orientation * scale⟩

/-- Solving `cd * pixel = plane`. -/
noncomputable def CdMatrix.solve (m : CdMatrix) (q : P2 ℝ) : P2 ℝ :=
  ⟨(m.yy * q.x - m.xy * q.y) / (m.xx * m.yy - m.xy * m.yx), (m.xx * q.y - m.yx * q.x) / (m.xx * m.yy - m.xy * m.yx)⟩

/-- `cd * pixel`. -/
def CdMatrix.apply (m : CdMatrix) (q : P2 ℝ) : P2 ℝ := ⟨m.xx * q.x + m.xy * q.y, m.yx * q.x + m.yy * q.y⟩

/-- `afwGeom.makeSkyWcs(crpix, crval, cdMatrix, projection)` (not part of /repo).  Where the projection is not defined the pixel
position is NaN. -/
noncomputable def makeSkyWcs (crpix : P2 ℝ) (crval : SpherePoint ℝ) (cd : CdMatrix) (proj : Projection) : Wcs (SpherePoint ℝ) ℝ where
  skyToPixel p := match proj.toPlane crval p with
    | none => .nonfinite
    | some q => .pix ⟨crpix.x + (cd.solve q).x, crpix.y + (cd.solve q).y⟩
  pixelToSky p := proj.fromPlane crval (cd.apply ⟨p.x - crpix.x, p.y - crpix.y⟩)

/-- A `WcsFactory` (detail/wcsFactory.py:47-51). -/
structure WcsFactory where
  projection : String
  cdMatrix : CdMatrix

namespace WcsFactory

/-- `WcsFactory.__init__` (detail/wcsFactory.py:47-51). -/
noncomputable def new (pixelScale : ℝ) (projection : String) (rotation : ℝ) (flipX : Bool) : PyM WcsFactory :=
  if projection.length ≠ 3 then .error .RuntimeError
  else .ok { projection := projection, cdMatrix := makeCdMatrix pixelScale rotation flipX }

/-- `WcsFactory.makeWcs` (detail/wcsFactory.py:53-69); `other` stands for the projections that are not written out. -/
noncomputable def makeWcs (other : P2 ℝ → SpherePoint ℝ → CdMatrix → String → Wcs (SpherePoint ℝ) ℝ) (f : WcsFactory)
    (crPixPos : P2 ℝ) (crValCoord : SpherePoint ℝ) : Wcs (SpherePoint ℝ) ℝ :=
  match Projection.ofCode f.projection with
  | some proj => makeSkyWcs crPixPos crValCoord f.cdMatrix proj
  | none => other crPixPos crValCoord f.cdMatrix f.projection

end WcsFactory
end Skymap
