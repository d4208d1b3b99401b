import Verif.Model.Geom

/-!
# `lsst.geom.SpherePoint` and `lsst.geom.Angle` (not part of /repo)

Written from the documented behaviour: a longitude is wrapped to [0, 2*pi), and a latitude beyond the poles is refused
(`pex.exceptions.InvalidParameterError`).  Angles are radians.
-/

namespace Skymap
variable {K : Type} [Field K] [LinearOrder K] [FloorRing K]

/-- `Angle.wrap()`: the equivalent angle in [0, 2*pi). -/
def wrapAngle (pi x : K) : K := x - ⌊x / (2 * pi)⌋ * (2 * pi)

/-- `SpherePoint(longitude, latitude)`. -/
def SpherePoint.new (pi lon lat : K) : PyM (SpherePoint K) :=
  if lat < -(pi / 2) ∨ pi / 2 < lat then .error .PexError else .ok ⟨wrapAngle pi lon, lat⟩

/-- `lsst.sphgeom.Box(point1, point2).contains(position)` (not part of /repo), as used in tractInfo.py:373: latitudes from that of
the first corner to that of the second, longitudes from that of the first eastward to that of the second, both ends included.
Longitudes are in [0, 2*pi], latitudes in [-pi/2, pi/2]. -/
def boxContains (corner1 corner2 p : SpherePoint K) : Prop :=
  (if corner1.lon ≤ corner2.lon then corner1.lon ≤ p.lon ∧ p.lon ≤ corner2.lon else corner1.lon ≤ p.lon ∨ p.lon ≤ corner2.lon) ∧
    corner1.lat ≤ p.lat ∧ p.lat ≤ corner2.lat

end Skymap
