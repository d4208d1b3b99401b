import Verif.Model.Rings

/-! # equatSkyMap.py -/

namespace Skymap

/-- `EquatSkyMapConfig` (equatSkyMap.py:33-44) with the base field it uses; degrees. -/
structure EquatConfig (K : Type) where
  numTracts : Int
  decRange : List K
  tractOverlap : K

namespace Equat
variable {K : Type} [Field K] [LinearOrder K] [FloorRing K] (A : FloatArith K)

/-- One turn of the loop of `__init__` (equatSkyMap.py:72-99): the arguments of the tract constructor.  `makeWcs` is
`self._wcsFactory.makeWcs(crPixPos=(0, 0), crValCoord=...)`. -/
def tract (makeWcs : SpherePoint K → Wcs (SpherePoint K) K) (d0 d1 midDec tractWidthRA tractOverlap : K) (id : Int) :
    PyM (TractArgs (SpherePoint K) K) := do
  let begRA := A.mul tractWidthRA id
  let endRA := A.add begRA tractWidthRA
  let v0 ← A.point begRA d0
  let v1 ← A.point endRA d0
  let v2 ← A.point endRA d1
  let v3 ← A.point begRA d1
  let midRA := A.add begRA (A.div tractWidthRA 2)
  let ctrCoord ← A.point midRA midDec
  let crValCoord ← A.point midRA 0
  return { id := id, ctrCoord := ctrCoord, shape := .vertices [v0, v1, v2, v3], tractOverlap := tractOverlap
           wcs := makeWcs crValCoord }

/-- `EquatSkyMap.__init__` (equatSkyMap.py:64-99): the arguments of the constructors of all tracts. -/
def tracts (makeWcs : SpherePoint K → Wcs (SpherePoint K) K) (c : EquatConfig K) :
    PyM (List (TractArgs (SpherePoint K) K)) := do
  let decRange := c.decRange.map A.deg2rad
  let d0 ← pyGetItem decRange 0
  let d1 ← pyGetItem decRange 1
  let midDec := A.div (A.add d0 d1) 2
  if c.numTracts = 0 then throw .ZeroDivisionError
  let tractWidthRA := A.deg2rad (A.div 360 c.numTracts)
  let tractOverlap := A.deg2rad c.tractOverlap
  pyMapM (tract A makeWcs d0 d1 midDec tractWidthRA tractOverlap) (pyRange 0 c.numTracts)

end Equat
end Skymap
