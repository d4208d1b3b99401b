import Verif.Model.SkyMap

/-! # discreteSkyMap.py -/

namespace Skymap

/-- `DiscreteSkyMapConfig` (discreteSkyMap.py:33-38), with the base field it uses; degrees. -/
structure DiscreteConfig (K : Type) where
  raList : List K
  decList : List K
  radiusList : List K
  tractOverlap : K

/-- `DiscreteSkyMapConfig.validate` (discreteSkyMap.py:40-47); `superValidate` is the outcome of the
base class's validation of the fields. -/
def DiscreteConfig.validate {K : Type} (superValidate : PyM Unit) (c : DiscreteConfig K) : PyM Unit := do
  superValidate
  if c.radiusList.length ≠ c.raList.length then throw .ValueError
  if c.radiusList.length ≠ c.decList.length then throw .ValueError

/-- The library functions that turn configuration values into sky geometry: `SpherePoint(ra, dec,
degrees)` (which refuses a declination beyond the poles), `x * degrees`, and `WcsFactory.makeWcs(crPixPos=(0,0), crValCoord=...)`. -/
structure SkyGeom (Sky K : Type) where
  point : K → K → PyM Sky
  angle : K → K
  makeWcs : Sky → Wcs Sky K

variable {Sky K : Type}

/-- `DiscreteSkyMap.__init__` and `generateTract` (discreteSkyMap.py:70-76). -/
def DiscreteSkyMap.cachingDef (env : FloatEnv K) (ops : SkyOps Sky K) (g : SkyGeom Sky K) (c : DiscreteConfig K) :
    CachingDef Sky K where
  env := env
  ops := ops
  numTracts := c.radiusList.length
  tractArgs index := do
    let ra ← pyGetItem c.raList index
    let dec ← pyGetItem c.decList index
    let center ← g.point ra dec
    let radius ← pyGetItem c.radiusList index
    return { id := index, ctrCoord := center, shape := .explicit (g.angle radius)
             tractOverlap := g.angle c.tractOverlap, wcs := g.makeWcs center }

end Skymap
