import Verif.Spec.Example
import Verif.Model.Discrete

/-! # Concrete sky maps on the flat sky of `Spec/Example.lean` -/

namespace Skymap.Ex

/-- Tangent projection at `c`: pixel = position relative to `c`; fails far from `c`. -/
def mkWcs (c : P2 ℚ) : Wcs (P2 ℚ) ℚ where
  skyToPixel q := if |q.x - c.x| > 1000 then .raises else if |q.y - c.y| > 1000 then .nonfinite
    else .pix ⟨q.x - c.x, q.y - c.y⟩
  pixelToSky p := ⟨p.x + c.x, p.y + c.y⟩

def geom : SkyGeom (P2 ℚ) ℚ := ⟨fun ra dec => .ok ⟨ra, dec⟩, id, mkWcs⟩

/-- Two overlapping tracts of half-size 5 and 11 around (20, 30) and (35, 30). -/
def unequal : DiscreteConfig ℚ := ⟨[20, 35], [30, 30], [5, 11], 0⟩

/-- Three tracts of half-size 5, two of them with the same centre. -/
def equal : DiscreteConfig ℚ := ⟨[20, 29, 20], [30, 31, 30], [5, 5, 5], 0⟩

/-- The same with the larger tract first. -/
def largeFirst : DiscreteConfig ℚ := ⟨[35, 20], [30, 30], [11, 5], 0⟩

def largeFirstMap : CachingDef (P2 ℚ) ℚ := DiscreteSkyMap.cachingDef env ops geom largeFirst
def unequalMap : CachingDef (P2 ℚ) ℚ := DiscreteSkyMap.cachingDef env ops geom unequal
def equalMap : CachingDef (P2 ℚ) ℚ := DiscreteSkyMap.cachingDef env ops geom equal

/-- The initial state, and the state after some accesses. -/
def start (m : CachingDef (P2 ℚ) ℚ) : MapState (P2 ℚ) ℚ := CachingSkyMap.init m legacy

def visit (m : CachingDef (P2 ℚ) ℚ) (l : List Int) : MapState (P2 ℚ) ℚ :=
  l.foldl (fun s i => (CachingSkyMap.getItem m i s).2) (start m)

end Skymap.Ex
