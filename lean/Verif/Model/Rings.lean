import Verif.Model.SkyMap
import Verif.Model.Sphere

/-!
# ringsSkyMap.py

Floating-point arithmetic is the exact operation followed by a rounding function `rnd`, which is a parameter; `rnd = id` (with the
true pi and cosine) is exact arithmetic.  Simplifications: integers are converted to floats exactly; 32-bit integers of numpy
do not overflow.
-/

namespace Skymap

/-- What the model leaves open about floats: the rounding of an operation, the constant `math.pi`, and `math.cos`. -/
structure FloatArith (K : Type) where
  rnd : K → K
  pi : K
  cos : K → K

namespace FloatArith
variable {K : Type} [Field K] [LinearOrder K] [FloorRing K] (A : FloatArith K)

/-- `a + b` on floats. -/
def add (a b : K) : K := A.rnd (a + b)
/-- `a - b` on floats. -/
def sub (a b : K) : K := A.rnd (a - b)
/-- `a * b` on floats. -/
def mul (a b : K) : K := A.rnd (a * b)
/-- `a / b` on floats (used with non-zero `b` only). -/
def div (a b : K) : K := A.rnd (a / b)

/-- C `fmod(x, y)`: exact, with the sign of `x`. -/
def fmod (x y : K) : K := x - (pyTrunc (x / y) : K) * y

/-- `2*math.pi`. -/
def twoPi : K := A.mul 2 A.pi

/-- `lsst.geom.Angle.wrap()` (not part of /repo): `fmod`, add `2*pi` if negative, and 0 if that was rounded to `2*pi`. -/
def wrap (x : K) : K :=
  let w := fmod x A.twoPi
  let w := if w < 0 then A.add w A.twoPi else w
  if w ≥ A.twoPi then 0 else w

/-- `x % y` of numpy for positive `y`: `fmod`, add `y` if negative. -/
def npMod (x y : K) : K :=
  let w := fmod x y
  if w < 0 then A.add w y else w

/-- `x*geom.degrees`, `numpy.deg2rad(x)`. -/
def deg2rad (x : K) : K := A.mul x (A.div A.pi 180)

/-- `geom.SpherePoint(longitude, latitude, radians)` (not part of /repo): the longitude is wrapped, a latitude beyond the poles is
refused. -/
def point (lon lat : K) : PyM (SpherePoint K) :=
  if |lat| > A.pi / 2 then .error .PexError else .ok ⟨A.wrap lon, lat⟩

end FloatArith

/-- `RingsSkyMapConfig` (ringsSkyMap.py:36-40) with the base field it uses; degrees.  `numRings` is positive. -/
structure RingsConfig (K : Type) where
  numRings : Nat
  raStart : K
  tractOverlap : K

/-- The attributes of a `RingsSkyMap` (ringsSkyMap.py:79-93); angles in radians. -/
structure Rings (K : Type) where
  config : RingsConfig K
  version : Int
  ringSize : K
  ringNums : List Int
  raStart : K

namespace Rings
variable {K : Type} [Field K] [LinearOrder K] [FloorRing K] (A : FloatArith K)

/-- The number of tracts in ring `i` (ringsSkyMap.py:87-90). -/
def ringCount (ringSize : K) (i : Nat) : Int :=
  let startDec := A.sub (A.mul ringSize (A.add i (1 / 2))) (A.mul (1 / 2) A.pi)
  let stopDec := A.add startDec ringSize
  let dec := min |startDec| |stopDec|
  pyTrunc (A.div (A.mul (A.mul 2 A.pi) (A.cos dec)) ringSize) + 1

/-- `__init__` (ringsSkyMap.py:79-93). -/
def new (c : RingsConfig K) (version : Int) : PyM (Rings K) :=
  if version ≠ 0 ∧ version ≠ 1 then .error .AssertionError
  else
    let ringSize := A.div A.pi (c.numRings + 1)
    .ok { config := c, version := version, ringSize := ringSize
          ringNums := (List.range c.numRings).map fun i : Nat => ringCount A ringSize i
          raStart := A.deg2rad c.raStart }

variable (R : Rings K)

/-- `self._numTracts` (ringsSkyMap.py:91, cachingSkyMap.py:53). -/
def numTracts : Int := R.ringNums.sum + 2

/-- The `while` loops of `getRingIndices` (ringsSkyMap.py:117-123) over the rings that are left; `go tractNum ringNum` is the
condition.  (`self._ringNums` has `numRings` elements.) -/
def ringLoop (go : Int → Int → Bool) : List Int → Int → Int → Int × Int
  | [], ring, tractNum => (ring, tractNum)
  | n :: l, ring, tractNum => if go tractNum n then ringLoop go l (ring + 1) (tractNum - n) else (ring, tractNum)

/-- `getRingIndices` (ringsSkyMap.py:95-124). -/
def getRingIndices (index : Int) : PyM (Int × Int) :=
  if index = 0 then .ok (-1, 0)
  else if index = R.numTracts - 1 then .ok (R.config.numRings, 0)
  else if index < 0 ∨ index ≥ R.numTracts then .error .IndexError
  else if R.version = 0 then .ok (ringLoop (fun t n => decide (t > n)) R.ringNums 0 (index - 1))
  else .ok (ringLoop (fun t n => decide (t ≥ n)) R.ringNums 0 (index - 1))

/-- `getRaDecRange` (ringsSkyMap.py:158-196): raMin, raMax, decMin, decMax. -/
def getRaDecRange (index : Int) : PyM (K × K × K × K) := do
  let (ringNum, tractNum) ← R.getRingIndices index
  if ringNum = -1 then
    return (0, A.mul 2 A.pi, A.div (-A.pi) 2, A.add (A.div (-A.pi) 2) (A.mul (A.add ringNum (3 / 2)) R.ringSize))
  else if ringNum = R.config.numRings then
    return (0, A.mul 2 A.pi, A.add (A.div (-A.pi) 2) (A.mul (A.add ringNum (1 / 2)) R.ringSize), A.div A.pi 2)
  else
    let n ← pyGetItem R.ringNums ringNum
    let decMin := A.add (A.div (-A.pi) 2) (A.mul (A.add ringNum (1 / 2)) R.ringSize)
    let decMax := A.add (A.div (-A.pi) 2) (A.mul (A.add ringNum (3 / 2)) R.ringSize)
    let deltaStart := A.div (A.mul (A.mul (A.sub tractNum (1 / 2)) 2) A.pi) n
    let deltaStop := A.div (A.mul (A.mul (A.add tractNum (1 / 2)) 2) A.pi) n
    return (A.wrap (A.add R.raStart deltaStart), A.wrap (A.add R.raStart deltaStop), decMin, decMax)

/-- The centre of a tract (ringsSkyMap.py:128-137). -/
def center (index : Int) : PyM (SpherePoint K) := do
  let (ringNum, tractNum) ← R.getRingIndices index
  if ringNum = -1 then A.point 0 (-A.mul (1 / 2) A.pi)
  else if ringNum = R.config.numRings then A.point 0 (A.mul (1 / 2) A.pi)
  else
    let n ← pyGetItem R.ringNums ringNum
    let dec := A.sub (A.mul R.ringSize (ringNum + 1)) (A.mul (1 / 2) A.pi)
    let ra := A.wrap (A.add (A.div (A.mul (A.mul 2 A.pi) tractNum) n) R.raStart)
    A.point ra dec

/-- A `RingsSkyMap` as a caching sky map; `generateTract` (ringsSkyMap.py:126-156). -/
def cachingDef (env : FloatEnv K) (ops : SkyOps (SpherePoint K) K) (makeWcs : SpherePoint K → Wcs (SpherePoint K) K) :
    CachingDef (SpherePoint K) K where
  env := env
  ops := ops
  numTracts := R.numTracts.toNat
  tractArgs index := do
    let center ← R.center A index
    let (raMin, raMax, decMin, decMax) ← R.getRaDecRange A index
    return { id := index, ctrCoord := center, shape := .explicit (A.mul (1 / 2) R.ringSize)
             tractOverlap := A.deg2rad R.config.tractOverlap, wcs := makeWcs center
             innerBoxCorners := some (⟨raMin, decMin⟩, ⟨raMax, decMax⟩) }

/-- `firstRingStart` (ringsSkyMap.py:212 and 274). -/
def firstRingStart : K := A.sub (A.mul R.ringSize (1 / 2)) (A.mul (1 / 2) A.pi)

/-- `_decToRingNum` (ringsSkyMap.py:198-219). -/
def decToRingNum (dec : K) : Int :=
  if dec < R.firstRingStart A then -1
  else if dec > -R.firstRingStart A then R.config.numRings
  else pyTrunc (A.div (A.sub dec (R.firstRingStart A)) R.ringSize)

/-- `_raToTractNum` (ringsSkyMap.py:221-242). -/
def raToTractNum (ra : K) (ringNum : Int) : PyM Int :=
  if ringNum = -1 ∨ ringNum = R.config.numRings then .ok 0
  else if ¬ (0 ≤ ringNum ∧ ringNum < R.config.numRings) then .error .AssertionError
  else do
    let n ← pyGetItem R.ringNums ringNum
    let tractNum := pyTrunc (A.add (A.div (A.wrap (A.sub ra R.raStart)) (A.div (A.mul 2 A.pi) n)) (1 / 2))
    return if tractNum = n then 0 else tractNum

/-- `sum(self._ringNums[:ringNum], start)` for non-negative `ringNum`. -/
def sumTo (ringNum start : Int) : Int := start + (R.ringNums.take ringNum.toNat).sum

/-- The index that `findTract` computes (ringsSkyMap.py:244-259). -/
def findIndex (coord : SpherePoint K) : PyM Int :=
  let ringNum := R.decToRingNum A coord.lat
  if ringNum = -1 then .ok 0
  else if ringNum = R.config.numRings then .ok (R.numTracts - 1)
  else do
    let tractNum ← R.raToTractNum A coord.lon ringNum
    let ringNum := if R.version = 0 ∧ tractNum = 0 ∧ ringNum ≠ 0 then ringNum + 1 else ringNum
    return R.sumTo ringNum (tractNum + 1)

/-- `findTract` (ringsSkyMap.py:244-260). -/
def findTract {σ : Type} (M : SkyMapOps σ (SpherePoint K) K) (coord : SpherePoint K) : PyS σ (TractRef (SpherePoint K) K) := do
  let index ← PyS.lift (R.findIndex A coord)
  M.getItem index

/-- The tracts of rings that `findAllTracts` looks at (ringsSkyMap.py:323-350): their indices, in order. -/
def nearIndices (coord : SpherePoint K) : PyM (List Int) := do
  let ringNum := R.decToRingNum A coord.lat
  let ll ← pyMapM (fun r : Int =>
    if r < 0 ∨ r ≥ R.config.numRings then .ok []
    else do
      let tractNum ← R.raToTractNum A coord.lon r
      let n ← pyGetItem R.ringNums r
      pyMapM (fun t : Int =>
        let t := if t < 0 then t + n else if t > n - 1 then t - n else t
        let extra := if R.version = 0 ∧ t = 0 ∧ r ≠ 0 then 1 else 0
        .ok (R.sumTo (r + extra) (t + 1))) [tractNum - 1, tractNum, tractNum + 1])
    [ringNum - 1, ringNum, ringNum + 1]
  return ll.flatten

/-- Look at some tracts, keeping those that contain the coordinate (ringsSkyMap.py:347-350 and 354-357). -/
def keepContaining {σ : Type} (M : SkyMapOps σ (SpherePoint K) K) (coord : SpherePoint K) (l : List Int) :
    PyS σ (List (TractRef (SpherePoint K) K)) := do
  let ts ← PyS.mapM (fun i : Int => do
    let t ← M.getItem i
    return if t.info.contains coord then [t] else []) l
  return ts.flatten

/-- `findAllTracts` (ringsSkyMap.py:310-359).  Simplification: all indices are computed before any tract is looked at, which makes
a difference only if that computation raises. -/
def findAllTracts {σ : Type} (M : SkyMapOps σ (SpherePoint K) K) (coord : SpherePoint K) :
    PyS σ (List (TractRef (SpherePoint K) K)) := do
  let near ← PyS.lift (R.nearIndices A coord)
  keepContaining M coord (near ++ [0, (M.len : Int) - 1])

/-- `findTractPatchList` (ringsSkyMap.py:361-368). -/
def findTractPatchList {σ : Type} (env : FloatEnv K) (M : SkyMapOps σ (SpherePoint K) K) (coordList : List (SpherePoint K)) :
    PyS σ (List (TractRef (SpherePoint K) K × List (PatchInfo (Wcs (SpherePoint K) K)))) :=
  PyS.foldM (fun retList c => do
    let ts ← R.findAllTracts A M c
    PyS.foldM (fun retList t => do
      let pl ← BaseSkyMap.findPatchList env M t coordList
      return if !pl.isEmpty && !BaseSkyMap.inRetList (t, pl) retList then retList ++ [(t, pl)] else retList) ts retList)
    coordList []

/-! ### `findTractIdArray` -/

/-- `a[mask] = v` elementwise: `v` where the mask is true. -/
def npWhere (mask : List Bool) (v a : List Int) : List Int :=
  ((mask.zip v).zip a).map fun x => if x.1.1 then x.1.2 else x.2

/-- The body of `findTractIdArray` for two arrays in radians (ringsSkyMap.py:271-308).  Arrays of different lengths are refused by
numpy (`IndexError`).  `numpy.where`, boolean masks and integer arrays as indices are written out. -/
def lookupArray (ra dec : List K) : PyM (List Int) :=
  if ra.length ≠ dec.length then .error .IndexError
  else
    let firstRingStart := R.firstRingStart A
    let numRings : Int := R.config.numRings
    let indexes := List.replicate ra.length (-1 : Int)
    let ringNums := List.replicate dec.length (0 : Int)
    let ringNums := npWhere (dec.map fun d => decide (d < firstRingStart)) (dec.map fun _ => -1) ringNums
    let ringNums := npWhere (dec.map fun d => decide (d > -firstRingStart)) (dec.map fun _ => numRings) ringNums
    let ringNums := npWhere (dec.map fun d => decide (d ≥ firstRingStart) && decide (d ≤ -firstRingStart))
      (dec.map fun d => pyTrunc (A.div (A.sub d firstRingStart) R.ringSize)) ringNums
    let indexes := npWhere (ringNums.map fun r => decide (r = -1)) (ringNums.map fun _ => 0) indexes
    let indexes := npWhere (ringNums.map fun r => decide (r = numRings)) (ringNums.map fun _ => R.numTracts - 1) indexes
    let inRange := (List.range indexes.length).filter fun k : Nat => decide (indexes[k]?.getD 0 < 0)
    let ringCumulative := (List.range (R.ringNums.length + 1)).map fun k : Nat => (R.ringNums.take k).sum
    do
      let ns ← pyMapM (fun k : Nat => pyGetItem R.ringNums (ringNums[k]?.getD 0)) inRange
      let tractNum := (inRange.zip ns).map fun p : Nat × Int =>
        let deltaWrap := A.npMod (A.sub (ra[p.1]?.getD 0) R.raStart) (A.mul 2 A.pi)
        pyTrunc (A.add (A.div deltaWrap (A.div (A.mul 2 A.pi) p.2)) (1 / 2))
      let tractNum := (tractNum.zip ns).map fun p => if p.1 = p.2 then 0 else p.1
      let ringsIn := (inRange.zip tractNum).map fun p : Nat × Int =>
        let r := ringNums[p.1]?.getD 0
        if R.version = 0 ∧ p.2 = 0 ∧ r ≠ 0 then r + 1 else r
      let found ← pyMapM (fun p : Int × Int => do
        let c ← pyGetItem ringCumulative p.1
        return c + p.2 + 1) (ringsIn.zip tractNum)
      return (inRange.zip found).foldl (fun a p => a.set p.1 p.2) indexes

/-- `findTractIdArray` (ringsSkyMap.py:262-308).  A scalar is a one-element array in radians.  With `degrees=True` it remains a
scalar: `len(_dec)` of one is a `TypeError`, and `_ra[inRange]` of one an `IndexError`. -/
def findTractIdArray (ra dec : BaseSkyMap.NpArg K) (degrees : Bool) : PyM (List Int) :=
  if degrees then
    match ra, dec with
    | _, .scalar _ => .error .TypeError
    | .scalar _, .array _ => .error .IndexError
    | .array ra, .array dec => R.lookupArray A (ra.map A.deg2rad) (dec.map A.deg2rad)
  else R.lookupArray A ra.atleast1d dec.atleast1d

end Rings
end Skymap
