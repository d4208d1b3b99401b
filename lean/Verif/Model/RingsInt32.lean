import Verif.Model.Rings
import Verif.Model.Int32

/-!
# `findTractIdArray` of a rings sky map on numpy's 32-bit integers

`indexes`, `ringNums` and `tractNum` are `int32` arrays (ringsSkyMap.py:271, 275, 295).  Model/Rings.lean has unbounded integers; here
the same body with what numpy 2 does when a number is stored in such an array: a Python int that does not fit is an `OverflowError`
(even when no element is selected); an array of wider integers is wrapped without a word.  `_ringNumArray` and `_ringCumulative`
are `int64` arrays and stay unbounded (simplification: their entries are at most the number of tracts).
-/

namespace Skymap

/-- An `int64` stored in an `int32` array: the low 32 bits, as a signed number. -/
def np32 (n : Int) : Int := (n + 2147483648) % 4294967296 - 2147483648

/-- A Python int stored in an `int32` array. -/
def npScalar32 (n : Int) : PyM Int := if Fits32 n then .ok n else .error .OverflowError

namespace Rings
variable {K : Type} [Field K] [LinearOrder K] [FloorRing K] (A : FloatArith K) (R : Rings K)

/-- The body of `findTractIdArray` (ringsSkyMap.py:271-308) with `int32` arrays.  Simplification: `astype(np.int32)` of a float is
truncation followed by `np32` (numpy leaves the result open when it does not fit). -/
def lookupArray32 (ra dec : List K) : PyM (List Int) :=
  if ra.length ≠ dec.length then .error .IndexError
  else do
    let firstRingStart := R.firstRingStart A
    let numRings : Int := R.config.numRings
    let indexes := List.replicate ra.length (-1 : Int)
    let ringNums := List.replicate dec.length (0 : Int)
    let ringNums := npWhere (dec.map fun d => decide (d < firstRingStart)) (dec.map fun _ => -1) ringNums
    let numRings32 ← npScalar32 numRings
    let ringNums := npWhere (dec.map fun d => decide (d > -firstRingStart)) (dec.map fun _ => numRings32) ringNums
    let ringNums := npWhere (dec.map fun d => decide (d ≥ firstRingStart) && decide (d ≤ -firstRingStart))
      (dec.map fun d => np32 (pyTrunc (A.div (A.sub d firstRingStart) R.ringSize))) ringNums
    let indexes := npWhere (ringNums.map fun r => decide (r = -1)) (ringNums.map fun _ => 0) indexes
    let last32 ← npScalar32 (R.numTracts - 1)
    let indexes := npWhere (ringNums.map fun r => decide (r = numRings)) (ringNums.map fun _ => last32) indexes
    let inRange := (List.range indexes.length).filter fun k : Nat => decide (indexes[k]?.getD 0 < 0)
    let ringCumulative := (List.range (R.ringNums.length + 1)).map fun k : Nat => (R.ringNums.take k).sum
    let ns ← pyMapM (fun k : Nat => pyGetItem R.ringNums (ringNums[k]?.getD 0)) inRange
    let tractNum := (inRange.zip ns).map fun p : Nat × Int =>
      let deltaWrap := A.npMod (A.sub (ra[p.1]?.getD 0) R.raStart) (A.mul 2 A.pi)
      np32 (pyTrunc (A.add (A.div deltaWrap (A.div (A.mul 2 A.pi) p.2)) (1 / 2)))
    let tractNum := (tractNum.zip ns).map fun p => if p.1 = p.2 then 0 else p.1
    let ringsIn := (inRange.zip tractNum).map fun p : Nat × Int =>
      let r := ringNums[p.1]?.getD 0
      if R.version = 0 ∧ p.2 = 0 ∧ r ≠ 0 then np32 (r + 1) else r
    let found ← pyMapM (fun p : Int × Int => do
      let c ← pyGetItem ringCumulative p.1
      return c + p.2 + 1) (ringsIn.zip tractNum)
    return (inRange.zip found).foldl (fun a p => a.set p.1 (np32 p.2)) indexes

/-- `findTractIdArray` (ringsSkyMap.py:262-308) with `int32` arrays. -/
def findTractIdArray32 (ra dec : BaseSkyMap.NpArg K) (degrees : Bool) : PyM (List Int) :=
  if degrees then
    match ra, dec with
    | _, .scalar _ => .error .TypeError
    | .scalar _, .array _ => .error .IndexError
    | .array ra, .array dec => R.lookupArray32 A (ra.map A.deg2rad) (dec.map A.deg2rad)
  else R.lookupArray32 A ra.atleast1d dec.atleast1d

end Rings
end Skymap
