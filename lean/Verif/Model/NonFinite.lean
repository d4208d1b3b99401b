import Verif.Model.Rings

/-!
# Coordinates that are not positions

The functions that turn a coordinate into a tract, for coordinates that may be NaN or infinite.  The functions in `Model/Rings.lean`
and `Model/SkyMap.lean` are the same code for finite coordinates.
-/

namespace Skymap

/-- A Python `float`, or an element of a numpy array of floats. -/
inductive XFloat (K : Type)
  | fin (x : K)
  | nan
  | inf
  | negInf
  deriving DecidableEq

namespace XFloat
variable {K : Type} [Field K] [LinearOrder K] [FloorRing K] (A : FloatArith K)

/-- `x < b` for a finite `b`: false for NaN. -/
def lt (x : XFloat K) (b : K) : Bool :=
  match x with
  | .fin a => decide (a < b)
  | .negInf => true
  | _ => false

/-- `x > b` for a finite `b`: false for NaN. -/
def gt (x : XFloat K) (b : K) : Bool :=
  match x with
  | .fin a => decide (a > b)
  | .inf => true
  | _ => false

/-- `x <= b` for a finite `b`: false for NaN. -/
def le (x : XFloat K) (b : K) : Bool :=
  match x with
  | .fin a => decide (a ≤ b)
  | .negInf => true
  | _ => false

/-- `x >= b` for a finite `b`: false for NaN. -/
def ge (x : XFloat K) (b : K) : Bool :=
  match x with
  | .fin a => decide (a ≥ b)
  | .inf => true
  | _ => false

/-- `f(x)` for an operation `f` with a finite operand (`x + b`, `x - b`, `x / b` for positive `b`), which keeps NaN and infinities. -/
def lift (f : K → K) (x : XFloat K) : XFloat K :=
  match x with
  | .fin a => .fin (f a)
  | x => x

/-- `fmod(x, y)` and what is built upon it (`Angle.wrap`, numpy's `%`): NaN for NaN and infinities. -/
def liftMod (f : K → K) (x : XFloat K) : XFloat K :=
  match x with
  | .fin a => .fin (f a)
  | _ => .nan

/-- Python's `int(x)`. -/
def toInt (x : XFloat K) : PyM Int :=
  match x with
  | .fin a => .ok (pyTrunc a)
  | .nan => .error .ValueError
  | _ => .error .OverflowError

/-- `x.astype(numpy.int32)`: `cast` is what the machine makes of NaN and infinities (C leaves it undefined). -/
def astype (cast : Int) (x : XFloat K) : Int :=
  match x with
  | .fin a => pyTrunc a
  | _ => cast

/-- `geom.SpherePoint(longitude, latitude, radians)` (not part of /repo): a latitude beyond the poles is refused, NaN is not; an
infinite longitude becomes NaN. -/
def point (lon lat : XFloat K) : PyM (SpherePoint (XFloat K)) :=
  if lat.gt (A.pi / 2) || lat.lt (-(A.pi / 2)) then .error .PexError
  else .ok ⟨lon.liftMod A.wrap, lat⟩

end XFloat

namespace Rings
variable {K : Type} [Field K] [LinearOrder K] [FloorRing K] (A : FloatArith K) (R : Rings K)

/-- `_decToRingNum` (ringsSkyMap.py:198-219). -/
def decToRingNumX (dec : XFloat K) : PyM Int :=
  if dec.lt (R.firstRingStart A) then .ok (-1)
  else if dec.gt (-R.firstRingStart A) then .ok R.config.numRings
  else ((dec.lift fun d => A.sub d (R.firstRingStart A)).lift fun d => A.div d R.ringSize).toInt

/-- `_raToTractNum` (ringsSkyMap.py:221-242). -/
def raToTractNumX (ra : XFloat K) (ringNum : Int) : PyM Int :=
  if ringNum = -1 ∨ ringNum = R.config.numRings then .ok 0
  else if ¬ (0 ≤ ringNum ∧ ringNum < R.config.numRings) then .error .AssertionError
  else do
    let n ← pyGetItem R.ringNums ringNum
    let wrapped := (ra.lift fun x => A.sub x R.raStart).liftMod A.wrap
    let tractNum ← ((wrapped.lift fun x => A.div x (A.div (A.mul 2 A.pi) n)).lift fun x => A.add x (1 / 2)).toInt
    return if tractNum = n then 0 else tractNum

/-- The index that `findTract` computes (ringsSkyMap.py:244-259). -/
def findIndexX (coord : SpherePoint (XFloat K)) : PyM Int := do
  let ringNum ← R.decToRingNumX A coord.lat
  if ringNum = -1 then .ok 0
  else if ringNum = R.config.numRings then .ok (R.numTracts - 1)
  else do
    let tractNum ← R.raToTractNumX A coord.lon ringNum
    let ringNum := if R.version = 0 ∧ tractNum = 0 ∧ ringNum ≠ 0 then ringNum + 1 else ringNum
    return R.sumTo ringNum (tractNum + 1)

/-- The tracts of rings that `findAllTracts` looks at (ringsSkyMap.py:323-350): their indices, in order.  (If this raises, it
does so before the first tract is looked at: `_raToTractNum` raises for every ring or for none.) -/
def nearIndicesX (coord : SpherePoint (XFloat K)) : PyM (List Int) := do
  let ringNum ← R.decToRingNumX A coord.lat
  let ll ← pyMapM (fun r : Int =>
    if r < 0 ∨ r ≥ R.config.numRings then .ok []
    else do
      let tractNum ← R.raToTractNumX A coord.lon r
      let n ← pyGetItem R.ringNums r
      pyMapM (fun t : Int =>
        let t := if t < 0 then t + n else if t > n - 1 then t - n else t
        let extra := if R.version = 0 ∧ t = 0 ∧ r ≠ 0 then 1 else 0
        .ok (R.sumTo (r + extra) (t + 1))) [tractNum - 1, tractNum, tractNum + 1])
    [ringNum - 1, ringNum, ringNum + 1]
  return ll.flatten

/-- The body of `findTractIdArray` for two arrays in radians (ringsSkyMap.py:271-308), as `lookupArray`; `cast` is the integer that
the machine makes of NaN. -/
def lookupArrayX (cast : Int) (ra dec : List (XFloat K)) : PyM (List Int) :=
  if ra.length ≠ dec.length then .error .IndexError
  else
    let firstRingStart := R.firstRingStart A
    let numRings : Int := R.config.numRings
    let indexes := List.replicate ra.length (-1 : Int)
    let ringNums := List.replicate dec.length (0 : Int)
    let ringNums := npWhere (dec.map fun d => d.lt firstRingStart) (dec.map fun _ => -1) ringNums
    let ringNums := npWhere (dec.map fun d => d.gt (-firstRingStart)) (dec.map fun _ => numRings) ringNums
    let ringNums := npWhere (dec.map fun d => d.ge firstRingStart && d.le (-firstRingStart))
      (dec.map fun d => ((d.lift fun d => A.sub d firstRingStart).lift fun d => A.div d R.ringSize).astype cast) ringNums
    let indexes := npWhere (ringNums.map fun r => decide (r = -1)) (ringNums.map fun _ => 0) indexes
    let indexes := npWhere (ringNums.map fun r => decide (r = numRings)) (ringNums.map fun _ => R.numTracts - 1) indexes
    let inRange := (List.range indexes.length).filter fun k : Nat => decide (indexes[k]?.getD 0 < 0)
    let ringCumulative := (List.range (R.ringNums.length + 1)).map fun k : Nat => (R.ringNums.take k).sum
    do
      let ns ← pyMapM (fun k : Nat => pyGetItem R.ringNums (ringNums[k]?.getD 0)) inRange
      let tractNum := (inRange.zip ns).map fun p : Nat × Int =>
        let deltaWrap := ((ra[p.1]?.getD (.fin 0)).lift fun x => A.sub x R.raStart).liftMod fun x => A.npMod x (A.mul 2 A.pi)
        ((deltaWrap.lift fun x => A.div x (A.div (A.mul 2 A.pi) p.2)).lift fun x => A.add x (1 / 2)).astype cast
      let tractNum := (tractNum.zip ns).map fun p => if p.1 = p.2 then 0 else p.1
      let ringsIn := (inRange.zip tractNum).map fun p : Nat × Int =>
        let r := ringNums[p.1]?.getD 0
        if R.version = 0 ∧ p.2 = 0 ∧ r ≠ 0 then r + 1 else r
      let found ← pyMapM (fun p : Int × Int => do
        let c ← pyGetItem ringCumulative p.1
        return c + p.2 + 1) (ringsIn.zip tractNum)
      return (inRange.zip found).foldl (fun a p => a.set p.1 p.2) indexes

/-- `findTractIdArray` (ringsSkyMap.py:262-308). -/
def findTractIdArrayX (cast : Int) (ra dec : BaseSkyMap.NpArg (XFloat K)) (degrees : Bool) : PyM (List Int) :=
  if degrees then
    match ra, dec with
    | _, .scalar _ => .error .TypeError
    | .scalar _, .array _ => .error .IndexError
    | .array ra, .array dec => R.lookupArrayX A cast (ra.map fun x => x.lift A.deg2rad) (dec.map fun x => x.lift A.deg2rad)
  else R.lookupArrayX A cast ra.atleast1d dec.atleast1d

end Rings

namespace BaseSkyMap
variable {K Sky : Type} [Field K] [LinearOrder K] [FloorRing K] {σ : Type}

/-- `b < a` for the tuples `(angSep, i, tractInfo)` in `findTract` where a separation may be NaN (`none`): NaN is neither equal to nor less
than anything.  (The separations are distinct objects, so that `==` is that of the floats.) -/
def tupleLtX (a b : Option K × Nat × TractRef Sky K) : Bool :=
  match a.1, b.1 with
  | some x, some y => decide (x < y) || (decide (x = y) && decide (a.2.1 < b.2.1))
  | _, _ => false

/-- `findTract` (baseSkyMap.py:172-204) where a separation may be NaN (`none`); `separation` is that from the coordinate. -/
def findTractX (separation : Sky → Option K) (M : SkyMapOps σ Sky K) : PyS σ (TractRef Sky K) := do
  let l ← forTracts M fun i t => pure (separation t.info.ctrCoord, i, t)
  match (pySort (fun a b => !tupleLtX b a) l).head? with
  | some x => pure x.2.2
  | none => PyS.lift (.error .IndexError)

end BaseSkyMap
end Skymap
