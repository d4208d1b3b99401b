import Verif.Model.Rings

/-! # Specification of the rings sky map -/

namespace Skymap
variable {K : Type}

/-- The places in which a rings sky map has a tract: the south cap (ring -1), `nums[r]` tracts in ring `r`, the north cap
(ring `nums.length`). -/
inductive RingPlace (nums : List Int) : Int → Int → Prop
  | south : RingPlace nums (-1) 0
  | ring (r : Nat) (n t : Int) (hr : nums[r]? = some n) (ht : 0 ≤ t ∧ t < n) : RingPlace nums r t
  | north : RingPlace nums nums.length 0

/-- Lexicographic order of (ring, tract in ring). -/
def RingBefore (p q : Int × Int) : Prop := p.1 < q.1 ∨ (p.1 = q.1 ∧ p.2 < q.2)

/-- As many counts as rings, all positive: what `__init__` produces (C32, C34). -/
structure Rings.WF (R : Rings K) : Prop where
  length : R.ringNums.length = R.config.numRings
  pos : ∀ n ∈ R.ringNums, 0 < n

/-- Right ascension `x` is on the arc from `a` eastward to `b`, without its end; angles in [0, 2*pi). -/
def InArc [LinearOrder K] (a b x : K) : Prop := if a < b then a ≤ x ∧ x < b else a ≤ x ∨ x < b

/-- The position is in the range (raMin, raMax, decMin, decMax), without the upper ends; the range of the north cap includes
the pole. -/
def InRaDec [LinearOrder K] (north : Prop) (g : K × K × K × K) (p : SpherePoint K) : Prop :=
  InArc g.1 g.2.1 p.lon ∧ g.2.2.1 ≤ p.lat ∧ (north ∨ p.lat < g.2.2.2)

end Skymap
