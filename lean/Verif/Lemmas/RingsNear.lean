import Verif.Props.RingsCenter
import Verif.Props.RingsCover

/-! # Where the tract is that a rings sky map finds, with rounding -/

set_option linter.unusedSectionVars false

namespace Skymap
namespace Rings
open Real
variable {A : FloatArith ℝ} {c : RingsConfig ℝ} {v : Int} {R : Rings ℝ}

/-- The ring size is that of exact arithmetic up to rounding. -/
theorem size_near (hA : A.Ieee) (h : Rings.new A c v = .ok R) (h1 : 1 ≤ c.numRings) (h2 : c.numRings ≤ 2 ^ 31) :
    (∀ k : ℝ, 0 ≤ k → k ≤ c.numRings + 1 → |R.ringSize * k - π / (c.numRings + 1) * k| ≤ 1 / 2 ^ 49) ∧
    0 < R.ringSize ∧ R.ringSize ≤ 1.6 ∧ 3 / (2 ^ 31 + 1) ≤ π / (c.numRings + 1) := by
  obtain ⟨e1, -, -, e4, -, -⟩ := new_attr h
  have h1' : (1 : ℝ) ≤ c.numRings := by exact_mod_cast h1
  have h2' : (c.numRings : ℝ) ≤ 2 ^ 31 := by exact_mod_cast h2
  obtain ⟨b1, b2, b3, b4⟩ := size_bounds hA h1' h2'
  rw [← e4] at b1 b2 b3 b4
  have hN1 : (0 : ℝ) < c.numRings + 1 := by positivity
  refine ⟨fun k k0 k1 => ?_, b2, b4, ?_⟩
  · have e : R.ringSize * k - π / (c.numRings + 1) * k = (R.ringSize * (c.numRings + 1) - π) * (k / (c.numRings + 1)) := by
      field_simp
    have a : |R.ringSize * (c.numRings + 1) - π| ≤ 1 / 2 ^ 49 := by
      have := abs_le.1 b1
      have := abs_le.1 hA.pi_err
      rw [abs_le]
      norm_num at *
      constructor <;> linarith
    rw [e, abs_mul]
    have b : |k / ((c.numRings : ℝ) + 1)| ≤ 1 := by
      rw [abs_of_nonneg (by positivity), div_le_one hN1]; exact k1
    have := mul_le_mul a b (abs_nonneg _) (by positivity)
    rwa [mul_one] at this
  · have := pi_gt_three
    gcongr

/-- Where the first ring starts. -/
theorem first_near (hA : A.Ieee) (hh : A.HalfPi) (h : Rings.new A c v = .ok R) (h1 : 1 ≤ c.numRings) (h2 : c.numRings ≤ 2 ^ 31) :
    |R.firstRingStart A - (R.ringSize / 2 - A.pi / 2)| ≤ 1 / 2 ^ 51 := by
  obtain ⟨-, b2, b4, -⟩ := size_near hA h h1 h2
  obtain ⟨p1, p2⟩ := hA.pi_range
  unfold FloatArith.HalfPi at hh
  have f1 := hA.near (x := R.ringSize * (1 / 2)) (M := 0.8) (by rw [abs_of_nonneg (by linarith)]; norm_num at b4 ⊢; linarith)
  have f1' : A.mul R.ringSize (1 / 2) = A.rnd (R.ringSize * (1 / 2)) := rfl
  rw [← f1'] at f1
  have f3 : 0 ≤ A.mul R.ringSize (1 / 2) := hA.nonneg (by linarith)
  have f5 := hA.near (x := A.mul R.ringSize (1 / 2) - A.pi / 2) (M := 1.6) (by
    rw [abs_le]; norm_num at f1 b4 p1 p2 ⊢; constructor <;> linarith)
  have f6 : R.firstRingStart A = A.rnd (A.mul R.ringSize (1 / 2) - A.pi / 2) := by rw [firstRingStart, hh]; rfl
  rw [← f6] at f5
  rw [abs_le]; norm_num at f1 f5 ⊢; constructor <;> linarith

/-- The latitudes of which a ring number is computed: the ring's, up to rounding. -/
theorem lat_near (hA : A.Ieee) (hh : A.HalfPi) (h : Rings.new A c v = .ok R) (h1 : 1 ≤ c.numRings) (h2 : c.numRings ≤ 2 ^ 31) {lat : ℝ} :
    (R.decToRingNum A lat = -1 → lat + π / 2 ≤ π / (c.numRings + 1) / 2 + 1 / 2 ^ 46) ∧
    (R.decToRingNum A lat = c.numRings → π / 2 - lat ≤ π / (c.numRings + 1) / 2 + 1 / 2 ^ 46) ∧
    (∀ k : Nat, k < c.numRings → R.decToRingNum A lat = k →
      |lat - (π / (c.numRings + 1) * (k + 1) - π / 2)| ≤ π / (c.numRings + 1) / 2 + 1 / 2 ^ 46) := by
  obtain ⟨e1, -, -, e4, -, -⟩ := new_attr h
  have h1' : (1 : ℝ) ≤ c.numRings := by exact_mod_cast h1
  have h2' : (c.numRings : ℝ) ≤ 2 ^ 31 := by exact_mod_cast h2
  obtain ⟨b1, -, b3, -⟩ := size_bounds hA h1' h2'
  rw [← e4] at b1 b3
  obtain ⟨sn, b2, b4, s5⟩ := size_near hA h h1 h2
  obtain ⟨p1, p2⟩ := hA.pi_range
  have b1' := abs_le.mp b1
  have hpi := abs_le.mp hA.pi_err
  have hf := abs_le.mp (first_near hA hh h h1 h2)
  have hN1 : (0 : ℝ) < c.numRings + 1 := by positivity
  have sHalf := abs_le.mp (sn (1 / 2) (by norm_num) (by linarith))
  -- the quotient
  have quot : ∀ m : Int, ¬ lat < R.firstRingStart A → ¬ lat > -R.firstRingStart A →
      pyTrunc (A.div (A.sub lat (R.firstRingStart A)) R.ringSize) = m →
      0 ≤ m ∧ R.ringSize * m - 1 / 2 ^ 49 ≤ lat - R.firstRingStart A ∧ lat - R.firstRingStart A ≤ R.ringSize * (m + 1) + 1 / 2 ^ 49 := by
    intro m g1 g2 hm
    have k1 : 0 ≤ lat - R.firstRingStart A := by linarith
    have k2 : lat - R.firstRingStart A ≤ A.pi - R.ringSize + 1 / 2 ^ 49 := by norm_num at hf ⊢; linarith
    have k3 := hA.near (x := lat - R.firstRingStart A) (M := 3.2) (by
      rw [abs_of_nonneg k1]; norm_num at k2 p2 ⊢; linarith)
    have k4 : 0 ≤ A.sub lat (R.firstRingStart A) := hA.nonneg k1
    have k3' : A.sub lat (R.firstRingStart A) = A.rnd (lat - R.firstRingStart A) := rfl
    rw [← k3'] at k3
    have hs : 1 / 2 ^ 47 ≤ R.ringSize * (1 / 8) := by
      have : (3 : ℝ) / (2 ^ 31 + 1) ≤ 3 / (c.numRings + 1) := by gcongr
      norm_num at this ⊢
      linarith
    generalize A.sub lat (R.firstRingStart A) = y at k3 k4 hm
    have k7 : 0 ≤ y / R.ringSize := div_nonneg k4 b2.le
    have k8 : y / R.ringSize ≤ c.numRings + 1 := by
      rw [div_le_iff₀ b2]
      have := b1'.1
      norm_num at this hs k2 k3 ⊢
      linarith
    have k9 := hA.near (x := y / R.ringSize) (M := c.numRings + 1) (by rw [abs_of_nonneg k7]; exact k8)
    have k10 : 0 ≤ A.div y R.ringSize := hA.nonneg k7
    have k9' : A.div y R.ringSize = A.rnd (y / R.ringSize) := rfl
    rw [← k9'] at k9
    rw [pyTrunc_nonneg k10] at hm
    have m0 := Int.floor_nonneg.mpr k10
    rw [hm] at m0
    have m1 := Int.floor_le (A.div y R.ringSize)
    have m2 := Int.lt_floor_add_one (A.div y R.ringSize)
    rw [hm] at m1 m2
    have ey : y / R.ringSize * R.ringSize = y := by field_simp
    have hsn : R.ringSize * ((c.numRings + 1) / 2 ^ 53 + 1 / 2 ^ 100) ≤ 1 / 2 ^ 51 := by
      have e : R.ringSize * (((c.numRings : ℝ) + 1) / 2 ^ 53 + 1 / 2 ^ 100) = R.ringSize * (c.numRings + 1) / 2 ^ 53 + R.ringSize / 2 ^ 100 := by ring
      rw [e]
      have : R.ringSize * (c.numRings + 1) ≤ 3.2 := by have := b1'.2; norm_num at this ⊢; linarith
      have a1 : R.ringSize * (c.numRings + 1) / 2 ^ 53 ≤ 3.2 / 2 ^ 53 := by gcongr
      have a2 : R.ringSize / 2 ^ 100 ≤ 1.6 / 2 ^ 100 := by gcongr
      have a3 : (3.2 : ℝ) / 2 ^ 53 + 1.6 / 2 ^ 100 ≤ 1 / 2 ^ 51 := by norm_num
      linarith
    have n1 : (m : ℝ) - (((c.numRings : ℝ) + 1) / 2 ^ 53 + 1 / 2 ^ 100) ≤ y / R.ringSize := by linarith
    have n2 : y / R.ringSize ≤ (m : ℝ) + 1 + (((c.numRings : ℝ) + 1) / 2 ^ 53 + 1 / 2 ^ 100) := by linarith
    have n3 := mul_le_mul_of_nonneg_right n1 b2.le
    have n4 := mul_le_mul_of_nonneg_right n2 b2.le
    rw [ey] at n3 n4
    refine ⟨m0, ?_, ?_⟩
    · norm_num at k3 hsn n3 ⊢; linarith
    · norm_num at k3 hsn n4 ⊢; linarith
  refine ⟨fun hd => ?_, fun hd => ?_, fun k hk hd => ?_⟩
  · unfold decToRingNum at hd
    rw [e1] at hd
    split at hd
    · norm_num at hf sHalf hpi ⊢; linarith
    split at hd
    · omega
    next g1 g2 =>
    have := (quot _ g1 g2 rfl).1
    omega
  · unfold decToRingNum at hd
    rw [e1] at hd
    split at hd
    · omega
    split at hd
    · norm_num at hf sHalf hpi ⊢; linarith
    next g1 g2 =>
    obtain ⟨-, q1, -⟩ := quot _ g1 g2 hd
    have := abs_le.mp (sn (c.numRings + 1) (by positivity) le_rfl)
    have e : π / ((c.numRings : ℝ) + 1) * (c.numRings + 1) = π := by field_simp
    rw [e] at this
    push_cast at q1
    norm_num at hf sHalf hpi this q1 ⊢
    linarith
  · unfold decToRingNum at hd
    rw [e1] at hd
    split at hd
    · omega
    split at hd
    · omega
    next g1 g2 =>
    obtain ⟨-, q1, q2⟩ := quot _ g1 g2 hd
    have hk1 : (k : ℝ) + 1 ≤ c.numRings := by exact_mod_cast hk
    have := abs_le.mp (sn (k + 1) (by positivity) (by linarith))
    push_cast at q1 q2
    rw [abs_le]
    norm_num at hf sHalf hpi this q1 q2 ⊢
    constructor <;> linarith

/-- The declination of a ring's centre is that of exact arithmetic up to rounding. -/
theorem center_dec_near (hA : A.Ieee) (hh : A.HalfPi) (h : Rings.new A c v = .ok R) (h1 : 1 ≤ c.numRings) (h2 : c.numRings ≤ 2 ^ 31)
    {k : Nat} (hk : k < c.numRings) :
    |A.sub (A.mul R.ringSize ((k : ℝ) + 1)) (A.mul (1 / 2) A.pi) - (π / (c.numRings + 1) * (k + 1) - π / 2)| ≤ 1 / 2 ^ 48 := by
  have hk1 : (k : ℝ) + 1 ≤ c.numRings := by exact_mod_cast hk
  obtain ⟨sn, b2, b4, s5⟩ := size_near hA h h1 h2
  obtain ⟨p1, p2⟩ := hA.pi_range
  have hpi := abs_le.mp hA.pi_err
  unfold FloatArith.HalfPi at hh
  have h3 := pi_lt_d2
  have := abs_le.mp (sn (k + 1) (by positivity) (by linarith))
  have x0 : 0 ≤ R.ringSize * ((k : ℝ) + 1) := by positivity
  have x1 : π / (c.numRings + 1) * ((k : ℝ) + 1) ≤ π := by
    rw [div_mul_eq_mul_div, div_le_iff₀ (by positivity)]
    have := pi_pos
    gcongr
  have g1 := hA.near (x := R.ringSize * ((k : ℝ) + 1)) (M := 3.2) (by
    rw [abs_of_nonneg x0]; norm_num at this h3 ⊢; linarith)
  have g1' : A.mul R.ringSize ((k : ℝ) + 1) = A.rnd (R.ringSize * ((k : ℝ) + 1)) := rfl
  rw [← g1'] at g1
  have g2 := hA.near (x := A.mul R.ringSize ((k : ℝ) + 1) - A.pi / 2) (M := 2) (by
    rw [abs_le]; norm_num at this g1 h3 p1 p2 ⊢; constructor <;> linarith)
  have g3 : A.sub (A.mul R.ringSize ((k : ℝ) + 1)) (A.pi / 2) = A.rnd (A.mul R.ringSize ((k : ℝ) + 1) - A.pi / 2) := rfl
  rw [hh]
  rw [← g3] at g2
  rw [abs_le]
  norm_num at g1 g2 this hpi ⊢
  constructor <;> linarith

/-- The angles of which a tract number is computed: the tract's, up to rounding. -/
theorem tract_of (hA : A.Ieee) {n t : Int} (hn : 0 < n) (hn' : n ≤ 2 ^ 33) {w : ℝ} (w0 : 0 ≤ w) (w1 : w ≤ A.twoPi)
    (ht : pyTrunc (A.add (A.div w (A.div (A.mul 2 A.pi) n)) (1 / 2)) = t) :
    0 ≤ t ∧ t ≤ n ∧ |w - A.twoPi * t / n| ≤ A.twoPi / n / 2 + 1 / 2 ^ 46 := by
  have hn1 : (1 : ℝ) ≤ n := by exact_mod_cast (by omega : 1 ≤ n)
  have hn2 : (n : ℝ) ≤ 2 ^ 33 := by exact_mod_cast hn'
  obtain ⟨p1, p2⟩ := hA.twoPi_range
  obtain ⟨r1, r2⟩ := tract_quot hA hn hn' (w := w) w0 (by norm_num at p1 ⊢; linarith)
  rw [ht] at r1 r2
  refine ⟨r1, r2, ?_⟩
  have ht0 : (0 : ℝ) ≤ t := by exact_mod_cast r1
  have ht1 : (t : ℝ) ≤ n := by exact_mod_cast r2
  have etp : A.mul 2 A.pi = A.twoPi := rfl
  rw [etp] at ht
  have q0 : 0 < A.twoPi / n := div_pos (by linarith) (by linarith)
  have qn : A.twoPi / n ≤ 6.4 := (div_le_self (by linarith) hn1).trans p2.le
  have q7 : 6 / 2 ^ 33 ≤ A.twoPi / n := by
    have h : (6 : ℝ) / 2 ^ 33 ≤ A.twoPi / 2 ^ 33 := by gcongr; linarith
    refine h.trans ?_
    have : (0 : ℝ) ≤ A.twoPi := by linarith
    gcongr
  have he := hA.err' (A.twoPi / n)
  rw [abs_of_pos q0] at he
  have hD : A.div A.twoPi n = A.rnd (A.twoPi / n) := rfl
  rw [← hD] at he
  generalize hDd : A.div A.twoPi n = D at he ht
  have he' := abs_le.mp he
  -- the width times the tract number
  have h1 : |D * t - A.twoPi * t / n| ≤ 1 / 2 ^ 49 := by
    have : D * t - A.twoPi * t / n = (D - A.twoPi / n) * t := by ring
    rw [this, abs_mul, abs_of_nonneg ht0]
    calc |D - A.twoPi / n| * t ≤ (A.twoPi / n / 2 ^ 53 + 1 / 2 ^ 100) * n := by gcongr
      _ = A.twoPi / 2 ^ 53 + n / 2 ^ 100 := by field_simp
      _ ≤ 6.4 / 2 ^ 53 + 2 ^ 33 / 2 ^ 100 := by gcongr
      _ ≤ 1 / 2 ^ 49 := by norm_num
  have hDlow : 3 / 2 ^ 33 ≤ D := by norm_num at he' q7 ⊢; linarith
  have hDpos : 0 < D := lt_of_lt_of_le (by positivity) hDlow
  have hD6 : D ≤ 6.5 := by norm_num at he' qn ⊢; linarith
  have hDn : D * n ≤ 6.5 := by
    have e : A.twoPi / n * n = A.twoPi := by field_simp
    have : D * n ≤ (A.twoPi / n + (A.twoPi / n / 2 ^ 53 + 1 / 2 ^ 100)) * n := by gcongr; linarith
    have e2 : (A.twoPi / n + (A.twoPi / n / 2 ^ 53 + 1 / 2 ^ 100)) * n = A.twoPi + A.twoPi / 2 ^ 53 + n / 2 ^ 100 := by
      field_simp; ring
    norm_num at this e2 p2 hn2 ⊢
    linarith
  have hDn' : A.twoPi - 1 / 2 ^ 49 ≤ D * n := by
    have e : A.twoPi / n * n = A.twoPi := by field_simp
    have : (A.twoPi / n - (A.twoPi / n / 2 ^ 53 + 1 / 2 ^ 100)) * n ≤ D * n := by gcongr; linarith
    have e2 : (A.twoPi / n - (A.twoPi / n / 2 ^ 53 + 1 / 2 ^ 100)) * n = A.twoPi - A.twoPi / 2 ^ 53 - n / 2 ^ 100 := by
      field_simp; ring
    norm_num at this e2 p2 hn2 ⊢
    linarith
  have q3 : 0 ≤ w / D := div_nonneg w0 hDpos.le
  have q4 : w / D ≤ n + 1 := by
    rw [div_le_iff₀ hDpos]
    norm_num at hDn' hDlow ⊢
    linarith
  have k3 := hA.near (x := w / D) (M := n + 1) (by rw [abs_of_nonneg q3]; exact q4)
  have k3' : 0 ≤ A.div w D := hA.nonneg q3
  have hq : A.div w D = A.rnd (w / D) := rfl
  rw [← hq] at k3
  have k5 := hA.near (x := A.div w D + 1 / 2) (M := n + 2) (by
    rw [abs_of_nonneg (by linarith)]; norm_num at k3 hn2 ⊢; linarith)
  have k6 : 0 ≤ A.add (A.div w D) (1 / 2) := hA.nonneg (by linarith)
  have hq2 : A.add (A.div w D) (1 / 2) = A.rnd (A.div w D + 1 / 2) := rfl
  rw [← hq2] at k5
  rw [pyTrunc_nonneg k6] at ht
  have m1 := Int.floor_le (A.add (A.div w D) (1 / 2))
  have m2 := Int.lt_floor_add_one (A.add (A.div w D) (1 / 2))
  rw [ht] at m1 m2
  have n1 : (t : ℝ) - 1 / 2 - ((2 * n + 3) / 2 ^ 53 + 2 / 2 ^ 100) ≤ w / D := by
    have : ((2 : ℝ) * n + 3) / 2 ^ 53 = (n + 1) / 2 ^ 53 + (n + 2) / 2 ^ 53 := by ring
    rw [this]; norm_num at k3 k5 ⊢; linarith
  have n2 : w / D ≤ (t : ℝ) + 1 / 2 + ((2 * n + 3) / 2 ^ 53 + 2 / 2 ^ 100) := by
    have : ((2 : ℝ) * n + 3) / 2 ^ 53 = (n + 1) / 2 ^ 53 + (n + 2) / 2 ^ 53 := by ring
    rw [this]; norm_num at k3 k5 ⊢; linarith
  have ew : w / D * D = w := by field_simp
  have n3 := mul_le_mul_of_nonneg_right n1 hDpos.le
  have n4 := mul_le_mul_of_nonneg_right n2 hDpos.le
  rw [ew] at n3 n4
  have n5 : ((2 * n + 3) / 2 ^ 53 + 2 / 2 ^ 100) * D ≤ 1 / 2 ^ 47 := by
    have e : ((2 * (n : ℝ) + 3) / 2 ^ 53 + 2 / 2 ^ 100) * D = (2 * (D * n) + 3 * D) / 2 ^ 53 + 2 * D / 2 ^ 100 := by ring
    rw [e]
    norm_num at hDn hD6 ⊢
    linarith
  have n6 : D / 2 ≤ A.twoPi / n / 2 + 1 / 2 ^ 49 := by norm_num at he' qn ⊢; linarith
  have h1' := abs_le.mp h1
  rw [abs_le]
  norm_num at n3 n4 n5 n6 h1' ⊢
  constructor <;> linarith

/-- The right ascension of the centre of the tract that is found differs from the position's by at most half of the tract's width, up to
rounding and full circles. -/
theorem ra_near (hA : A.Ieee) (wf : R.WF) {k : Nat} {n t : Int} (hn : R.ringNums[k]? = some n) (hn' : n ≤ 2 ^ 33)
    (hr : |R.raStart| ≤ 6.4) {lon : ℝ} (l0 : 0 ≤ lon) (l1 : lon ≤ 6.4) (ht : R.raToTractNum A lon k = .ok t) :
    ∃ x, cos (lon - A.wrap (A.add (A.div (A.mul (A.mul 2 A.pi) t) n) R.raStart)) = cos x ∧
      sin (lon - A.wrap (A.add (A.div (A.mul (A.mul 2 A.pi) t) n) R.raStart)) = sin x ∧ |x| ≤ π / n + 1 / 2 ^ 44 := by
  have hpos := wf.pos n (List.mem_of_getElem? hn)
  rw [wf.raToTractNum_eq A hn] at ht
  have hn1 : (1 : ℝ) ≤ n := by exact_mod_cast (by omega : 1 ≤ n)
  have hn2 : (n : ℝ) ≤ 2 ^ 33 := by exact_mod_cast hn'
  have etp : A.mul 2 A.pi = A.twoPi := rfl
  have hr' := abs_le.mp hr
  obtain ⟨p1, p2⟩ := hA.twoPi_range
  have p0 : 0 < A.twoPi := by linarith
  -- from the position to the tract number
  have e5 := hA.near (x := lon - R.raStart) (M := 13) (by
    rw [abs_le]; norm_num at hr' l1 ⊢; constructor <;> linarith)
  have e5' : A.sub lon R.raStart = A.rnd (lon - R.raStart) := rfl
  rw [← e5'] at e5
  generalize A.sub lon R.raStart = z at e5 ht
  obtain ⟨k2, hk2⟩ := hA.wrap_near z
  obtain ⟨w0, w1⟩ := hA.wrap_range z
  generalize A.wrap z = w at hk2 w0 w1 ht
  have hk2' := abs_le.mp hk2
  obtain ⟨t', ht'⟩ : ∃ t', pyTrunc (A.add (A.div w (A.div (A.mul 2 A.pi) n)) (1 / 2)) = t' := ⟨_, rfl⟩
  obtain ⟨a0, a1, a2⟩ := tract_of hA hpos hn' w0 w1.le ht'
  rw [ht'] at ht
  obtain ⟨j, j0, hj⟩ : ∃ j : ℤ, (j = 0 ∨ j = 1) ∧ t' = t + j * n := by
    have ht := Except.ok.inj ht
    split at ht
    · exact ⟨1, .inr rfl, by omega⟩
    · exact ⟨0, .inl rfl, by omega⟩
  have t0 : 0 ≤ t := by
    have ht := Except.ok.inj ht
    split at ht <;> omega
  have t1 : t ≤ n := by
    have ht := Except.ok.inj ht
    split at ht <;> omega
  have ht0 : (0 : ℝ) ≤ t := by exact_mod_cast t0
  have ht1 : (t : ℝ) ≤ n := by exact_mod_cast t1
  have et : A.twoPi * t' / n = A.twoPi * t / n + j * A.twoPi := by rw [hj]; push_cast; field_simp
  rw [et] at a2
  have a2' := abs_le.mp a2
  -- from the tract number to the centre
  have hx0 : 0 ≤ A.twoPi * t / n := by positivity
  have hx1 : A.twoPi * t / n ≤ A.twoPi := by
    rw [div_le_iff₀ (by linarith)]; gcongr
  have e1 := hA.err' (A.twoPi * t)
  rw [abs_of_nonneg (a := A.twoPi * t) (by positivity)] at e1
  have e1' : A.mul A.twoPi t = A.rnd (A.twoPi * t) := rfl
  rw [← e1'] at e1
  have e2 : |A.mul A.twoPi t / n - A.twoPi * t / n| ≤ 1 / 2 ^ 50 := by
    rw [← sub_div, abs_div, abs_of_pos (show (0 : ℝ) < n by linarith), div_le_iff₀ (by linarith)]
    refine e1.trans ?_
    calc A.twoPi * t / 2 ^ 53 + 1 / 2 ^ 100 ≤ 6.4 * (n : ℝ) / 2 ^ 53 + 1 / 2 ^ 100 := by gcongr
      _ ≤ 1 / 2 ^ 50 * (n : ℝ) := by norm_num; linarith
  have e2' := abs_le.mp e2
  have e3 := hA.near (x := A.mul A.twoPi t / n) (M := 6.5) (by
    rw [abs_le]; norm_num at e2' p2 ⊢; constructor <;> linarith)
  have e3' : A.div (A.mul A.twoPi t) n = A.rnd (A.mul A.twoPi t / n) := rfl
  rw [← e3'] at e3
  rw [etp]
  generalize A.div (A.mul A.twoPi t) n = y at e3 ⊢
  have e4 := hA.near (x := y + R.raStart) (M := 13) (by
    rw [abs_le]; norm_num at e2' e3 hr' p2 ⊢; constructor <;> linarith)
  have e4' : A.add y R.raStart = A.rnd (y + R.raStart) := rfl
  rw [← e4'] at e4
  generalize A.add y R.raStart = u at e4 ⊢
  obtain ⟨k1, hk1⟩ := hA.wrap_near u
  obtain ⟨r1, r2⟩ := hA.wrap_range u
  generalize A.wrap u = ra at hk1 r1 r2 ⊢
  have hk1' := abs_le.mp hk1
  -- together
  have key : |lon - ra - ((k1 + k2 + j : ℤ) : ℝ) * A.twoPi| ≤ A.twoPi / n / 2 + 1 / 2 ^ 45 := by
    push_cast
    rw [abs_le]
    norm_num at e2' e3 e4 hk1' e5 hk2' a2' ⊢
    constructor <;> linarith
  generalize k1 + k2 + j = K at key
  have key' := abs_le.mp key
  have qn : A.twoPi / n ≤ A.twoPi := div_le_self (by linarith) hn1
  have K0 : |(K : ℝ)| ≤ 3 := by
    rw [abs_le]
    constructor
    · by_contra hc
      have hm : A.twoPi * K ≤ A.twoPi * (-3) := by gcongr; linarith
      norm_num at key' hm p1
      linarith
    · by_contra hc
      have hm : A.twoPi * 3 ≤ A.twoPi * K := by gcongr; linarith
      norm_num at key' hm p1 l1
      linarith
  have hT : |A.twoPi - 2 * π| ≤ 1 / 2 ^ 49 := by
    have hpi := abs_le.mp hA.pi_err
    obtain ⟨q1, q2⟩ := hA.pi_range
    have := hA.near (x := 2 * A.pi) (M := 6.4) (by rw [abs_of_nonneg (by linarith)]; linarith)
    have e : A.twoPi = A.rnd (2 * A.pi) := rfl
    rw [← e] at this
    rw [abs_le]; norm_num at this hpi ⊢; constructor <;> linarith
  have hKT : |(K : ℝ) * (A.twoPi - 2 * π)| ≤ 3 * (1 / 2 ^ 49) := by
    rw [abs_mul]; exact mul_le_mul K0 hT (abs_nonneg _) (by norm_num)
  have hKT' := abs_le.mp hKT
  have hTn : A.twoPi / n / 2 ≤ π / n + 1 / 2 ^ 50 := by
    have e : A.twoPi / n / 2 = π / n + (A.twoPi - 2 * π) / 2 / n := by field_simp; ring
    rw [e]
    have : (A.twoPi - 2 * π) / 2 / n ≤ 1 / 2 ^ 50 := by
      rw [div_le_iff₀ (by linarith)]
      have := (abs_le.mp hT).2
      norm_num at this ⊢
      linarith
    linarith
  refine ⟨lon - ra - K * (2 * π), ?_, ?_, ?_⟩
  · rw [cos_sub_int_mul_two_pi]
  · rw [sin_sub_int_mul_two_pi]
  · rw [abs_le]
    norm_num at key' hKT' hTn ⊢
    constructor <;> linarith

end Rings
end Skymap
