import Verif.Props.RingsRounding
import Mathlib.Data.Int.Log

/-! # The assumptions of C34 hold for rounding to 53 significant bits -/

namespace Skymap

/-- A non-negative number rounded to 53 significant bits (ties up). -/
noncomputable def round53 (x : ℝ) : ℝ :=
  let e := Int.log 2 x
  ⌊x * 2 ^ (52 - e) + 1 / 2⌋ * (2 : ℝ) ^ (e - 52)

/-- Rounding to 53 significant bits (ties away from zero), with unbounded exponents. -/
noncomputable def rnd53 (x : ℝ) : ℝ := if x < 0 then -round53 (-x) else round53 x

/-- Double precision arithmetic, with correctly rounded pi and cosine. -/
noncomputable def FloatArith.double : FloatArith ℝ := ⟨rnd53, rnd53 Real.pi, fun x => rnd53 (Real.cos x)⟩

theorem round53_zero : round53 0 = 0 := by simp [round53]; norm_num

/-- Error and range of the rounding of a positive number. -/
theorem round53_spec {x : ℝ} (hx : 0 < x) :
    |round53 x - x| ≤ (2 : ℝ) ^ (Int.log 2 x - 53) ∧ (2 : ℝ) ^ Int.log 2 x ≤ round53 x ∧ round53 x ≤ (2 : ℝ) ^ (Int.log 2 x + 1) := by
  have h1 : (2 : ℝ) ^ Int.log 2 x ≤ x := by exact_mod_cast Int.zpow_log_le_self (b := 2) (by norm_num) hx
  have h2 : x < (2 : ℝ) ^ (Int.log 2 x + 1) := by exact_mod_cast Int.lt_zpow_succ_log_self (b := 2) (by norm_num) x
  unfold round53
  dsimp only
  generalize Int.log 2 x = e at *
  have p1 : (0 : ℝ) < 2 ^ (e - 52) := by positivity
  have p2 : (0 : ℝ) < 2 ^ (52 - e) := by positivity
  have pe : (2 : ℝ) ^ (52 - e) * 2 ^ (e - 52) = 1 := by rw [← zpow_add₀ (by norm_num)]; simp
  have q1 : (2 : ℝ) ^ e = 2 ^ (52 : ℤ) * 2 ^ (e - 52) := by rw [← zpow_add₀ (by norm_num)]; congr 1; ring
  have q2 : (2 : ℝ) ^ (e + 1) = 2 ^ (53 : ℤ) * 2 ^ (e - 52) := by rw [← zpow_add₀ (by norm_num)]; congr 1; ring
  have q3 : (2 : ℝ) ^ (e - 53) = 1 / 2 * 2 ^ (e - 52) := by
    rw [show e - 53 = e - 52 - 1 by ring, zpow_sub_one₀ (by norm_num)]; ring
  have f1 := Int.floor_le (x * 2 ^ (52 - e) + 1 / 2)
  have f2 := Int.lt_floor_add_one (x * 2 ^ (52 - e) + 1 / 2)
  have ex : x = x * 2 ^ (52 - e) * 2 ^ (e - 52) := by rw [mul_assoc, pe, mul_one]
  generalize hy : x * (2 : ℝ) ^ (52 - e) = y at *
  have y1 : (2 : ℝ) ^ (52 : ℤ) ≤ y := by
    have : (2 : ℝ) ^ (52 : ℤ) * 2 ^ (e - 52) ≤ y * 2 ^ (e - 52) := by rw [← q1, ← ex]; exact h1
    exact le_of_mul_le_mul_right this p1
  have y2 : y < (2 : ℝ) ^ (53 : ℤ) := by
    have : y * 2 ^ (e - 52) < (2 : ℝ) ^ (53 : ℤ) * 2 ^ (e - 52) := by rw [← q2, ← ex]; exact h2
    exact lt_of_mul_lt_mul_right this p1.le
  refine ⟨?_, ?_, ?_⟩
  · rw [q3]
    rw [ex]
    rw [← sub_mul, abs_mul, abs_of_pos p1]
    gcongr
    rw [abs_le]; constructor <;> linarith
  · rw [q1]
    gcongr
    have : (2 ^ 52 : ℤ) ≤ ⌊y + 1 / 2⌋ := by
      rw [Int.le_floor]; push_cast
      have : (2 : ℝ) ^ (52 : ℤ) = 2 ^ 52 := by norm_cast
      linarith
    calc (2 : ℝ) ^ (52 : ℤ) = ((2 ^ 52 : ℤ) : ℝ) := by norm_cast
      _ ≤ _ := by exact_mod_cast this
  · rw [q2]
    gcongr
    have : ⌊y + 1 / 2⌋ ≤ (2 ^ 53 : ℤ) := by
      have : ⌊y + 1 / 2⌋ < (2 ^ 53 : ℤ) + 1 := by
        rw [Int.floor_lt]; push_cast
        have : (2 : ℝ) ^ (53 : ℤ) = 2 ^ 53 := by norm_cast
        linarith
      omega
    calc ((⌊y + 1 / 2⌋ : ℤ) : ℝ) ≤ ((2 ^ 53 : ℤ) : ℝ) := by exact_mod_cast this
      _ = _ := by norm_cast

theorem round53_nonneg {x : ℝ} (hx : 0 ≤ x) : 0 ≤ round53 x := by
  rcases hx.eq_or_lt with rfl | h
  · rw [round53_zero]
  · exact le_trans (by positivity) (round53_spec h).2.1

theorem round53_mono {x y : ℝ} (hx : 0 ≤ x) (h : x ≤ y) : round53 x ≤ round53 y := by
  rcases hx.eq_or_lt with rfl | h0
  · rw [round53_zero]; exact round53_nonneg h
  have hl := Int.log_mono_right (b := 2) h0 h
  rcases hl.eq_or_lt with he | hlt
  · unfold round53
    dsimp only
    rw [he]
    gcongr
  · calc round53 x ≤ (2 : ℝ) ^ (Int.log 2 x + 1) := (round53_spec h0).2.2
      _ ≤ (2 : ℝ) ^ (Int.log 2 y) := zpow_le_zpow_right₀ (by norm_num) (by omega)
      _ ≤ _ := (round53_spec (h0.trans_le h)).2.1

theorem round53_err {x : ℝ} (hx : 0 ≤ x) : |round53 x - x| ≤ x / 2 ^ 53 := by
  rcases hx.eq_or_lt with rfl | h0
  · simp [round53_zero]
  refine (round53_spec h0).1.trans ?_
  have h1 : (2 : ℝ) ^ Int.log 2 x ≤ x := by exact_mod_cast Int.zpow_log_le_self (b := 2) (by norm_num) h0
  rw [zpow_sub₀ (by norm_num)]
  have : (2 : ℝ) ^ (53 : ℤ) = 2 ^ 53 := by norm_cast
  rw [this]
  gcongr

theorem rnd53_err (x : ℝ) : |rnd53 x - x| ≤ |x| / 2 ^ 53 := by
  unfold rnd53
  split
  · next h =>
    have := round53_err (x := -x) (by linarith)
    rw [abs_of_neg h]
    rwa [show -round53 (-x) - x = -(round53 (-x) - -x) by ring, abs_neg]
  · next h => rw [abs_of_nonneg (not_lt.mp h)]; exact round53_err (not_lt.mp h)

theorem rnd53_mono : Monotone rnd53 := by
  intro x y h
  unfold rnd53
  split
  · next hx =>
    split
    · next hy => have := round53_mono (x := -y) (y := -x) (by linarith) (by linarith); linarith
    · next hy =>
      have := round53_nonneg (x := -x) (by linarith)
      have := round53_nonneg (not_lt.mp hy)
      linarith
  · next hx =>
    rw [if_neg (by linarith)]
    exact round53_mono (not_lt.mp hx) h

/-- The assumptions of C34 are met by double precision arithmetic. -/
theorem FloatArith.double_ieee : FloatArith.double.Ieee where
  mono := rnd53_mono
  zero := by simp [FloatArith.double, rnd53, round53_zero]
  err x := (rnd53_err x).trans (by simp only [le_add_iff_nonneg_right]; positivity)
  pi_err := by
    have h3 := Real.pi_gt_three
    have hs := (round53_spec Real.pi_pos).1
    have hlog : Int.log 2 Real.pi ≤ 1 := by
      have h1 : ((2 : ℕ) : ℝ) ^ Int.log 2 Real.pi ≤ Real.pi := Int.zpow_log_le_self (by norm_num) Real.pi_pos
      by_contra hc
      have h2 : ((2 : ℕ) : ℝ) ^ (2 : ℤ) ≤ ((2 : ℕ) : ℝ) ^ Int.log 2 Real.pi := zpow_le_zpow_right₀ (by norm_num) (by omega)
      have := Real.pi_lt_d2
      norm_num at h2 h1 this
      linarith
    change |rnd53 Real.pi - Real.pi| ≤ _
    rw [rnd53, if_neg (by linarith)]
    refine hs.trans ?_
    calc (2 : ℝ) ^ (Int.log 2 Real.pi - 53) ≤ (2 : ℝ) ^ (-52 : ℤ) := zpow_le_zpow_right₀ (by norm_num) (by omega)
      _ = _ := by rw [zpow_neg]; norm_num
  cos_err x := by
    refine (rnd53_err _).trans ?_
    have := Real.abs_cos_le_one x
    calc |Real.cos x| / 2 ^ 53 ≤ 1 / 2 ^ 53 := by gcongr
      _ ≤ _ := by norm_num

end Skymap
