import Verif.Props.RingsRounding
import Mathlib.Analysis.SpecialFunctions.Trigonometric.Bounds

/-! # Every ring has at least three tracts, with rounding -/

set_option linter.unusedSectionVars false

namespace Skymap
namespace Rings
variable {A : FloatArith ℝ} {c : RingsConfig ℝ} {v : Int} {R : Rings ℝ}

theorem three_quot (hA : A.Ieee) {s x : ℝ} (hs : 1 / 2 ^ 31 ≤ s) (hx : 0.42 * s ≤ x) :
    2 ≤ A.div (A.mul A.twoPi x) s := by
  obtain ⟨t1, t2⟩ := hA.twoPi_range
  have s0 : (0 : ℝ) < s := lt_of_lt_of_le (by positivity) hs
  have x0 : 0 ≤ x := le_trans (by positivity) hx
  have g1 : 2.6 * s ≤ A.twoPi * x := by
    have : 6.2 * x ≤ A.twoPi * x := by gcongr
    norm_num at this hx ⊢
    linarith
  have g2 : 2.5 * s ≤ A.mul A.twoPi x := by
    have h := (abs_le.mp (hA.err' (A.twoPi * x))).1
    rw [abs_of_nonneg (by positivity)] at h
    unfold FloatArith.mul
    norm_num at h hs g1 ⊢
    linarith
  have g3 : 2.5 ≤ A.mul A.twoPi x / s := by rw [le_div_iff₀ s0]; exact g2
  have g4 : A.rnd 2.5 ≤ A.div (A.mul A.twoPi x) s := hA.mono g3
  have g5 := (hA.near (x := 2.5) (M := 2.5) (by norm_num [abs_le])).1
  norm_num at g4 g5 ⊢
  linarith

/-- The distance to the equator of the nearer edge of a ring, when there are several rings. -/
theorem three_mid {s a b p start stop d : ℝ} (q1 : 0 ≤ a) (q2 : a + s ≤ b) (s31 : 1 / 2 ^ 31 ≤ s) (s2 : 2 * s ≤ b)
    (b2 : b + s - p ≤ 1 / 2 ^ 50) (hpi : |p - Real.pi| ≤ 1 / 2 ^ 52)
    (dl : d ≤ |start|) (dr : d ≤ |stop|) (d1 : |start - (a + s / 2 - p / 2)| ≤ 1 / 2 ^ 49)
    (d2 : |stop - (a + 3 / 2 * s - p / 2)| ≤ 1 / 2 ^ 48) : d ≤ Real.pi / 2 - 0.9 * s := by
  obtain ⟨d11, d12⟩ := abs_le.mp d1
  obtain ⟨d21, d22⟩ := abs_le.mp d2
  obtain ⟨h1, h2⟩ := abs_le.mp hpi
  clear d1 d2 hpi
  norm_num at s31 b2 d11 d12 d21 d22 h1 h2
  by_cases c1 : start + s ≤ 0
  · refine dr.trans ?_
    rw [abs_le]
    norm_num
    constructor <;> linarith
  · by_cases c2 : 0 ≤ start
    · refine dl.trans ?_
      rw [abs_le]
      norm_num
      constructor <;> linarith
    · push Not at c1 c2
      have c3 : d ≤ s / 2 + 1 / 2 ^ 46 := by
        by_cases c4 : -start ≤ s / 2
        · refine dl.trans ?_
          rw [abs_le]
          norm_num
          constructor <;> linarith
        · push Not at c4
          refine dr.trans ?_
          rw [abs_le]
          norm_num
          constructor <;> linarith
      norm_num at c3 ⊢
      linarith

set_option maxHeartbeats 1000000 in
theorem ringCount_three (hA : A.Ieee) {N i : Nat} (h1 : 1 ≤ N) (h2 : N ≤ 2 ^ 31) (hi : i < N) {s : ℝ}
    (hs : s = A.div A.pi (N + 1)) : 3 ≤ ringCount A s i := by
  have h1' : (1 : ℝ) ≤ N := by exact_mod_cast h1
  have h2' : (N : ℝ) ≤ 2 ^ 31 := by exact_mod_cast h2
  have hi' : (i : ℝ) + 1 ≤ N := by exact_mod_cast hi
  have hi0 : (0 : ℝ) ≤ i := by positivity
  obtain ⟨b1, b2, b3, b4⟩ := size_bounds hA h1' h2'
  rw [← hs] at b1 b2 b3 b4
  obtain ⟨p1, p2⟩ := hA.pi_range
  have b1' := abs_le.mp b1
  have hpi := abs_le.mp hA.pi_err
  have sN : s * N ≤ 3.2 := by
    have : s * (N + 1) = s * N + s := by ring
    rw [this] at b1'
    norm_num at b1' p2 ⊢
    linarith [b1'.2]
  have s31 : 1 / 2 ^ 31 ≤ s := by
    refine le_trans ?_ b3
    rw [div_le_div_iff₀ (by positivity) (by linarith)]
    have h3 : (N : ℝ) ≤ 2147483648 := by exact_mod_cast h2
    linarith
  -- the start of the ring
  have a1 : |s * A.add i (1 / 2) - s * (i + 1 / 2)| ≤ 1 / 2 ^ 51 := by
    have h := hA.err' ((i : ℝ) + 1 / 2)
    rw [abs_of_nonneg (show (0 : ℝ) ≤ i + 1 / 2 by linarith)] at h
    rw [← mul_sub, abs_mul, abs_of_pos b2]
    have h3 : s * |A.add i (1 / 2) - (i + 1 / 2)| ≤ s * ((i + 1 / 2) / 2 ^ 53 + 1 / 2 ^ 100) := by
      unfold FloatArith.add
      gcongr
    have h4 : s * (i + 1 / 2) ≤ s * N := by gcongr; linarith
    norm_num at h3 h4 sN b4 ⊢
    linarith
  have a1' := abs_le.mp a1
  have i4 : s * (i + 1 / 2) ≤ 3.2 := le_trans (by gcongr; linarith) sN
  have i5 : 0 ≤ s * (i + 1 / 2) := by positivity
  have m1 := hA.near (x := s * A.add i (1 / 2)) (M := 3.3) (by
    rw [abs_le]; norm_num at a1' i4 i5 ⊢; constructor <;> linarith [a1'.1, a1'.2])
  have m2 := hA.near (x := 1 / 2 * A.pi) (M := 1.6) (by rw [abs_of_nonneg (by linarith)]; linarith)
  have m3 := hA.near (x := A.mul s (A.add i (1 / 2)) - A.mul (1 / 2) A.pi) (M := 5) (by
    unfold FloatArith.mul
    rw [abs_le]; norm_num at a1' i4 i5 m1 m2 ⊢; constructor <;> linarith [a1'.1, a1'.2, m1.1, m1.2, m2.1, m2.2])
  have d1 : |A.sub (A.mul s (A.add i (1 / 2))) (A.mul (1 / 2) A.pi) - (s * (i + 1 / 2) - A.pi / 2)| ≤ 1 / 2 ^ 49 := by
    unfold FloatArith.mul FloatArith.sub at *
    rw [abs_le]
    norm_num at a1' m1 m2 m3 ⊢
    constructor <;> linarith [a1'.1, a1'.2, m1.1, m1.2, m2.1, m2.2, m3.1, m3.2]
  unfold ringCount
  dsimp only
  generalize hstart : A.sub (A.mul s (A.add i (1 / 2))) (A.mul (1 / 2) A.pi) = start at d1 ⊢
  have d1' := abs_le.mp d1
  have m4 := hA.near (x := start + s) (M := 7) (by
    rw [abs_le]; norm_num at d1' i4 i5 b4 p1 p2 ⊢; constructor <;> linarith [d1'.1, d1'.2])
  have d2 : |A.add start s - (s * (i + 3 / 2) - A.pi / 2)| ≤ 1 / 2 ^ 48 := by
    unfold FloatArith.add
    have e : s * ((i : ℝ) + 3 / 2) = s * (i + 1 / 2) + s := by ring
    rw [e, abs_le]
    norm_num at d1' m4 ⊢
    constructor <;> linarith [d1'.1, d1'.2, m4.1, m4.2]
  have d2' := abs_le.mp d2
  generalize hstop : A.add start s = stop at d2 d2' ⊢
  generalize hd : min |start| |stop| = d
  have e0 : 0 ≤ d := by rw [← hd]; positivity
  have dl : d ≤ |start| := by rw [← hd]; exact min_le_left _ _
  have dr : d ≤ |stop| := by rw [← hd]; exact min_le_right _ _
  have etp : A.mul 2 A.pi = A.twoPi := rfl
  rw [etp]
  have hcos := abs_le.mp (hA.cos_err d)
  have hrp := Real.pi_gt_d4
  have hrp' := Real.pi_lt_d4
  have key : 0.42 * s ≤ A.cos d := by
    by_cases hN : N = 1
    · have hi1 : i = 0 := by omega
      subst hN hi1
      have e1 : d ≤ 0.79 := by
        refine dl.trans ?_
        rw [abs_le]
        norm_num at d1' b1' p1 p2 b4 ⊢
        constructor <;> linarith [d1'.1, d1'.2, b1'.1, b1'.2]
      have e2 := Real.one_sub_sq_div_two_le_cos (x := d)
      have e3 : d ^ 2 ≤ 0.79 ^ 2 := by gcongr
      norm_num at e2 e3 hcos b4 ⊢
      linarith [hcos.1]
    · have hN2 : (2 : ℝ) ≤ N := by exact_mod_cast (by omega : 2 ≤ N)
      have e1 : d ≤ Real.pi / 2 - 0.9 * s := by
        refine three_mid (p := A.pi) (a := s * i) (b := s * N) (by positivity) (by rw [← mul_add_one]; gcongr) s31 (by rw [mul_comm]; gcongr) ?_ ?_ dl dr ?_ ?_
        · exact (le_of_eq (by rw [mul_add_one])).trans (abs_le.mp b1).2
        · exact hA.pi_err
        · rw [show s * (i : ℝ) + s / 2 - A.pi / 2 = s * (i + 1 / 2) - A.pi / 2 by ring]; exact d1
        · rw [show s * (i : ℝ) + 3 / 2 * s - A.pi / 2 = s * (i + 3 / 2) - A.pi / 2 by ring]; exact d2
      have e2 : Real.cos (Real.pi / 2 - 0.9 * s) ≤ Real.cos d := by
        refine Real.cos_le_cos_of_nonneg_of_le_pi e0 ?_ e1
        norm_num at *; linarith
      rw [Real.cos_pi_div_two_sub] at e2
      have e3 := Real.mul_le_sin (x := 0.9 * s) (by positivity) (by norm_num at *; linarith)
      have e4 : 0.5 * s ≤ 2 / Real.pi * (0.9 * s) := by
        have : (0.6 : ℝ) ≤ 2 / Real.pi := by
          rw [le_div_iff₀ (by linarith)]; norm_num at *; linarith
        calc (0.5 : ℝ) * s ≤ 0.6 * (0.9 * s) := by norm_num; linarith
          _ ≤ _ := by gcongr
      norm_num at e4 e3 e2 hcos s31 ⊢
      linarith [hcos.1]
  have g := three_quot hA s31 key
  have : 2 ≤ pyTrunc (A.div (A.mul A.twoPi (A.cos d)) s) := by
    rw [pyTrunc_nonneg (by linarith), Int.le_floor]
    exact_mod_cast g
  omega

theorem new_three (hA : A.Ieee) (h : Rings.new A c v = .ok R) (h1 : 1 ≤ c.numRings) (h2 : c.numRings ≤ 2 ^ 31) :
    ∀ n ∈ R.ringNums, 3 ≤ n := by
  obtain ⟨e1, -, -, -, e5, -⟩ := new_attr h
  intro n hn
  rw [e5, List.mem_map] at hn
  obtain ⟨i, hi, rfl⟩ := hn
  exact ringCount_three hA h1 h2 (List.mem_range.mp hi) rfl

end Rings
end Skymap
