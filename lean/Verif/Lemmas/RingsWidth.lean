import Verif.Lemmas.RingsNear

/-! # How wide the tracts of a rings sky map are, with rounding -/

set_option linter.unusedSectionVars false

namespace Skymap
namespace Rings
open Real
variable {A : FloatArith ℝ} {c : RingsConfig ℝ} {v : Int} {R : Rings ℝ}

/-- The quotient whose integer part is the number of tracts: the exact one, up to rounding. -/
theorem quot_near (hA : A.Ieee) {s : ℝ} (b2 : 0 < s) (b4 : s ≤ 1.6) (d : ℝ) :
    2 * π * cos d ≤ A.div (A.mul A.twoPi (A.cos d)) s * s + 1 / 2 ^ 47 ∧
      A.div (A.mul A.twoPi (A.cos d)) s * s ≤ 2 * π * cos d + 1 / 2 ^ 47 := by
  obtain ⟨p1, p2⟩ := hA.pi_range
  have hpi := abs_le.mp hA.pi_err
  obtain ⟨t1, t2⟩ := hA.twoPi_range
  have hT : |A.twoPi - 2 * π| ≤ 1 / 2 ^ 50 + 1 / 2 ^ 51 := by
    have := hA.near (x := 2 * A.pi) (M := 6.4) (by rw [abs_of_nonneg (by linarith)]; linarith)
    have e : A.twoPi = A.rnd (2 * A.pi) := rfl
    rw [← e] at this
    rw [abs_le]; norm_num at this hpi ⊢; constructor <;> linarith
  have c1 := hA.cos_err d
  have c2 := abs_cos_le_one d
  have hX : |A.twoPi * A.cos d - 2 * π * cos d| ≤ 1 / 2 ^ 48 := by
    have e : A.twoPi * A.cos d - 2 * π * cos d = A.twoPi * (A.cos d - cos d) + (A.twoPi - 2 * π) * cos d := by ring
    have a1 : |A.twoPi * (A.cos d - cos d)| ≤ 6.4 * (1 / 2 ^ 52) := by
      rw [abs_mul, abs_of_pos (by linarith)]; gcongr
    have a2 : |(A.twoPi - 2 * π) * cos d| ≤ (1 / 2 ^ 50 + 1 / 2 ^ 51) * 1 := by
      rw [abs_mul]; gcongr
    rw [e]
    refine (abs_add_le _ _).trans ?_
    norm_num at a1 a2 ⊢
    linarith
  have hX' := abs_le.mp hX
  have hcd : |2 * π * cos d| ≤ 6.3 := by
    rw [abs_mul, abs_of_pos (by positivity)]
    have := mul_le_mul_of_nonneg_left c2 (by positivity : 0 ≤ 2 * π)
    have p4 := pi_lt_d2
    norm_num at this p4 ⊢
    linarith
  have hcd' := abs_le.mp hcd
  have y1 := hA.near (x := A.twoPi * A.cos d) (M := 6.4) (by
    rw [abs_le]; norm_num at hX' hcd' ⊢; constructor <;> linarith)
  have y1' : A.mul A.twoPi (A.cos d) = A.rnd (A.twoPi * A.cos d) := rfl
  rw [← y1'] at y1
  generalize A.mul A.twoPi (A.cos d) = Y at y1
  have hY : |Y| ≤ 6.5 := by rw [abs_le]; norm_num at hX' hcd' y1 ⊢; constructor <;> linarith
  have z1 := hA.err' (Y / s)
  have z1' : A.div Y s = A.rnd (Y / s) := rfl
  rw [← z1'] at z1
  generalize A.div Y s = q at z1
  have z2 := (abs_le.mp z1).1
  have z3 := mul_le_mul_of_nonneg_right z2 b2.le
  have ey : Y / s * s = Y := by field_simp
  have ey2 : |Y / s| * s = |Y| := by rw [abs_div, abs_of_pos b2]; field_simp
  have z4 : -(|Y| / 2 ^ 53 + s / 2 ^ 100) ≤ q * s - Y := by
    calc -(|Y| / 2 ^ 53 + s / 2 ^ 100) = -(|Y / s| / 2 ^ 53 + 1 / 2 ^ 100) * s := by rw [← ey2]; ring
      _ ≤ _ := z3
      _ = _ := by rw [sub_mul, ey]
  have w3 := mul_le_mul_of_nonneg_right (abs_le.mp z1).2 b2.le
  have w4 : q * s - Y ≤ |Y| / 2 ^ 53 + s / 2 ^ 100 := by
    calc q * s - Y = (q - Y / s) * s := by rw [sub_mul, ey]
      _ ≤ _ := w3
      _ = _ := by rw [← ey2]; ring
  norm_num at z4 w4 hY b4 y1 hX' ⊢
  constructor <;> linarith

/-- The number of tracts of a ring with rounding: `q` is the rounded quotient and `d` the rounded declination. -/
theorem count_near (hA : A.Ieee) (h : Rings.new A c v = .ok R) (h1 : 1 ≤ c.numRings) (h2 : c.numRings ≤ 2 ^ 31)
    {k : Nat} {n : Int} (hn : R.ringNums[k]? = some n) :
    ∃ q d start stop : ℝ, n = pyTrunc q + 1 ∧ (2 * π * cos d ≤ q * R.ringSize + 1 / 2 ^ 47 ∧ q * R.ringSize ≤ 2 * π * cos d + 1 / 2 ^ 47) ∧
      d = min |start| |stop| ∧
      |start - (π / (c.numRings + 1) * (k + 1 / 2) - π / 2)| ≤ 1 / 2 ^ 47 ∧
      |stop - (π / (c.numRings + 1) * (k + 3 / 2) - π / 2)| ≤ 1 / 2 ^ 47 := by
  obtain ⟨e1, -, -, e4, e5, -⟩ := new_attr h
  have hk : k < c.numRings := by
    have := List.getElem?_eq_some_iff.1 hn
    obtain ⟨hl, -⟩ := this
    rw [e5] at hl
    simpa using hl
  have en : n = ringCount A R.ringSize k := by
    rw [e5, List.getElem?_map, List.getElem?_range hk] at hn
    simp only [Option.map_some, Option.some.injEq] at hn
    rw [← hn, e4]
  have hk1 : (k : ℝ) + 1 ≤ c.numRings := by exact_mod_cast hk
  have h2' : (c.numRings : ℝ) ≤ 2 ^ 31 := by exact_mod_cast h2
  have h1' : (1 : ℝ) ≤ c.numRings := by exact_mod_cast h1
  obtain ⟨sn, b2, b4, s5⟩ := size_near hA h h1 h2
  obtain ⟨b1, -, b3, -⟩ := size_bounds hA h1' h2'
  rw [← e4] at b1 b3
  have b1' := abs_le.mp b1
  obtain ⟨p1, p2⟩ := hA.pi_range
  have hpi := abs_le.mp hA.pi_err
  have p4 := pi_lt_d2
  have hk0 : (0 : ℝ) ≤ k := by positivity
  -- the start of the ring: the rounding of k + 1/2 is relative
  have i0 := hA.err' ((k : ℝ) + 1 / 2)
  rw [abs_of_nonneg (a := (k : ℝ) + 1 / 2) (by linarith)] at i0
  have i0' : A.add k (1 / 2) = A.rnd ((k : ℝ) + 1 / 2) := rfl
  rw [← i0'] at i0
  have i1 : |R.ringSize * A.add k (1 / 2) - R.ringSize * (k + 1 / 2)| ≤ 1 / 2 ^ 50 := by
    rw [← mul_sub, abs_mul, abs_of_pos b2]
    have : R.ringSize * |A.add k (1 / 2) - (k + 1 / 2)| ≤ R.ringSize * (((c.numRings : ℝ) + 1) / 2 ^ 53 + 1 / 2 ^ 100) := by
      gcongr
      refine i0.trans ?_
      gcongr
      linarith
    have e : R.ringSize * (((c.numRings : ℝ) + 1) / 2 ^ 53 + 1 / 2 ^ 100) = R.ringSize * (c.numRings + 1) / 2 ^ 53 + R.ringSize / 2 ^ 100 := by ring
    norm_num at this e b1' b4 p2 ⊢
    linarith
  have i1' := abs_le.mp i1
  have sk := abs_le.mp (sn (k + 1 / 2) (by positivity) (by linarith))
  have s1 := abs_le.mp (sn 1 (by positivity) (by linarith))
  have x0 : 0 ≤ π / (c.numRings + 1) * ((k : ℝ) + 1 / 2) := by positivity
  have x1 : π / (c.numRings + 1) * ((k : ℝ) + 1 / 2) ≤ π := by
    rw [div_mul_eq_mul_div, div_le_iff₀ (by positivity)]
    have := pi_pos
    gcongr; linarith
  have m1 := hA.near (x := R.ringSize * A.add k (1 / 2)) (M := 3.2) (by
    rw [abs_le]; norm_num at i1' sk p4 ⊢; constructor <;> linarith)
  have m1' : A.mul R.ringSize (A.add k (1 / 2)) = A.rnd (R.ringSize * A.add k (1 / 2)) := rfl
  rw [← m1'] at m1
  have m2 := hA.near (x := 1 / 2 * A.pi) (M := 1.6) (by rw [abs_of_nonneg (by linarith)]; linarith)
  have m2' : A.mul (1 / 2) A.pi = A.rnd (1 / 2 * A.pi) := rfl
  rw [← m2'] at m2
  have m3 := hA.near (x := A.mul R.ringSize (A.add k (1 / 2)) - A.mul (1 / 2) A.pi) (M := 2) (by
    rw [abs_le]; norm_num at i1' sk p4 m1 m2 p1 p2 ⊢; constructor <;> linarith)
  have m3' : A.sub (A.mul R.ringSize (A.add k (1 / 2))) (A.mul (1 / 2) A.pi) =
    A.rnd (A.mul R.ringSize (A.add k (1 / 2)) - A.mul (1 / 2) A.pi) := rfl
  rw [← m3'] at m3
  unfold ringCount at en
  dsimp only at en
  generalize hst : A.sub (A.mul R.ringSize (A.add k (1 / 2))) (A.mul (1 / 2) A.pi) = start at m3 en
  have st1 : |start - (π / (c.numRings + 1) * (k + 1 / 2) - π / 2)| ≤ 1 / 2 ^ 48 := by
    rw [abs_le]; norm_num at i1' sk m1 m2 m3 hpi ⊢; constructor <;> linarith
  have st1' := abs_le.mp st1
  have m4 := hA.near (x := start + R.ringSize) (M := 4) (by
    rw [abs_le]; norm_num at st1' x0 x1 p4 b4 ⊢; constructor <;> linarith)
  have m4' : A.add start R.ringSize = A.rnd (start + R.ringSize) := rfl
  rw [← m4'] at m4
  generalize A.add start R.ringSize = stop at m4 en
  have st2 : |stop - (π / (c.numRings + 1) * (k + 3 / 2) - π / 2)| ≤ 1 / 2 ^ 47 := by
    have e : π / ((c.numRings : ℝ) + 1) * (k + 3 / 2) = π / (c.numRings + 1) * (k + 1 / 2) + π / (c.numRings + 1) * 1 := by ring
    rw [e, abs_le]; norm_num at st1' m4 s1 ⊢; constructor <;> linarith
  have etp : A.mul 2 A.pi = A.twoPi := rfl
  rw [etp] at en
  generalize hd : min |start| |stop| = d at en
  refine ⟨_, d, start, stop, en, ?_, hd.symm, st1.trans (by norm_num), st2⟩
  exact quot_near hA b2 b4 d

/-- The middle ring of an odd number of rings has twice as many tracts as there are rings, and two more. -/
theorem middle_count {N s S d q : ℝ} (hN : 3 ≤ N) (b2 : 0 < s) (hS : S * (N + 1) = π) (s5 : 3 / (2 ^ 31 + 1) ≤ S) (d0 : 0 ≤ d)
    (d1 : d ≤ S / 2 + 1 / 2 ^ 47) (hq : 2 * π * cos d ≤ q * s + 1 / 2 ^ 47) (hs : s * (N + 1 / 2) ≤ S * (N + 1 / 2) + 1 / 2 ^ 49) :
    2 * N + 1 ≤ q := by
  have hp := pi_pos
  have p4 := pi_lt_d2
  have S0 : 0 < S := lt_of_lt_of_le (by norm_num) s5
  have hS4 : S ≤ 0.7875 := by
    have := mul_le_mul_of_nonneg_left (by linarith : (4 : ℝ) ≤ N + 1) S0.le
    norm_num at p4 ⊢
    linarith
  have hcos := one_sub_sq_div_two_le_cos (x := d)
  have hd2 : d ^ 2 ≤ S ^ 2 / 4 + 1 / 2 ^ 46 := by
    have a : d ^ 2 ≤ (S / 2 + 1 / 2 ^ 47) ^ 2 := by gcongr
    have e : (S / 2 + 1 / 2 ^ 47) ^ 2 = S ^ 2 / 4 + (S + 1 / 2 ^ 47) / 2 ^ 47 := by ring
    rw [e] at a
    refine a.trans ?_
    norm_num at hS4 ⊢
    linarith
  have k1 : 2 * π * (1 - (S ^ 2 / 4 + 1 / 2 ^ 46) / 2) ≤ 2 * π * cos d := by
    gcongr; linarith
  have k2 : 2 * π - π * S ^ 2 / 4 - 1 / 2 ^ 44 ≤ q * s + 1 / 2 ^ 47 := by
    refine le_trans ?_ (k1.trans hq)
    have e : 2 * π * (1 - (S ^ 2 / 4 + 1 / 2 ^ 46) / 2) = 2 * π - π * S ^ 2 / 4 - π / 2 ^ 46 := by ring
    rw [e]
    norm_num at p4 ⊢
    linarith
  have k4 : π * S ^ 2 / 4 ≤ 0.7 * S := by
    have a : π * S ≤ 3.15 * 0.7875 := by gcongr
    have b := mul_le_mul_of_nonneg_right a S0.le
    have e : π * S ^ 2 / 4 = π * S * S / 4 := by ring
    rw [e]
    norm_num at b ⊢
    linarith
  have k5 : (2 * N + 1) * s ≤ q * s := by
    norm_num at k2 k4 s5 hs ⊢
    linarith
  exact le_of_mul_le_mul_right k5 b2

/-- The cosine of a latitude at most half a rounding error nearer to the equator. -/
theorem cos_close {lat d : ℝ} (d0 : 0 ≤ d) (hle : |lat| ≤ π) (hc : d - 1 / 2 ^ 45 ≤ |lat|) : cos lat ≤ cos d + 1 / 2 ^ 45 := by
  rcases le_total d |lat| with h' | h'
  · rw [← cos_abs lat]
    have := cos_le_cos_of_nonneg_of_le_pi d0 hle h'
    have h9 : (0 : ℝ) ≤ 1 / 2 ^ 45 := by positivity
    linarith
  · have a := abs_cos_sub_cos_le |lat| d
    rw [cos_abs] at a
    have a' := (abs_le.mp a).2
    rw [abs_of_nonpos (by linarith)] at a'
    linarith

/-- C32 with rounding: up to rounding, tracts are nowhere wider than the ring is high. -/
theorem width_near (hA : A.Ieee) (h : Rings.new A c v = .ok R) (hN : 2 ≤ c.numRings) (h2 : c.numRings ≤ 2 ^ 31)
    {k : Nat} {n : Int} (hn : R.ringNums[k]? = some n) {lat : ℝ}
    (hlat : |lat - (π / (c.numRings + 1) * (k + 1) - π / 2)| ≤ π / (c.numRings + 1) / 2 + 1 / 2 ^ 46) :
    cos lat * (π / n) ≤ π / (c.numRings + 1) / 2 + 1 / 2 ^ 43 := by
  obtain ⟨wf, w33⟩ := new_wf_rounding hA h (by omega) h2
  obtain ⟨sn, b2, b4, s5⟩ := size_near hA h (by omega) h2
  obtain ⟨e1, -⟩ := new_attr h
  have hk := wf.lt_numRings hn
  rw [e1] at hk
  have hpos := wf.pos n (List.mem_of_getElem? hn)
  have hn1 : (1 : ℝ) ≤ n := by exact_mod_cast (by omega : 1 ≤ n)
  obtain ⟨q, d, start, stop, en, ⟨hq, -⟩, hd, st, sp⟩ := count_near hA h (by omega) h2 hn
  have hN' : (2 : ℝ) ≤ c.numRings := by exact_mod_cast hN
  have hp := pi_pos
  have p4 := pi_lt_d2
  have st' := abs_le.mp st
  have sp' := abs_le.mp sp
  have hl := abs_le.mp hlat
  set S := π / ((c.numRings : ℝ) + 1) with hS
  have hSN : S * (c.numRings + 1) = π := by rw [hS]; field_simp
  have s1 := abs_le.mp (sn 1 (by positivity) (by linarith))
  have hqn : q ≤ n := by
    rw [en]
    unfold pyTrunc
    split
    · push_cast; exact (Int.lt_floor_add_one q).le
    · push_cast; linarith [Int.le_ceil q]
  have hqs : q * R.ringSize ≤ n * R.ringSize := by gcongr
  have hns : n * R.ringSize ≤ n * S + n * (1 / 2 ^ 49) := by
    have : R.ringSize ≤ S + 1 / 2 ^ 49 := by linarith
    have := mul_le_mul_of_nonneg_left this (by linarith : (0 : ℝ) ≤ n)
    linarith
  rw [← mul_div_assoc, div_le_iff₀ (by linarith)]
  by_cases hc : |lat| < d - 1 / 2 ^ 45
  · -- only in the middle ring
    rw [hd, lt_sub_iff_add_lt, lt_min_iff] at hc
    obtain ⟨c1, c2⟩ := hc
    have ha : start < 0 := by
      by_contra hge
      rw [abs_of_nonneg (not_lt.mp hge)] at c1
      have := le_abs_self lat
      norm_num at st' hl c1
      linarith
    have hb : 0 < stop := by
      by_contra hge
      rw [abs_of_nonpos (not_lt.mp hge)] at c2
      have := neg_le_abs lat
      norm_num at sp' hl c2
      linarith
    rw [abs_of_neg ha] at c1
    rw [abs_of_pos hb] at c2
    have l0 := abs_nonneg lat
    have m1 : 2 * (k : ℝ) < c.numRings := by
      by_contra hge
      have : 0 ≤ S * (2 * k - c.numRings) := mul_nonneg (by positivity) (by linarith)
      norm_num at st' c1
      linarith
    have m2 : (c.numRings : ℝ) < 2 * k + 2 := by
      by_contra hge
      have : 0 ≤ S * (c.numRings - (2 * k + 2)) := mul_nonneg (by positivity) (by linarith)
      norm_num at sp' c2
      linarith
    have m3 : c.numRings = 2 * k + 1 := by
      have a1 : 2 * k < c.numRings := by exact_mod_cast m1
      have a2 : c.numRings < 2 * k + 2 := by exact_mod_cast m2
      omega
    have m4 : (c.numRings : ℝ) = 2 * k + 1 := by exact_mod_cast m3
    have hk1 : (1 : ℝ) ≤ k := by exact_mod_cast (by omega : 1 ≤ k)
    have hSk : S * (2 * k + 2) = π := by rw [← hSN, m4]; ring
    have hst0 : S * (k + 1 / 2) - π / 2 = -(S / 2) := by linarith
    rw [hst0] at st'
    have d1 : d ≤ S / 2 + 1 / 2 ^ 47 := by
      rw [hd]
      refine (min_le_left _ _).trans ?_
      rw [abs_of_neg ha]
      linarith
    have d0 : 0 ≤ d := by rw [hd]; positivity
    have hq2 : (2 * c.numRings + 1 : ℝ) ≤ q := by
      have := abs_le.mp (sn (c.numRings + 1 / 2) (by positivity) (by linarith))
      exact middle_count (by linarith) b2 hSN s5 d0 d1 hq (by linarith)
    have hge : (2 * (c.numRings : Int) + 1) ≤ pyTrunc q := by
      rw [pyTrunc_nonneg (by linarith), Int.le_floor]; push_cast; exact hq2
    have hn2 : (2 * (c.numRings + 1) : ℝ) ≤ n := by
      exact_mod_cast (by rw [en]; omega : 2 * ((c.numRings : Int) + 1) ≤ n)
    have hcl := cos_le_one lat
    have h5 : S * (2 * (c.numRings + 1)) ≤ S * n := by gcongr
    have h6 : cos lat * π ≤ 1 * π := by gcongr
    have h7 : (0 : ℝ) ≤ 1 / 2 ^ 43 * n := by positivity
    linarith
  · have hcl : cos lat ≤ cos d + 1 / 2 ^ 45 := by
      rw [not_lt] at hc
      have hle : |lat| ≤ π / 2 + 1 / 2 ^ 46 := by
        have hk2 : (k : ℝ) + 1 ≤ c.numRings := by exact_mod_cast hk
        have : S * (k + 1) ≤ S * c.numRings := by gcongr
        have : S * 1 ≤ S * (k + 1) := by gcongr; linarith [show (0 : ℝ) ≤ k by positivity]
        have : S * c.numRings = π - S := by linarith
        have hS0 : 0 < S := by positivity
        rw [abs_le]
        constructor <;> linarith
      exact cos_close (by rw [hd]; positivity) (by norm_num at hle; have := pi_gt_three; linarith) hc
    have k1 : 2 * π * cos lat ≤ 2 * π * (cos d + 1 / 2 ^ 45) := by gcongr
    norm_num at k1 hq hns p4 ⊢
    linarith
end Rings
end Skymap
