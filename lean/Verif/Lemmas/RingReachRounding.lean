import Verif.Lemmas.RingReach
import Verif.Lemmas.RingsWidth
import Verif.Props.RingsAll
import Verif.Props.RingsCoverRounding

/-! # How far a square around the centre of a ring's tract reaches, with rounding -/

namespace Skymap
open Real

/-- Less than 54 degrees. -/
theorem tan_53 : 1.375 < tan (2999 * π / 10000) := by
  have hpi := pi_pos
  have h54 := tan_54
  have p4 := pi_lt_d2
  have e2 : cos (3 * π / 10) = sin (π / 5) := by rw [← cos_pi_div_two_sub]; ring_nf
  have s0 : 0 < sin (π / 5) := sin_pos_of_pos_of_lt_pi (by positivity) (by linarith)
  have c1 : 0.58 < sin (π / 5) := by
    have sq := sin_sq_add_cos_sq (π / 5)
    rw [cos_pi_div_five] at sq
    have h7 : √5 < 2.2361 := by rw [sqrt_lt' (by norm_num)]; norm_num
    have h8 := sqrt_nonneg 5
    nlinarith
  have c2 : cos (3 * π / 10) ≤ cos (2999 * π / 10000) := cos_le_cos_of_nonneg_of_le_pi (by positivity) (by linarith) (by linarith)
  rw [e2] at c2
  have c3 : 0 < cos (2999 * π / 10000) := by linarith
  rw [tan_eq_sin_div_cos, lt_div_iff₀ c3]
  rw [tan_eq_sin_div_cos, e2, lt_div_iff₀ s0] at h54
  have e : 3 * π / 10 = 2999 * π / 10000 + π / 10000 := by ring
  -- sin (a + d) cos a - cos (a + d) sin a = sin d
  have k : sin (3 * π / 10) * cos (2999 * π / 10000) - cos (3 * π / 10) * sin (2999 * π / 10000) = sin (π / 10000) := by
    rw [← sin_sub]; congr 1; ring
  have d1 := sin_le (x := π / 10000) (by positivity)
  rw [e2] at k
  have b1 : 1.376 * sin (π / 5) * cos (2999 * π / 10000) ≤ sin (3 * π / 10) * cos (2999 * π / 10000) := by gcongr
  have b2 : 0.58 * (0.001 * cos (2999 * π / 10000)) ≤ sin (π / 5) * (0.001 * cos (2999 * π / 10000)) := by gcongr
  have b3 : 1.375 * cos (2999 * π / 10000) * sin (π / 5) < sin (2999 * π / 10000) * sin (π / 5) := by nlinarith
  exact lt_of_mul_lt_mul_right b3 s0.le

/-- Comparing the difference in longitude with one and a half times the spacing of the tracts, 0.578 s being half the size of a tract, with
some room for rounding. -/
theorem reach_spacing_slack {s γ x n : ℝ} (s0 : 0 < s) (s1 : s ≤ π / 3) (g2 : γ ≤ π / 2) (n0 : 0 < n)
    (hn : s * n ≤ 2 * π * sin (γ + s / 2) + 1001 / 1000 * s)
    (hg : 9999 / 10000 * s ≤ γ ∧ n ≤ 10 ∨ 1999 / 1000 * s ≤ γ) (hx : |x| ≤ π) (cx : 0 < cos x)
    (hk : |sin x| * sin (γ - 578 / 1000 * s) ≤ sin (578 / 1000 * s) * cos x) : |x| < 2999 / 1000 * π / n := by
  have hpi := pi_pos
  have hpi4 := pi_lt_d2
  have hpi3 := pi_gt_d2
  have x2 : |x| < π / 2 := by
    by_contra hc
    rw [← cos_abs] at cx
    have := cos_nonpos_of_pi_div_two_le_of_le (not_lt.mp hc) (by linarith)
    linarith
  have hs : |sin x| = sin |x| := by
    rcases le_total 0 x with h | h
    · rw [abs_of_nonneg h] at x2 ⊢
      rw [abs_of_nonneg (sin_nonneg_of_nonneg_of_le_pi h (by linarith))]
    · rw [abs_of_nonpos h] at x2 ⊢
      rw [sin_neg, abs_of_nonpos (sin_nonpos_of_nonpos_of_neg_pi_le h (by linarith))]
  rw [hs, ← cos_abs x] at hk
  rw [← cos_abs x] at cx
  by_contra hcon
  rw [not_lt] at hcon
  have w0 : 0 < 2999 / 1000 * π / n := by positivity
  have ht : tan (2999 / 1000 * π / n) ≤ tan |x| := by
    rcases hcon.eq_or_lt with h | h
    · rw [h]
    · exact (tan_lt_tan_of_lt_of_lt_pi_div_two (by linarith) x2 h).le
  have hkt : tan |x| * sin (γ - 578 / 1000 * s) ≤ sin (578 / 1000 * s) := by
    rw [tan_eq_sin_div_cos, div_mul_eq_mul_div, div_le_iff₀ cx]; exact hk
  have hpos : 0 < sin (578 / 1000 * s) := sin_pos_of_pos_of_lt_pi (by linarith) (by linarith)
  rcases hg with ⟨hg, hn10⟩ | hg
  · have hw : 2999 * π / 10000 ≤ 2999 / 1000 * π / n := by
      rw [show 2999 * π / 10000 = 2999 / 1000 * π / 10 by ring]; gcongr
    have h54 := tan_53
    have ht' : tan (2999 * π / 10000) ≤ tan (2999 / 1000 * π / n) := by
      rcases hw.eq_or_lt with h | h
      · rw [h]
      · exact (tan_lt_tan_of_lt_of_lt_pi_div_two (by linarith) (by linarith) h).le
    have hsc := sin_scale (l := 4219 / 5780) (x := 578 / 1000 * s) (by norm_num) (by norm_num) (by linarith) (by linarith)
    have hmono : sin (4219 / 5780 * (578 / 1000 * s)) ≤ sin (γ - 578 / 1000 * s) :=
      sin_le_sin_of_le_of_le_pi_div_two (by linarith) (by linarith) (by linarith)
    have : 0 < sin (γ - 578 / 1000 * s) := by linarith
    nlinarith
  · have hm := mul_le_sin (x := γ - 578 / 1000 * s) (by linarith) (by linarith)
    have hsy : 9 / 10 * s ≤ sin (γ - 578 / 1000 * s) := by
      refine le_trans ?_ hm
      rw [div_mul_eq_mul_div (2 : ℝ) π, le_div_iff₀ hpi]
      nlinarith
    have hlip : sin (γ + s / 2) ≤ sin (γ - 578 / 1000 * s) + 1078 / 1000 * s := by
      have e : γ + s / 2 = (γ - 578 / 1000 * s) + 1078 / 1000 * s := by ring
      rw [e, sin_add]
      have a1 := sin_le (x := 1078 / 1000 * s) (by linarith)
      have a2 : 0 ≤ sin (1078 / 1000 * s) := sin_nonneg_of_nonneg_of_le_pi (by linarith) (by linarith)
      have a3 := cos_le_one (γ - 578 / 1000 * s)
      have a4 := cos_le_one (1078 / 1000 * s)
      have a5 : 0 ≤ sin (γ - 578 / 1000 * s) := by linarith
      nlinarith
    have htw : 2999 / 1000 * π / n ≤ tan (2999 / 1000 * π / n) := le_tan w0.le (by linarith)
    have hS : sin (578 / 1000 * s) ≤ 578 / 1000 * s := sin_le (by linarith)
    have hfin : 2999 / 1000 * π / n * sin (γ - 578 / 1000 * s) ≤ 578 / 1000 * s := by
      have : 0 ≤ sin (γ - 578 / 1000 * s) := by linarith
      calc _ ≤ tan |x| * sin (γ - 578 / 1000 * s) := by gcongr; linarith
        _ ≤ _ := hkt.trans hS
    rw [div_mul_eq_mul_div, div_le_iff₀ n0] at hfin
    set y := sin (γ - 578 / 1000 * s)
    have b1 : 2 * π * sin (γ + s / 2) ≤ 2 * π * (y + 1078 / 1000 * s) := by gcongr
    have b2 : 2 * π * (y + 1078 / 1000 * s) ≤ 2 * π * (y + 1078 / 1000 * (10 / 9 * y)) := by gcongr; linarith
    have b3 : 0 < y := by linarith
    have b4 : π * y ≥ 3.14 * y := by gcongr
    nlinarith

namespace Rings
variable {A : FloatArith ℝ} {c : RingsConfig ℝ} {v : Int} {R : Rings ℝ}

theorem size_le {S r N : ℝ} (r0 : 0 < r) (N0 : 0 < N) (S1 : S * N = π) (m : -(1 / 2 ^ 49) ≤ r * N - π) :
    S ≤ r * (1 + 1 / 2 ^ 49) := by
  have p3 := pi_gt_three
  have m1 : S * N * (1 - 1 / 2 ^ 50) ≤ r * N := by rw [S1]; norm_num at m ⊢; linarith
  have m2 : S * (1 - 1 / 2 ^ 50) ≤ r := by
    refine le_of_mul_le_mul_right ?_ N0
    linarith
  norm_num at m2 ⊢
  linarith

/-- The distance of the centres of a ring from the nearer pole. -/
theorem pole_dist {S lat γ : ℝ} {k N : Nat} (S0 : 0 < S) (S1 : S * (N + 1) = π) (hl : |lat - (S * (k + 1) - π / 2)| ≤ 1 / 2 ^ 48)
    (hk : k < N) (hγ : γ = π / 2 - |lat|) : γ ≤ S + 1 / 2 ^ 48 ∧ S - 1 / 2 ^ 48 ≤ γ ∨ 2 * S - 1 / 2 ^ 48 ≤ γ := by
  have hl' := abs_le.mp hl
  have hk0 : (0 : ℝ) ≤ k := by positivity
  have hkN' : (k : ℝ) + 1 ≤ N := by exact_mod_cast hk
  have a1 : S * 1 ≤ S * (k + 1) := by gcongr; linarith
  have a2 : S * (k + 1) ≤ S * N := by gcongr
  have a3 : S * N = π - S := by linarith
  have u1 := le_abs_self lat
  have u2 := neg_le_abs lat
  have low : ∀ z : ℝ, z ≤ S * (k + 1) → z ≤ π - S * (k + 1) → z - 1 / 2 ^ 48 ≤ γ := by
    intro z z1 z2
    rw [hγ]
    have : |lat| ≤ π / 2 - (z - 1 / 2 ^ 48) := by rw [abs_le]; constructor <;> linarith
    linarith
  by_cases hk1 : k = 0
  · left
    refine ⟨?_, low S (by linarith) (by linarith)⟩
    rw [hk1] at hl'
    push_cast at hl'
    linarith
  · by_cases hk2 : k + 1 = N
    · left
      refine ⟨?_, low S (by linarith) (by linarith)⟩
      have : (k : ℝ) + 1 = N := by exact_mod_cast hk2
      rw [this, a3] at hl'
      linarith
    · right
      have k1 : (1 : ℝ) ≤ k := by exact_mod_cast (by omega : 1 ≤ k)
      have k2 : (k : ℝ) + 2 ≤ N := by exact_mod_cast (by omega : k + 2 ≤ N)
      have b1 : S * 2 ≤ S * (k + 1) := by gcongr; linarith
      have b2 : S * (k + 2) ≤ S * N := by gcongr
      refine low (2 * S) (by linarith) (by linarith)

/-- The declination that is used for the number of tracts is that of the edge of the ring that is nearer to the equator. -/
theorem count_dec {S lat γ d start stop : ℝ} (S0 : 0 < S) (S3 : S ≤ π / 3) (lt2 : |lat| ≤ π / 2) (hγ : γ = π / 2 - |lat|)
    (hd : d = min |start| |stop|) (st : |start - (lat - S / 2)| ≤ 1 / 2 ^ 46) (sp : |stop - (lat + S / 2)| ≤ 1 / 2 ^ 46) :
    cos d ≤ sin (γ + S / 2) + 1 / 2 ^ 45 := by
  have e : sin (γ + S / 2) = cos (|lat| - S / 2) := by
    rw [hγ, ← cos_pi_div_two_sub]; congr 1; ring
  have p3 := pi_gt_three
  have d0 : 0 ≤ d := by rw [hd]; positivity
  rw [e, ← cos_abs (|lat| - S / 2)]
  refine cos_close (abs_nonneg _) ?_ ?_
  · have d1 : d ≤ |start| := by rw [hd]; exact min_le_left _ _
    have lt' := abs_le.mp lt2
    have st' := abs_le.mp st
    have d2 : |start| ≤ π := by rw [abs_le]; norm_num at st' ⊢; constructor <;> linarith
    rw [abs_of_nonneg d0]; linarith
  · have key : ∀ z : ℝ, |z - (lat - S / 2)| ≤ 1 / 2 ^ 46 ∨ |z - (lat + S / 2)| ≤ 1 / 2 ^ 46 → abs (|lat| - S / 2) - 1 / 2 ^ 45 ≤ |z| := by
      intro z hz
      rw [sub_le_iff_le_add, abs_le]
      have v1 := le_abs_self z
      have v2 := neg_le_abs z
      rcases abs_cases lat with ⟨w1, w2⟩ | ⟨w1, w2⟩ <;> rw [w1] <;> rcases hz with hz | hz <;> have hz' := abs_le.mp hz <;>
        norm_num at hz' ⊢ <;> constructor <;> linarith
    rw [abs_of_nonneg d0, hd, le_min_iff]
    exact ⟨key start (.inl st), key stop (.inr sp)⟩

/-- The distance of the rounded centres of a ring from the nearer pole, and the rounded number of tracts. -/
theorem ring_pole_rounding (hA : A.Ieee) (h : Rings.new A c v = .ok R) (h1 : 2 ≤ c.numRings) (h2 : c.numRings ≤ 2 ^ 31)
    {k : Nat} {n : Int} (hk : R.ringNums[k]? = some n) {lat S : ℝ} (hS : S = π / (c.numRings + 1))
    (hl : |lat - (S * (k + 1) - π / 2)| ≤ 1 / 2 ^ 48) :
    |lat| ≤ π / 2 ∧ ∃ γ, γ ≤ π / 2 ∧ cos lat = sin γ ∧ |sin lat| = cos γ ∧
      S * n ≤ 2 * π * sin (γ + S / 2) + 1001 / 1000 * S ∧ (9999 / 10000 * S ≤ γ ∧ (n : ℝ) ≤ 10 ∨ 1999 / 1000 * S ≤ γ) := by
  have hpi := pi_pos
  have p4 := pi_lt_d2
  obtain ⟨wf, w33⟩ := new_wf_rounding hA h (by omega) h2
  obtain ⟨sn, b2, b4, s5⟩ := size_near hA h (by omega) h2
  obtain ⟨e1, -⟩ := new_attr h
  have hkN := wf.lt_numRings hk
  rw [e1] at hkN
  have hpos := wf.pos n (List.mem_of_getElem? hk)
  have hn1 : (1 : ℝ) ≤ n := by exact_mod_cast (by omega : 1 ≤ n)
  have hn2 : (n : ℝ) ≤ 2 ^ 33 := by exact_mod_cast w33 n (List.mem_of_getElem? hk)
  obtain ⟨q, d, start, stop, en, ⟨-, hq⟩, hd, st, sp⟩ := count_near hA h (by omega) h2 hk
  rw [← hS] at s5 st sp
  have hkN' : (k : ℝ) + 1 ≤ c.numRings := by exact_mod_cast hkN
  have hk0 : (0 : ℝ) ≤ k := by positivity
  have S1 : S * (c.numRings + 1) = π := by rw [hS]; field_simp
  have hN' : (2 : ℝ) ≤ c.numRings := by exact_mod_cast h1
  have S0 : 0 < S := by rw [hS]; positivity
  have a1 : S * 1 ≤ S * (k + 1) := by gcongr; linarith
  have a2 : S * (k + 1) ≤ S * c.numRings := by gcongr
  have a3 : S * c.numRings = π - S := by linarith
  have hl' := abs_le.mp hl
  have s1 := abs_le.mp (sn 1 (by positivity) (by linarith))
  rw [← hS] at s1
  have st' := abs_le.mp st
  have sp' := abs_le.mp sp
  have lt2 : |lat| ≤ π / 2 := by
    rw [abs_le]; norm_num at hl' s5 ⊢; constructor <;> linarith
  -- the declination that is used for the count
  set γ := π / 2 - |lat| with hγ
  have la := abs_nonneg lat
  have g0 := pole_dist S0 S1 hl hkN hγ
  have γ0 : 0 ≤ γ := by linarith
  have S3 : S ≤ π / 3 := by
    have := mul_le_mul_of_nonneg_left (by linarith : (3 : ℝ) ≤ c.numRings + 1) S0.le
    linarith
  have hcd := count_dec S0 S3 lt2 hγ hd (start := start) (stop := stop) (by rw [abs_le]; norm_num at st' hl' ⊢; constructor <;> linarith)
    (by rw [abs_le]; norm_num at sp' hl' ⊢; constructor <;> linarith)
  -- the number of tracts
  have sg0 : 0 ≤ sin (γ + S / 2) := sin_nonneg_of_nonneg_of_le_pi (by linarith) (by linarith)
  have sg1 := sin_le_one (γ + S / 2)
  have hnr : n * R.ringSize ≤ 2 * π * sin (γ + S / 2) + R.ringSize + 1 / 2 ^ 42 := by
    by_cases q0 : 0 ≤ q
    · have : (n : ℝ) ≤ q + 1 := by
        rw [en, pyTrunc_nonneg q0]; push_cast; linarith [Int.floor_le q]
      have := mul_le_mul_of_nonneg_right this b2.le
      have : 2 * π * cos d ≤ 2 * π * (sin (γ + S / 2) + 1 / 2 ^ 45) := by gcongr
      norm_num at this hq ⊢
      linarith
    · have : n = 1 := by
        rw [en] at hpos ⊢
        unfold pyTrunc at hpos ⊢
        rw [if_neg q0] at hpos ⊢
        have : ⌈q⌉ ≤ 0 := Int.ceil_le.2 (by push_cast; linarith [not_le.mp q0])
        omega
      rw [this]
      have : 0 ≤ 2 * π * sin (γ + S / 2) := by positivity
      push_cast; norm_num; linarith
  have hSr : S ≤ R.ringSize * (1 + 1 / 2 ^ 49) := by
    have m := (abs_le.mp (sn (c.numRings + 1) (by positivity) le_rfl)).1
    rw [← hS, S1] at m
    exact size_le b2 (by positivity) S1 m
  have hSn : S * n ≤ 2 * π * sin (γ + S / 2) + 1001 / 1000 * S := by
    have m1 := mul_le_mul_of_nonneg_right hSr (by linarith : (0 : ℝ) ≤ n)
    have m2 : 2 * π * sin (γ + S / 2) ≤ 2 * π * 1 := by gcongr
    norm_num at m1 hnr s1 s5 b4 ⊢
    linarith
  refine ⟨lt2, γ, by linarith, by rw [hγ, sin_pi_div_two_sub, cos_abs], ?_, hSn, ?_⟩
  · rw [hγ, cos_pi_div_two_sub]
    exact abs_sin_eq_sin_abs_of_abs_le_pi (by linarith)
  · rcases g0 with ⟨g1, g2⟩ | g1
    · left
      refine ⟨by norm_num at g2 s5 ⊢; linarith, ?_⟩
      have m1 := sin_le (x := γ + S / 2) (by linarith)
      have m2 : 2 * π * sin (γ + S / 2) ≤ 2 * π * (γ + S / 2) := by gcongr
      have m3 : 2 * π * (γ + S / 2) ≤ 2 * π * (3 / 2 * S + 1 / 2 ^ 48) := mul_le_mul_of_nonneg_left (by linarith) (by positivity)
      have m4 : S * n < S * 11 := by
        have : 2 * π * (3 / 2 * S + 1 / 2 ^ 48) ≤ 6.3 * (3 / 2 * S + 1 / 2 ^ 48) := by gcongr; norm_num at p4 ⊢; linarith
        norm_num at this m3 s5 ⊢
        linarith
      have : (n : ℝ) < 11 := lt_of_mul_lt_mul_left m4 S0.le
      have : n < 11 := by exact_mod_cast this
      exact_mod_cast (by omega : n ≤ 10)
    · right
      norm_num at g1 s5 ⊢; linarith

end Rings
end Skymap

namespace Skymap
namespace Rings
open Real
variable {A : FloatArith ℝ} {c : RingsConfig ℝ} {v : Int} {R : Rings ℝ}

theorem twoPi_near (hA : A.Ieee) : |A.twoPi - 2 * π| ≤ 1 / 2 ^ 49 := by
  have hpi := abs_le.mp hA.pi_err
  obtain ⟨q1, q2⟩ := hA.pi_range
  have := hA.near (x := 2 * A.pi) (M := 6.4) (by rw [abs_of_nonneg (by linarith)]; linarith)
  have e : A.twoPi = A.rnd (2 * A.pi) := rfl
  rw [← e] at this
  rw [abs_le]; norm_num at this hpi ⊢; constructor <;> linarith

/-- The right ascension of the centre of a tract, up to rounding and full circles. -/
theorem center_lon_near (hA : A.Ieee) (hr : |R.raStart| ≤ 6.4) {n t : Int} (hn : 0 < n) (t0 : 0 ≤ t) (t1 : t ≤ n) :
    ∃ m : ℤ, |A.wrap (A.add (A.div (A.mul (A.mul 2 A.pi) t) n) R.raStart) - (2 * π * t / n + R.raStart - m * (2 * π))| ≤ 1 / 2 ^ 46 := by
  have hn1 : (1 : ℝ) ≤ n := by exact_mod_cast (by omega : 1 ≤ n)
  have etp : A.mul 2 A.pi = A.twoPi := rfl
  have hr' := abs_le.mp hr
  obtain ⟨p1, p2⟩ := hA.twoPi_range
  have ht0 : (0 : ℝ) ≤ t := by exact_mod_cast t0
  have ht1 : (t : ℝ) ≤ n := by exact_mod_cast t1
  have hx0 : 0 ≤ A.twoPi * t / n := div_nonneg (mul_nonneg (by linarith) ht0) (by linarith)
  have hx1 : A.twoPi * t / n ≤ A.twoPi := by
    rw [div_le_iff₀ (by linarith)]; gcongr
  have e1 := hA.err' (A.twoPi * t)
  rw [abs_of_nonneg (a := A.twoPi * t) (mul_nonneg (by linarith) ht0)] at e1
  have e1' : A.mul A.twoPi t = A.rnd (A.twoPi * t) := rfl
  rw [← e1'] at e1
  have e2 : |A.mul A.twoPi t / n - A.twoPi * t / n| ≤ 1 / 2 ^ 50 := by
    rw [← sub_div, abs_div, abs_of_pos (show (0 : ℝ) < n by linarith), div_le_iff₀ (by linarith)]
    refine e1.trans ?_
    calc A.twoPi * t / 2 ^ 53 + 1 / 2 ^ 100 ≤ 6.4 * (n : ℝ) / 2 ^ 53 + 1 / 2 ^ 100 := by gcongr
      _ ≤ 1 / 2 ^ 50 * (n : ℝ) := by norm_num; linarith
  have e2' := abs_le.mp e2
  have e3 := hA.near (x := A.mul A.twoPi t / n) (M := 6.5) (by
    rw [abs_le]; norm_num at e2' p2 ⊢; constructor <;> linarith)
  have e3' : A.div (A.mul A.twoPi t) n = A.rnd (A.mul A.twoPi t / n) := rfl
  rw [← e3'] at e3
  rw [etp]
  generalize A.div (A.mul A.twoPi t) n = y at e3 ⊢
  have e4 := hA.near (x := y + R.raStart) (M := 13) (by
    rw [abs_le]; norm_num at e2' e3 hr' p2 ⊢; constructor <;> linarith)
  have e4' : A.add y R.raStart = A.rnd (y + R.raStart) := rfl
  rw [← e4'] at e4
  generalize A.add y R.raStart = u at e4 ⊢
  obtain ⟨k1, hk1⟩ := hA.wrap_near u
  obtain ⟨r1, r2⟩ := hA.wrap_range u
  generalize A.wrap u = ra at hk1 r1 r2 ⊢
  have hk1' := abs_le.mp hk1
  have K0 : |(k1 : ℝ)| ≤ 4 := by
    rw [abs_le]
    constructor
    · by_contra hc
      have hm : A.twoPi * k1 ≤ A.twoPi * (-4) := by gcongr; linarith
      norm_num at hk1' hm p1 e4 e3 e2' hr'
      linarith
    · by_contra hc
      have hm : A.twoPi * 4 ≤ A.twoPi * k1 := by gcongr; linarith
      norm_num at hk1' hm p1 e4 e3 e2' hr'
      linarith
  have hT := twoPi_near hA
  have hKT : |(k1 : ℝ) * (A.twoPi - 2 * π)| ≤ 4 * (1 / 2 ^ 49) := by
    rw [abs_mul]; exact mul_le_mul K0 hT (abs_nonneg _) (by norm_num)
  have hKT' := abs_le.mp hKT
  have hTn : |A.twoPi * t / n - 2 * π * t / n| ≤ 1 / 2 ^ 49 := by
    have e : A.twoPi * t / n - 2 * π * t / n = (A.twoPi - 2 * π) * (t / n) := by ring
    rw [e, abs_mul]
    have : |(t : ℝ) / n| ≤ 1 := by
      rw [abs_of_nonneg (by positivity), div_le_one (by linarith)]; exact ht1
    calc _ ≤ 1 / 2 ^ 49 * (1 : ℝ) := by gcongr
      _ = _ := by ring
  have hTn' := abs_le.mp hTn
  refine ⟨k1, ?_⟩
  rw [abs_le]
  norm_num at hk1' e4 e3 e2' hKT' hTn' ⊢
  constructor <;> linarith

/-- A position in the square of half size tan (0.578 s) around the centre of a tract of a ring: the tract is adjacent, with rounding. -/
theorem near_of_square_rounding (hA : A.Ieee) (hh : A.HalfPi) (h : Rings.new A c 1 = .ok R) (hN : 2 ≤ c.numRings) (h2 : c.numRings ≤ 2 ^ 31)
    (hr : |c.raStart| ≤ 360) {S : ℝ} (hS : S = π / (c.numRings + 1)) {p ctr : SpherePoint ℝ} (hlon : 0 ≤ p.lon ∧ p.lon < A.twoPi)
    (hlat : |p.lat| ≤ π / 2) {i : Int} (hi : 0 ≤ i ∧ i < R.numTracts) (hctr : R.center A i = .ok ctr) (hZ : 0 < cosSep ctr p)
    (hE : |eastOf ctr p| ≤ tan (578 / 1000 * S) * cosSep ctr p)
    (hNo : |northOf ctr p| ≤ tan (578 / 1000 * S) * cosSep ctr p) : R.Near A p i := by
  have hpi := pi_pos
  have h1 : 1 ≤ c.numRings := by omega
  obtain ⟨wf, w33⟩ := new_wf_rounding hA h h1 h2
  obtain ⟨e1, hv, -⟩ := new_attr h
  have hN' : (2 : ℝ) ≤ c.numRings := by exact_mod_cast hN
  have S1 : S * (c.numRings + 1) = π := by rw [hS]; field_simp
  have s0 : 0 < S := by rw [hS]; positivity
  have s3 : S ≤ π / 3 := by
    have := mul_le_mul_of_nonneg_left (by linarith : (3 : ℝ) ≤ c.numRings + 1) s0.le
    linarith
  rcases wf.index_cases hi with rfl | rfl | ⟨k, n, u, hk, h3, h4, rfl⟩
  · exact .inl rfl
  · exact .inr (.inl rfl)
  right; right
  have hidx := wf.getRingIndices_ring hv hk h3 h4
  rw [center_ring_rounding hA hh h h1 h2 hk h3 h4] at hctr
  cases hctr
  have hkN := wf.lt_numRings hk
  rw [e1] at hkN
  have cd := center_dec_near hA hh h h1 h2 hkN
  rw [← hS] at cd
  obtain ⟨hcl, γ, g1, g2, g3, g4, g5⟩ := ring_pole_rounding hA h hN h2 hk hS cd
  have hn : (0 : ℝ) < n := by exact_mod_cast (by omega : 0 < n)
  have n33 := w33 n (List.mem_of_getElem? hk)
  have hn2 : (n : ℝ) ≤ 2 ^ 33 := by exact_mod_cast n33
  obtain ⟨-, -, -, s5⟩ := size_near hA h h1 h2
  rw [← hS] at s5
  have hr' := raStart_bound hA h hr
  obtain ⟨mu, hu⟩ := center_lon_near hA hr' (n := n) (t := u) (by omega) h3 h4.le
  generalize A.sub (A.mul R.ringSize ((k : ℝ) + 1)) (A.mul (1 / 2) A.pi) = clat at *
  generalize A.wrap (A.add (A.div (A.mul (A.mul 2 A.pi) u) n) R.raStart) = clon at *
  have ht0 : 0 ≤ tan (578 / 1000 * S) := tan_nonneg_of_nonneg_of_le_pi_div_two (by linarith) (by linarith)
  have lat := reach_lat (s := 578 / 579 * S) (by linarith) (by linarith) ht0 (by rw [show 579 / 1000 * (578 / 579 * S) = 578 / 1000 * S by ring]) hcl hlat hZ hE hNo
  -- the difference in longitude
  obtain ⟨x, m, hx, hxπ⟩ := half_turn (p.lon - clon)
  obtain ⟨cx, hlon'⟩ := reach_lon (ctr := ⟨clon, clat⟩) (h := 578 / 1000 * S) (γ := γ) (x := x) (by linarith)
    (by rcases g5 with ⟨g5, -⟩ | g5 <;> linarith) g1 g2 g3 hlat
    ⟨by dsimp only; rw [hx, cos_add_int_mul_two_pi], by dsimp only; rw [hx, sin_add_int_mul_two_pi]⟩ hZ hE hNo
  have hxn := reach_spacing_slack s0 s3 g1 hn g4 g5 hxπ cx hlon'
  obtain ⟨-, tot, -⟩ := C34_total hA h h1 h2 p
  obtain ⟨t, ht, t0, t1⟩ := tot k n hk
  refine ⟨k, n, t, u, hidx, hk, ?_, ht, ?_⟩
  · dsimp only at lat
    obtain ⟨dn1, dn2, dn3⟩ := lat_near hA hh h h1 h2 (lat := p.lat)
    rw [← hS] at dn1 dn2 dn3
    obtain ⟨dr1, dr2⟩ := dec_range hA h h1 h2 p.lat
    have lat' := abs_lt.1 lat
    have cd' := abs_le.1 cd
    have hk2 : (k : ℝ) + 1 ≤ c.numRings := by exact_mod_cast hkN
    generalize R.decToRingNum A p.lat = D at *
    have k0 : (0 : ℝ) ≤ k := by positivity
    rcases (by
      rcases (by omega : D = -1 ∨ D = c.numRings ∨ 0 ≤ D ∧ D < c.numRings) with h | h | h
      · exact .inl h
      · exact .inr (.inl h)
      · exact .inr (.inr ⟨D.toNat, by omega, by omega⟩) : D = -1 ∨ D = c.numRings ∨ ∃ k' : Nat, k' < c.numRings ∧ D = k') with hD | hD | ⟨k', hk', hD⟩
    · have q := dn1 hD
      have : (k : ℝ) < 1 := by
        by_contra hc
        have : S * 2 ≤ S * (k + 1) := by gcongr; linarith
        norm_num at q lat' cd' s5
        linarith
      have : k < 1 := by exact_mod_cast this
      rw [abs_le]; omega
    · have q := dn2 hD
      have : (c.numRings : ℝ) < k + 2 := by
        by_contra hc
        have : S * (k + 2) ≤ S * c.numRings := by gcongr; linarith
        norm_num at q lat' cd' s5
        linarith
      have : c.numRings < k + 2 := by exact_mod_cast this
      rw [abs_le]; omega
    · have q := abs_le.1 (dn3 k' hk' hD)
      have a1 : (k : ℝ) < k' + 2 := by
        by_contra hc
        have : S * (k' + 2) ≤ S * k := by gcongr; linarith
        norm_num at q lat' cd' s5
        linarith
      have a2 : (k' : ℝ) < k + 2 := by
        by_contra hc
        have : S * (k + 2) ≤ S * k' := by gcongr; linarith
        norm_num at q lat' cd' s5
        linarith
      have a1 : k < k' + 2 := by exact_mod_cast a1
      have a2 : k' < k + 2 := by exact_mod_cast a2
      rw [abs_le]; omega
  · obtain ⟨x', x1, x2, x3⟩ := ra_near hA wf hk n33 hr' hlon.1 (by linarith [hlon.2, hA.twoPi_range.2]) ht
    obtain ⟨mt, htt⟩ := center_lon_near hA hr' (n := n) (t := t) (by omega) t0 t1.le
    generalize A.wrap (A.add (A.div (A.mul (A.mul 2 A.pi) t) n) R.raStart) = tlon at *
    obtain ⟨m', hm'⟩ := Real.Angle.angle_eq_iff_two_pi_dvd_sub.1 (Real.Angle.cos_sin_inj x1 x2)
    -- the difference of the two centres
    obtain ⟨j, hj⟩ : ∃ j : ℤ, t - u = j + (m - m' + mt - mu) * n ∧ |(j : ℝ)| < 2 := by
      refine ⟨t - u - (m - m' + mt - mu) * n, by ring, ?_⟩
      have hu' := abs_le.1 hu
      have htt' := abs_le.1 htt
      have hxn' := abs_lt.1 hxn
      have x3' := abs_le.1 x3
      have key : |(2 * π) * ((t : ℝ) / n - u / n - (m - m' + mt - mu))| < (2 * π) * (2 / n) := by
        have hd : 1 / 2 ^ 43 ≤ 1 / 1000 * π / n := by
          rw [le_div_iff₀ hn]
          have := pi_gt_three
          have : 1 / 2 ^ 43 * (n : ℝ) ≤ 1 / 2 ^ 43 * 2 ^ 33 := by gcongr
          norm_num at this ⊢
          linarith
        have q1 : 2999 / 1000 * π / n = 2999 / 1000 * (π / n) := by ring
        have q2 : 1 / 1000 * π / n = 1 / 1000 * (π / n) := by ring
        have q3 : 2 * π * (2 / n) = 4 * (π / n) := by ring
        have q4 : 2 * π * t / n = 2 * π * (t / n) := by ring
        have q5 : 2 * π * u / n = 2 * π * (u / n) := by ring
        rw [q1] at hxn'
        rw [q2] at hd
        rw [q4] at htt'
        rw [q5] at hu'
        rw [q3, abs_lt]
        norm_num at hd hu' htt' hxn' x3' ⊢
        constructor <;> linarith
      rw [abs_mul, abs_of_pos (by positivity : 0 < 2 * π)] at key
      have key := lt_of_mul_lt_mul_left key (by positivity)
      have e : (((t - u - (m - m' + mt - mu) * n : ℤ)) : ℝ) = ((t : ℝ) / n - u / n - (m - m' + mt - mu)) * n := by
        push_cast; field_simp
      rw [e, abs_mul, abs_of_pos hn]
      rwa [lt_div_iff₀ hn] at key
    obtain ⟨hj, hj2⟩ := hj
    have hj2 := abs_lt.1 hj2
    have z1 : -2 < j := by exact_mod_cast hj2.1
    have z2 : j < 2 := by exact_mod_cast hj2.2
    have hu' : u % n = u := Int.emod_eq_of_lt h3 h4
    have ht' : t % n = t := Int.emod_eq_of_lt t0 t1
    generalize m - m' + mt - mu = M at hj
    have hu2 : u = (t - j) % n := by
      have : u = t - j + (-M) * n := by linarith
      rw [← hu', this, Int.add_mul_emod_self_right]
    rcases (by omega : j = -1 ∨ j = 0 ∨ j = 1) with rfl | rfl | rfl
    · right; left; exact hu2
    · left; rw [hu2]; simpa using ht'
    · right; right; exact hu2

end Rings
end Skymap
