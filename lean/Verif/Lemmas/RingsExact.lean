import Verif.Lemmas.Rings
import Mathlib.Analysis.SpecialFunctions.Trigonometric.Bounds
import Mathlib.Tactic.FieldSimp
import Mathlib.Tactic.Ring
import Mathlib.Tactic.Linarith
import Mathlib.Tactic.Positivity

/-! # The rings sky map in exact arithmetic -/

set_option linter.unusedSectionVars false

namespace Skymap

theorem pyTrunc_nonneg {K : Type} [Ring K] [LinearOrder K] [FloorRing K] {x : K} (h : 0 ≤ x) : pyTrunc x = ⌊x⌋ := by
  unfold pyTrunc; rw [if_pos h]
theorem pyTrunc_neg {K : Type} [Ring K] [LinearOrder K] [FloorRing K] {x : K} (h : ¬ 0 ≤ x) : pyTrunc x = ⌈x⌉ := by
  unfold pyTrunc; rw [if_neg h]

/-- Exact real arithmetic. -/
noncomputable def FloatArith.exact : FloatArith ℝ := ⟨id, Real.pi, Real.cos⟩

namespace FloatArith

@[simp] theorem exact_pi : FloatArith.exact.pi = Real.pi := rfl
@[simp] theorem exact_cos (x : ℝ) : FloatArith.exact.cos x = Real.cos x := rfl
@[simp] theorem exact_add (a b : ℝ) : FloatArith.exact.add a b = a + b := rfl
@[simp] theorem exact_sub (a b : ℝ) : FloatArith.exact.sub a b = a - b := rfl
@[simp] theorem exact_mul (a b : ℝ) : FloatArith.exact.mul a b = a * b := rfl
@[simp] theorem exact_div (a b : ℝ) : FloatArith.exact.div a b = a / b := rfl
@[simp] theorem exact_twoPi : FloatArith.exact.twoPi = 2 * Real.pi := rfl

theorem exact_wrap (x : ℝ) : FloatArith.exact.wrap x = wrapAngle Real.pi x := by
  have hp : (0 : ℝ) < 2 * Real.pi := by have := Real.pi_pos; linarith
  have e : x / (2 * Real.pi) * (2 * Real.pi) = x := by field_simp
  have f1 := Int.floor_le (x / (2 * Real.pi))
  have f2 := Int.lt_floor_add_one (x / (2 * Real.pi))
  have g1 : (⌊x / (2 * Real.pi)⌋ : ℝ) * (2 * Real.pi) ≤ x := by
    calc _ ≤ x / (2 * Real.pi) * (2 * Real.pi) := by gcongr
      _ = x := e
  have g2 : x < (⌊x / (2 * Real.pi)⌋ + 1 : ℝ) * (2 * Real.pi) := by
    calc x = x / (2 * Real.pi) * (2 * Real.pi) := e.symm
      _ < _ := by gcongr
  by_cases h : 0 ≤ x / (2 * Real.pi)
  · have hf : fmod x exact.twoPi = x - ⌊x / (2 * Real.pi)⌋ * (2 * Real.pi) := by
      unfold fmod; rw [exact_twoPi, pyTrunc_nonneg h]
    unfold wrap wrapAngle; dsimp only
    rw [hf, exact_twoPi, exact_add]
    split_ifs <;> linarith
  · have hf : fmod x exact.twoPi = x - ⌈x / (2 * Real.pi)⌉ * (2 * Real.pi) := by
      unfold fmod; rw [exact_twoPi, pyTrunc_neg h]
    unfold wrap wrapAngle; dsimp only
    rw [hf, exact_twoPi, exact_add]
    by_cases hi : (⌈x / (2 * Real.pi)⌉ : ℤ) = ⌊x / (2 * Real.pi)⌋
    · rw [hi]; split_ifs <;> linarith
    · have h1 := Int.ceil_le_floor_add_one (x / (2 * Real.pi))
      have h2 := Int.floor_le_ceil (x / (2 * Real.pi))
      have h3 : (⌈x / (2 * Real.pi)⌉ : ℤ) = ⌊x / (2 * Real.pi)⌋ + 1 := by omega
      rw [h3]; push_cast
      split_ifs <;> linarith

end FloatArith

theorem wrapAngle_range {p : ℝ} (hp : 0 < p) (x : ℝ) : 0 ≤ wrapAngle p x ∧ wrapAngle p x < 2 * p := by
  have h2 : 0 < 2 * p := by linarith
  have e : x / (2 * p) * (2 * p) = x := by field_simp
  have f1 := Int.floor_le (x / (2 * p))
  have f2 := Int.lt_floor_add_one (x / (2 * p))
  have g1 : (⌊x / (2 * p)⌋ : ℝ) * (2 * p) ≤ x / (2 * p) * (2 * p) := by gcongr
  have g2 : x / (2 * p) * (2 * p) < (⌊x / (2 * p)⌋ + 1 : ℝ) * (2 * p) := by gcongr
  simp only [wrapAngle]
  constructor <;> linarith

namespace Rings
open FloatArith (exact)

/-- The number of `_raToTractNum` in closed form: the nearest multiple of the tract width, modulo the number of tracts. -/
theorem ra_closed (d : ℝ) (n : Int) (hn : 0 < n) :
    (let t := pyTrunc (wrapAngle Real.pi d / (2 * Real.pi / n) + 1 / 2); if t = n then 0 else t) =
      ⌊d * n / (2 * Real.pi) + 1 / 2⌋ % n := by
  have hp := Real.pi_pos
  have hn' : (0 : ℝ) < n := by exact_mod_cast hn
  obtain ⟨w0, w1⟩ := wrapAngle_range hp d
  have e : wrapAngle Real.pi d / (2 * Real.pi / n) + 1 / 2 =
      d * n / (2 * Real.pi) + 1 / 2 - ((⌊d / (2 * Real.pi)⌋ * n : Int) : ℝ) := by
    simp only [wrapAngle]; push_cast; field_simp; ring
  have hx0 : 0 ≤ wrapAngle Real.pi d / (2 * Real.pi / n) := by positivity
  have hx1 : wrapAngle Real.pi d / (2 * Real.pi / n) < n := by
    rw [div_lt_iff₀ (by positivity)]
    calc _ < 2 * Real.pi := w1
      _ = _ := by field_simp
  have hf0 : 0 ≤ ⌊wrapAngle Real.pi d / (2 * Real.pi / n) + 1 / 2⌋ := Int.floor_nonneg.mpr (by linarith)
  have hf1 : ⌊wrapAngle Real.pi d / (2 * Real.pi / n) + 1 / 2⌋ < n + 1 := by
    rw [Int.floor_lt]; push_cast; linarith
  have hm : ⌊wrapAngle Real.pi d / (2 * Real.pi / n) + 1 / 2⌋ =
      ⌊d * n / (2 * Real.pi) + 1 / 2⌋ - ⌊d / (2 * Real.pi)⌋ * n := by
    rw [e, Int.floor_sub_intCast]
  have hm' : ⌊d * n / (2 * Real.pi) + 1 / 2⌋ % n = ⌊wrapAngle Real.pi d / (2 * Real.pi / n) + 1 / 2⌋ % n := by
    rw [hm, Int.sub_mul_emod_self_right]
  rw [hm']
  simp only
  rw [pyTrunc_nonneg (by linarith)]
  split
  · next h => rw [h]; simp
  · next h => rw [Int.emod_eq_of_lt hf0 (by omega)]

/-- Being within half a width of multiple `t`, modulo the circle. -/
theorem arc_iff (d : ℝ) (n t : Int) (hn : 0 < n) (ht : 0 ≤ t ∧ t < n) :
    (∃ k : Int, (t - 1 / 2 : ℝ) * (2 * Real.pi) / n ≤ d + k * (2 * Real.pi) ∧
      d + k * (2 * Real.pi) < (t + 1 / 2 : ℝ) * (2 * Real.pi) / n) ↔ t = ⌊d * n / (2 * Real.pi) + 1 / 2⌋ % n := by
  have hp := Real.pi_pos
  have hn' : (0 : ℝ) < n := by exact_mod_cast hn
  have key : ∀ k : Int, ((t - 1 / 2 : ℝ) * (2 * Real.pi) / n ≤ d + k * (2 * Real.pi) ∧
      d + k * (2 * Real.pi) < (t + 1 / 2 : ℝ) * (2 * Real.pi) / n) ↔ ⌊d * n / (2 * Real.pi) + 1 / 2⌋ = t - k * n := by
    intro k
    rw [Int.floor_eq_iff]
    push_cast
    have e1 : d * n / (2 * Real.pi) = (d + k * (2 * Real.pi)) * n / (2 * Real.pi) - k * n := by field_simp; ring
    rw [div_le_iff₀ hn', lt_div_iff₀ hn', e1]
    have q1 : (t - 1 / 2 : ℝ) * (2 * Real.pi) ≤ (d + k * (2 * Real.pi)) * n ↔
        (t - 1 / 2 : ℝ) ≤ (d + k * (2 * Real.pi)) * n / (2 * Real.pi) := (le_div_iff₀ (by positivity)).symm
    have q2 : (d + k * (2 * Real.pi)) * n < (t + 1 / 2 : ℝ) * (2 * Real.pi) ↔
        (d + k * (2 * Real.pi)) * n / (2 * Real.pi) < (t + 1 / 2 : ℝ) := (div_lt_iff₀ (by positivity)).symm
    rw [q1, q2]
    constructor
    · rintro ⟨a, b⟩; constructor <;> linarith
    · rintro ⟨a, b⟩; constructor <;> linarith
  simp only [key]
  constructor
  · rintro ⟨k, hk⟩
    rw [hk, Int.sub_mul_emod_self_right, Int.emod_eq_of_lt ht.1 ht.2]
  · intro h
    refine ⟨-(⌊d * n / (2 * Real.pi) + 1 / 2⌋ / n), ?_⟩
    have := Int.emod_add_mul_ediv ⌊d * n / (2 * Real.pi) + 1 / 2⌋ n
    rw [← h] at this
    linarith

end Rings
end Skymap

namespace Skymap
namespace Rings
open FloatArith (exact)

theorem wrapAngle_eq (p x : ℝ) : ∃ m : Int, wrapAngle p x = x - m * (2 * p) := ⟨_, rfl⟩

/-- The arc between two wrapped angles. -/
theorem inArc_iff (s lo hi x : ℝ) (h1 : lo < hi) (h2 : hi ≤ lo + 2 * Real.pi) (hx : 0 ≤ x ∧ x < 2 * Real.pi) :
    InArc (wrapAngle Real.pi (s + lo)) (wrapAngle Real.pi (s + hi)) x ↔
      ∃ k : Int, lo ≤ x - s + k * (2 * Real.pi) ∧ x - s + k * (2 * Real.pi) < hi := by
  have hp := Real.pi_pos
  obtain ⟨a0, a1⟩ := wrapAngle_range hp (s + lo)
  obtain ⟨b0, b1⟩ := wrapAngle_range hp (s + hi)
  obtain ⟨m, hm⟩ := wrapAngle_eq Real.pi (s + lo)
  obtain ⟨m', hm'⟩ := wrapAngle_eq Real.pi (s + hi)
  generalize wrapAngle Real.pi (s + lo) = a at *
  generalize wrapAngle Real.pi (s + hi) = b at *
  have hb : b = a + (hi - lo) - ((m' - m : Int) : ℝ) * (2 * Real.pi) := by push_cast; rw [hm, hm']; ring
  have d0 : -1 < m' - m := by
    by_contra hc
    have : ((m' - m : Int) : ℝ) ≤ -1 := by exact_mod_cast (by omega : m' - m ≤ -1)
    nlinarith
  have d1 : m' - m < 2 := by
    by_contra hc
    have : (2 : ℝ) ≤ ((m' - m : Int) : ℝ) := by exact_mod_cast (by omega : 2 ≤ m' - m)
    nlinarith
  have hex : (∃ k : Int, lo ≤ x - s + k * (2 * Real.pi) ∧ x - s + k * (2 * Real.pi) < hi) ↔
      ∃ k : Int, a ≤ x + k * (2 * Real.pi) ∧ x + k * (2 * Real.pi) < a + (hi - lo) := by
    constructor
    · rintro ⟨k, h3, h4⟩
      exact ⟨k - m, by push_cast; linarith, by push_cast; linarith⟩
    · rintro ⟨k, h3, h4⟩
      exact ⟨k + m, by push_cast; linarith, by push_cast; linarith⟩
  rw [hex]
  have hk : ∀ k : Int, a ≤ x + k * (2 * Real.pi) → x + k * (2 * Real.pi) < a + (hi - lo) → k = 0 ∨ k = 1 := by
    intro k h3 h4
    have k0 : -1 < k := by
      by_contra hc
      have : (k : ℝ) ≤ -1 := by exact_mod_cast (by omega : k ≤ -1)
      nlinarith
    have k1 : k < 2 := by
      by_contra hc
      have : (2 : ℝ) ≤ k := by exact_mod_cast (by omega : 2 ≤ k)
      nlinarith
    omega
  rcases (by omega : m' - m = 0 ∨ m' - m = 1) with e | e
  · rw [e] at hb
    simp only [Int.cast_zero, zero_mul, sub_zero] at hb
    rw [InArc, if_pos (by linarith)]
    constructor
    · rintro ⟨h3, h4⟩; exact ⟨0, by simpa using h3, by simp; linarith⟩
    · rintro ⟨k, h3, h4⟩
      rcases hk k h3 h4 with rfl | rfl
      · simp at h3 h4; exact ⟨h3, by linarith⟩
      · simp at h4; linarith
  · rw [e] at hb
    simp only [Int.cast_one, one_mul] at hb
    rw [InArc, if_neg (by linarith)]
    constructor
    · rintro (h3 | h3)
      · exact ⟨0, by simpa using h3, by simp; linarith⟩
      · exact ⟨1, by simp; linarith, by simp; linarith⟩
    · rintro ⟨k, h3, h4⟩
      rcases hk k h3 h4 with rfl | rfl
      · left; simpa using h3
      · right; simp at h4; linarith

variable {R : Rings ℝ}

/-- The attributes in exact arithmetic. -/
theorem new_exact {c : RingsConfig ℝ} {v : Int} (h : Rings.new exact c v = .ok R) :
    R.config = c ∧ R.version = v ∧ (v = 0 ∨ v = 1) ∧ R.ringSize = Real.pi / (c.numRings + 1) ∧
    R.ringNums = (List.range c.numRings).map (fun i : Nat => ringCount exact (Real.pi / (c.numRings + 1)) i) ∧
    R.raStart = c.raStart * (Real.pi / 180) := by
  unfold Rings.new at h
  split at h
  · cases h
  · next hv =>
    simp only [Except.ok.injEq] at h
    subst h
    refine ⟨rfl, rfl, by tauto, rfl, rfl, rfl⟩

/-- The limits of a ring that are used for its number of tracts. -/
theorem ring_dec (N i : Nat) (hi : i < N) (s : ℝ) (hs : s = Real.pi / (N + 1)) :
    0 < s ∧ s * (N + 1) = Real.pi ∧ -(Real.pi / 2) + s / 2 ≤ s * (i + 1 / 2) - 1 / 2 * Real.pi ∧
      s * (i + 1 / 2) - 1 / 2 * Real.pi + s ≤ Real.pi / 2 - s / 2 := by
  have hp := Real.pi_pos
  have hN : (0 : ℝ) < N + 1 := by positivity
  have h0 : 0 < s := by rw [hs]; positivity
  have h1 : s * (N + 1) = Real.pi := by rw [hs]; field_simp
  have h2 : (i : ℝ) + 1 ≤ N := by exact_mod_cast hi
  have h3 : s * (i + 1) ≤ s * N := mul_le_mul_of_nonneg_left h2 h0.le
  have h4 : 0 ≤ s * i := by positivity
  refine ⟨h0, h1, by linarith, by linarith⟩

theorem ringCount_eq (N i : Nat) (hi : i < N) (s : ℝ) (hs : s = Real.pi / (N + 1)) :
    ∃ d, d = min |s * (i + 1 / 2) - 1 / 2 * Real.pi| |s * (i + 1 / 2) - 1 / 2 * Real.pi + s| ∧ 0 ≤ d ∧
      d ≤ Real.pi / 2 - s / 2 ∧ ringCount exact s i = ⌊2 * Real.pi * Real.cos d / s⌋ + 1 ∧ 0 ≤ 2 * Real.pi * Real.cos d / s := by
  obtain ⟨h0, h1, h2, h3⟩ := ring_dec N i hi s hs
  have hp := Real.pi_pos
  have hd0 : 0 ≤ min |s * (i + 1 / 2) - 1 / 2 * Real.pi| |s * (i + 1 / 2) - 1 / 2 * Real.pi + s| := by positivity
  have hd1 : min |s * (i + 1 / 2) - 1 / 2 * Real.pi| |s * (i + 1 / 2) - 1 / 2 * Real.pi + s| ≤ Real.pi / 2 - s / 2 := by
    rcases le_total 0 (s * (i + 1 / 2) - 1 / 2 * Real.pi) with h | h
    · exact (min_le_right _ _).trans (by rw [abs_of_nonneg (by linarith)]; exact h3)
    · exact (min_le_left _ _).trans (by rw [abs_of_nonpos h]; linarith)
  have hc : 0 ≤ 2 * Real.pi *
      Real.cos (min |s * (i + 1 / 2) - 1 / 2 * Real.pi| |s * (i + 1 / 2) - 1 / 2 * Real.pi + s|) / s := by
    have := Real.cos_nonneg_of_neg_pi_div_two_le_of_le (by linarith) (hd1.trans (by linarith))
    positivity
  refine ⟨_, rfl, hd0, hd1, ?_, hc⟩
  rw [← pyTrunc_nonneg hc]
  rfl

theorem ringCount_ge (N i : Nat) (hi : i < N) (s : ℝ) (hs : s = Real.pi / (N + 1)) : 3 ≤ ringCount exact s i := by
  obtain ⟨d, -, h0, h1, h2, -⟩ := ringCount_eq N i hi s hs
  obtain ⟨s0, s1, -, -⟩ := ring_dec N i hi s hs
  have hp := Real.pi_pos
  have h4 : s / Real.pi ≤ Real.cos d := by
    have hle : Real.cos (Real.pi / 2 - s / 2) ≤ Real.cos d :=
      Real.cos_le_cos_of_nonneg_of_le_pi h0 (by linarith) h1
    rw [Real.cos_pi_div_two_sub] at hle
    have hs2 : s / 2 ≤ Real.pi / 2 := by
      have : (0 : ℝ) ≤ N := by positivity
      nlinarith
    have := Real.mul_le_sin (by linarith : 0 ≤ s / 2) hs2
    have e : 2 / Real.pi * (s / 2) = s / Real.pi := by field_simp
    linarith
  have h5 : (2 : ℝ) ≤ 2 * Real.pi * Real.cos d / s := by
    rw [le_div_iff₀ s0]
    calc 2 * s = 2 * Real.pi * (s / Real.pi) := by field_simp
      _ ≤ _ := by gcongr
  have : (2 : ℤ) ≤ ⌊2 * Real.pi * Real.cos d / s⌋ := by rw [Int.le_floor]; exact_mod_cast h5
  omega

theorem new_wf {c : RingsConfig ℝ} {v : Int} (h : Rings.new exact c v = .ok R) : R.WF ∧ ∀ n ∈ R.ringNums, 3 ≤ n := by
  obtain ⟨h1, -, -, -, h5, -⟩ := new_exact h
  have h3 : ∀ n ∈ R.ringNums, 3 ≤ n := by
    intro n hn
    rw [h5, List.mem_map] at hn
    obtain ⟨i, hi, rfl⟩ := hn
    exact ringCount_ge c.numRings i (List.mem_range.mp hi) _ rfl
  refine ⟨⟨by rw [h5, h1]; simp, fun n hn => by have := h3 n hn; omega⟩, h3⟩

/-- The ring of a declination. -/
theorem dec_cases {c : RingsConfig ℝ} {v : Int} (h : Rings.new exact c v = .ok R) (lat : ℝ) :
    (R.decToRingNum exact lat = -1 ∧ lat < R.ringSize * (1 / 2) - Real.pi / 2) ∨
    (R.decToRingNum exact lat = c.numRings ∧ R.ringSize * (c.numRings + 1 / 2) - Real.pi / 2 ≤ lat) ∨
    ∃ k : Nat, k < c.numRings ∧ R.decToRingNum exact lat = k ∧ R.ringSize * (k + 1 / 2) - Real.pi / 2 ≤ lat ∧
      lat < R.ringSize * (k + 3 / 2) - Real.pi / 2 := by
  obtain ⟨h1, -, -, h4, -, -⟩ := new_exact h
  have hp := Real.pi_pos
  have hN : (0 : ℝ) < c.numRings + 1 := by positivity
  have s0 : 0 < R.ringSize := by rw [h4]; positivity
  have s1 : R.ringSize * (c.numRings + 1) = Real.pi := by rw [h4]; field_simp
  have hf : R.firstRingStart exact = R.ringSize * (1 / 2) - Real.pi / 2 := by
    simp only [firstRingStart, FloatArith.exact_sub, FloatArith.exact_mul, FloatArith.exact_pi]; ring
  unfold decToRingNum
  rw [hf, h1]
  split
  · next h => exact .inl ⟨rfl, h⟩
  next h5 =>
  split
  · next h => exact .inr (.inl ⟨rfl, by linarith⟩)
  next h6 =>
  simp only [FloatArith.exact_sub, FloatArith.exact_div]
  have hq : 0 ≤ (lat - (R.ringSize * (1 / 2) - Real.pi / 2)) / R.ringSize := div_nonneg (by linarith) s0.le
  rw [pyTrunc_nonneg hq]
  have hz : 0 ≤ ⌊(lat - (R.ringSize * (1 / 2) - Real.pi / 2)) / R.ringSize⌋ := Int.floor_nonneg.mpr hq
  have f1 := Int.floor_le ((lat - (R.ringSize * (1 / 2) - Real.pi / 2)) / R.ringSize)
  have f2 := Int.lt_floor_add_one ((lat - (R.ringSize * (1 / 2) - Real.pi / 2)) / R.ringSize)
  rw [le_div_iff₀ s0] at f1
  rw [div_lt_iff₀ s0] at f2
  generalize ⌊(lat - (R.ringSize * (1 / 2) - Real.pi / 2)) / R.ringSize⌋ = z at *
  obtain ⟨k, rfl⟩ := Int.eq_ofNat_of_zero_le hz
  push_cast at f1 f2
  right
  rcases lt_trichotomy k c.numRings with hk | rfl | hk
  · exact .inr ⟨k, hk, rfl, by linarith, by linarith⟩
  · exact .inl ⟨rfl, by linarith⟩
  · have : (c.numRings : ℝ) + 1 ≤ k := by exact_mod_cast hk
    nlinarith

end Rings
end Skymap
