import Verif.Props.RingsSky
import Mathlib.Analysis.Real.Pi.Bounds
import Mathlib.Tactic.NormNum

/-! # C34: findTract of a rings sky map with rounding -/

set_option linter.unusedSectionVars false

namespace Skymap

/-- What is assumed of IEEE 754 double precision: operations are rounded to nearest (monotone, relative error at most 2^-53, absolute
error at most 2^-1075 where the result is subnormal), `math.pi` and `math.cos` are accurate to 2^-52.  Overflow is not modelled. -/
structure FloatArith.Ieee (A : FloatArith ℝ) : Prop where
  mono : Monotone A.rnd
  zero : A.rnd 0 = 0
  err : ∀ x, |A.rnd x - x| ≤ |x| / 2 ^ 53 + 1 / 2 ^ 1075
  pi_err : |A.pi - Real.pi| ≤ 1 / 2 ^ 52
  cos_err : ∀ x, |A.cos x - Real.cos x| ≤ 1 / 2 ^ 52

namespace FloatArith.Ieee
variable {A : FloatArith ℝ} (hA : A.Ieee)
include hA

theorem nonneg {x : ℝ} (h : 0 ≤ x) : 0 ≤ A.rnd x := by
  have := hA.mono h
  rwa [hA.zero] at this

theorem nonpos {x : ℝ} (h : x ≤ 0) : A.rnd x ≤ 0 := by
  have := hA.mono h
  rwa [hA.zero] at this

theorem err' (x : ℝ) : |A.rnd x - x| ≤ |x| / 2 ^ 53 + 1 / 2 ^ 100 := by
  refine (hA.err x).trans ?_
  have : (1 : ℝ) / 2 ^ 1075 ≤ 1 / 2 ^ 100 :=
    one_div_le_one_div_of_le (by positivity) (pow_le_pow_right₀ (by norm_num) (by norm_num))
  gcongr

/-- The rounding error of a bounded number. -/
theorem bound {x M : ℝ} (h : |x| ≤ M) : |A.rnd x - x| ≤ M / 2 ^ 53 + 1 / 2 ^ 100 :=
  (hA.err' x).trans (by gcongr)

theorem near {x M : ℝ} (h : |x| ≤ M) : x - (M / 2 ^ 53 + 1 / 2 ^ 100) ≤ A.rnd x ∧ A.rnd x ≤ x + (M / 2 ^ 53 + 1 / 2 ^ 100) := by
  have := abs_le.mp (hA.bound h)
  constructor <;> linarith

theorem pi_range : 3.14 < A.pi ∧ A.pi < 3.15 := by
  have h1 := Real.pi_gt_d4
  have h2 := Real.pi_lt_d4
  have h3 := abs_le.mp hA.pi_err
  constructor
  · have := h3.1; norm_num at *; linarith
  · have := h3.2; norm_num at *; linarith

theorem twoPi_range : 6.2 < A.twoPi ∧ A.twoPi < 6.4 := by
  obtain ⟨a, b⟩ := hA.pi_range
  have h := hA.near (x := 2 * A.pi) (M := 6.4) (by rw [abs_of_nonneg (by linarith)]; linarith)
  unfold twoPi mul
  constructor
  · have := h.1; norm_num at *; linarith
  · have := h.2; norm_num at *; linarith

/-- A wrapped angle is in [0, 2 pi). -/
theorem wrap_range (x : ℝ) : 0 ≤ A.wrap x ∧ A.wrap x < A.twoPi := by
  have hp := hA.twoPi_range
  have h0 : 0 < A.twoPi := by linarith [hp.1]
  unfold wrap
  dsimp only
  generalize hw : (if fmod x A.twoPi < 0 then A.add (fmod x A.twoPi) A.twoPi else fmod x A.twoPi) = w
  split
  · exact ⟨le_refl _, h0⟩
  · next h =>
    refine ⟨?_, not_le.mp h⟩
    rw [← hw]
    split
    · apply hA.nonneg
      unfold fmod
      have e : x / A.twoPi * A.twoPi = x := by field_simp
      have h1 : (pyTrunc (x / A.twoPi) : ℝ) ≤ x / A.twoPi + 1 := by
        unfold pyTrunc
        split
        · have := Int.floor_le (x / A.twoPi); linarith
        · exact (Int.ceil_lt_add_one (x / A.twoPi)).le
      have h2 : (pyTrunc (x / A.twoPi) : ℝ) * A.twoPi ≤ (x / A.twoPi + 1) * A.twoPi := by gcongr
      nlinarith
    · next h => exact not_lt.mp h

end FloatArith.Ieee

/-- Exact arithmetic is a special case. -/
theorem FloatArith.exact_ieee : FloatArith.exact.Ieee where
  mono := monotone_id
  zero := rfl
  err x := by
    change |x - x| ≤ _
    rw [sub_self, abs_zero]; positivity
  pi_err := by simp [FloatArith.exact]
  cos_err x := by simp [FloatArith.exact]

namespace Rings
variable {A : FloatArith ℝ} {c : RingsConfig ℝ} {v : Int} {R : Rings ℝ}

theorem new_attr (h : Rings.new A c v = .ok R) :
    R.config = c ∧ R.version = v ∧ (v = 0 ∨ v = 1) ∧ R.ringSize = A.div A.pi (c.numRings + 1) ∧
    R.ringNums = (List.range c.numRings).map (fun i : Nat => ringCount A (A.div A.pi (c.numRings + 1)) i) ∧
    R.raStart = A.deg2rad c.raStart := by
  unfold Rings.new at h
  split at h
  · cases h
  · next hv =>
    simp only [Except.ok.injEq] at h
    subst h
    refine ⟨rfl, rfl, by tauto, rfl, rfl, rfl⟩

/-- The ring size with rounding. -/
theorem size_bounds (hA : A.Ieee) {N : ℝ} (h1 : 1 ≤ N) (h2 : N ≤ 2 ^ 31) :
    |A.div A.pi (N + 1) * (N + 1) - A.pi| ≤ 1 / 2 ^ 50 ∧ 0 < A.div A.pi (N + 1) ∧ 3 / (N + 1) ≤ A.div A.pi (N + 1) ∧
      A.div A.pi (N + 1) ≤ 1.6 := by
  obtain ⟨p1, p2⟩ := hA.pi_range
  have hN : 0 < N + 1 := by linarith
  have hq : 0 < A.pi / (N + 1) := div_pos (by linarith) hN
  have he := hA.err' (A.pi / (N + 1))
  rw [abs_of_pos hq] at he
  have e1 : A.pi / (N + 1) * (N + 1) = A.pi := by field_simp
  have key : |A.div A.pi (N + 1) * (N + 1) - A.pi| ≤ 1 / 2 ^ 50 := by
    have e2 : A.div A.pi (N + 1) * (N + 1) - A.pi = (A.div A.pi (N + 1) - A.pi / (N + 1)) * (N + 1) := by
      rw [sub_mul, e1]
    rw [e2, abs_mul, abs_of_pos hN]
    calc |A.div A.pi (N + 1) - A.pi / (N + 1)| * (N + 1) ≤ (A.pi / (N + 1) / 2 ^ 53 + 1 / 2 ^ 100) * (N + 1) := by
          gcongr; exact he
      _ = A.pi / 2 ^ 53 + (N + 1) / 2 ^ 100 := by field_simp
      _ ≤ 3.15 / 2 ^ 53 + (2 ^ 31 + 1) / 2 ^ 100 := by gcongr
      _ ≤ 1 / 2 ^ 50 := by norm_num
  have k := abs_le.mp key
  have hlow : 3 / (N + 1) ≤ A.div A.pi (N + 1) := by
    rw [div_le_iff₀ hN]; have := k.1; norm_num at this ⊢; linarith
  refine ⟨key, lt_of_lt_of_le (by positivity) hlow, hlow, ?_⟩
  have : A.div A.pi (N + 1) * (N + 1) ≤ 3.2 := by have := k.2; norm_num at this ⊢; linarith
  have hpos : 0 ≤ A.div A.pi (N + 1) := le_trans (by positivity) hlow
  nlinarith

/-- The quotient whose integer part is the number of tracts. -/
theorem count_quot (hA : A.Ieee) {N s d : ℝ} (h1 : 1 ≤ N) (h2 : N ≤ 2 ^ 31) (b2 : 0 < s) (b3 : 3 / (N + 1) ≤ s)
    (e0 : 0 ≤ d) (e1 : d ≤ Real.pi / 2 + 1 / 2 ^ 47) :
    -(1 / 2) ≤ A.div (A.mul A.twoPi (A.cos d)) s ∧ A.div (A.mul A.twoPi (A.cos d)) s ≤ 2.3 * (N + 1) := by
  -- its cosine
  have c1 : -(1 / 2 ^ 46) ≤ A.cos d := by
    have hc : Real.cos (Real.pi / 2 + 1 / 2 ^ 47) ≤ Real.cos d := by
      refine Real.cos_le_cos_of_nonneg_of_le_pi e0 ?_ e1
      have := Real.pi_gt_three; norm_num; linarith
    rw [add_comm, Real.cos_add_pi_div_two] at hc
    have hsin := Real.sin_le (show (0 : ℝ) ≤ 1 / 2 ^ 47 by positivity)
    have := (abs_le.mp (hA.cos_err d)).1
    norm_num at this hc hsin ⊢
    linarith
  have c2 : A.cos d ≤ 1 + 1 / 2 ^ 52 := by
    have := (abs_le.mp (hA.cos_err d)).2
    have := Real.cos_le_one d
    linarith
  have tp := hA.twoPi_range
  -- the quotient
  have g1 : -(1 / 2 ^ 43) ≤ A.twoPi * A.cos d ∧ A.twoPi * A.cos d ≤ 6.5 := by
    have t0 : 0 < A.twoPi := by linarith [tp.1]
    constructor
    · have : A.twoPi * -(1 / 2 ^ 46) ≤ A.twoPi * A.cos d := by gcongr
      have t1 := tp.2
      norm_num at this t1 ⊢
      nlinarith
    · have : A.twoPi * A.cos d ≤ A.twoPi * (1 + 1 / 2 ^ 52) := by gcongr
      have t1 := tp.2
      norm_num at this t1 ⊢
      nlinarith
  have g2 := hA.near (x := A.twoPi * A.cos d) (M := 6.5) (by
    rw [abs_le]; refine ⟨?_, g1.2⟩; have := g1.1; norm_num at this ⊢; linarith)
  have g3 : -(1 / 2 ^ 42) ≤ A.mul A.twoPi (A.cos d) ∧ A.mul A.twoPi (A.cos d) ≤ 6.6 := by
    unfold FloatArith.mul
    norm_num at g1 g2 ⊢
    constructor <;> linarith
  have hN1 : (0 : ℝ) < N + 1 := by positivity
  have hs3 : 3 ≤ s * (N + 1) := by rwa [div_le_iff₀ hN1] at b3
  have g4 : -(1 / 4) ≤ A.mul A.twoPi (A.cos d) / s ∧ A.mul A.twoPi (A.cos d) / s ≤ 2.2 * (N + 1) := by
    rw [le_div_iff₀ b2, div_le_iff₀ b2]
    constructor
    · have : 1 / 2 ^ 42 ≤ 1 / 4 * s := by
        have : 3 / (N + 1) ≥ (3 : ℝ) / (2 ^ 31 + 1) := by gcongr
        norm_num at this ⊢
        linarith
      linarith [g3.1]
    · nlinarith [g3.2]
  have g5 := hA.near (x := A.mul A.twoPi (A.cos d) / s) (M := 2.2 * (N + 1)) (by
    rw [abs_le]; exact ⟨by linarith [g4.1], g4.2⟩)
  unfold FloatArith.div
  norm_num at g4 g5 h2 ⊢
  constructor <;> linarith

/-- The number of tracts of a ring with rounding. -/
theorem ringCount_bounds (hA : A.Ieee) {N i : Nat} (h1 : 1 ≤ N) (h2 : N ≤ 2 ^ 31) (hi : i < N) {s : ℝ}
    (hs : s = A.div A.pi (N + 1)) : 1 ≤ ringCount A s i ∧ ringCount A s i ≤ 3 * ((N : Int) + 1) := by
  have h1' : (1 : ℝ) ≤ N := by exact_mod_cast h1
  have h2' : (N : ℝ) ≤ 2 ^ 31 := by exact_mod_cast h2
  have hi' : (i : ℝ) + 1 ≤ N := by exact_mod_cast hi
  have hi0 : (0 : ℝ) ≤ i := by positivity
  obtain ⟨b1, b2, b3, b4⟩ := size_bounds hA h1' h2'
  rw [← hs] at b1 b2 b3 b4
  obtain ⟨p1, p2⟩ := hA.pi_range
  have b1' := abs_le.mp b1
  -- the start of the ring
  have i1 : 0 ≤ A.add i (1 / 2) ∧ A.add i (1 / 2) ≤ N := by
    refine ⟨hA.nonneg (by linarith), ?_⟩
    have h := (hA.near (x := (i : ℝ) + 1 / 2) (M := 2 ^ 31) (by rw [abs_of_nonneg (by linarith)]; linarith)).2
    unfold FloatArith.add
    norm_num at h ⊢
    linarith
  have i2 : 0 ≤ s * A.add i (1 / 2) := mul_nonneg b2.le i1.1
  have i3 : s * A.add i (1 / 2) ≤ s * N := by gcongr; exact i1.2
  have i4 : s * N ≤ A.pi + 1 / 2 ^ 50 := by nlinarith [b1'.2]
  have i5 : s * A.add i (1 / 2) ≤ 3.2 := by norm_num at i4 ⊢; linarith
  have m1 := hA.near (x := s * A.add i (1 / 2)) (M := 3.2) (by rw [abs_of_nonneg i2]; exact i5)
  have m0 : 0 ≤ A.mul s (A.add i (1 / 2)) := hA.nonneg i2
  have m2 := hA.near (x := 1 / 2 * A.pi) (M := 1.6) (by rw [abs_of_nonneg (by linarith)]; linarith)
  have m3 : 0 ≤ A.mul (1 / 2) A.pi := hA.nonneg (by linarith)
  have hpi := abs_le.mp hA.pi_err
  have d1 : |A.mul s (A.add i (1 / 2)) - A.mul (1 / 2) A.pi| ≤ Real.pi / 2 + 1 / 2 ^ 48 := by
    unfold FloatArith.mul at m0 m3 ⊢
    rw [abs_le]
    norm_num at m1 m2 i4 hpi ⊢
    constructor
    · linarith [m2.2]
    · linarith [m1.2, m2.1]
  have d2 : |A.sub (A.mul s (A.add i (1 / 2))) (A.mul (1 / 2) A.pi)| ≤ Real.pi / 2 + 1 / 2 ^ 47 := by
    have hM : |A.mul s (A.add i (1 / 2)) - A.mul (1 / 2) A.pi| ≤ 2 := by
      have := Real.pi_lt_d4; norm_num at d1 this ⊢; linarith
    have := hA.bound hM
    unfold FloatArith.sub
    have ht := abs_sub_abs_le_abs_sub (A.rnd (A.mul s (A.add i (1 / 2)) - A.mul (1 / 2) A.pi))
      (A.mul s (A.add i (1 / 2)) - A.mul (1 / 2) A.pi)
    norm_num at this d1 ⊢
    linarith
  unfold ringCount
  dsimp only
  generalize hstart : A.sub (A.mul s (A.add i (1 / 2))) (A.mul (1 / 2) A.pi) = start at d2 ⊢
  generalize hd : min |start| |A.add start s| = d
  have e0 : 0 ≤ d := by rw [← hd]; positivity
  have e1 : d ≤ Real.pi / 2 + 1 / 2 ^ 47 := by rw [← hd]; exact (min_le_left _ _).trans d2
  have etp : A.mul 2 A.pi = A.twoPi := rfl
  rw [etp]
  have g6 := count_quot hA h1' h2' b2 b3 e0 e1
  have hfin : 0 ≤ pyTrunc (A.div (A.mul A.twoPi (A.cos d)) s) ∧
      (pyTrunc (A.div (A.mul A.twoPi (A.cos d)) s) : ℝ) ≤ 2.3 * (N + 1) := by
    unfold pyTrunc
    split
    · next hz => exact ⟨Int.floor_nonneg.mpr hz, (Int.floor_le _).trans g6.2⟩
    · next hz =>
      have hce : ⌈A.div (A.mul A.twoPi (A.cos d)) s⌉ = 0 := by
        rw [Int.ceil_eq_zero_iff]
        exact ⟨by linarith [g6.1], (not_le.mp hz).le⟩
      rw [hce]
      exact ⟨le_refl _, by push_cast; positivity⟩
  refine ⟨by omega, ?_⟩
  have : ((pyTrunc (A.div (A.mul A.twoPi (A.cos d)) s) + 1 : Int) : ℝ) ≤ ((3 * ((N : Int) + 1) : Int) : ℝ) := by
    push_cast; norm_num at hfin ⊢; linarith [hfin.2]
  exact_mod_cast this

theorem new_wf_rounding (hA : A.Ieee) (h : Rings.new A c v = .ok R) (h1 : 1 ≤ c.numRings) (h2 : c.numRings ≤ 2 ^ 31) :
    R.WF ∧ ∀ n ∈ R.ringNums, n ≤ 2 ^ 33 := by
  obtain ⟨e1, -, -, -, e5, -⟩ := new_attr h
  have hb : ∀ n ∈ R.ringNums, 1 ≤ n ∧ n ≤ 3 * ((c.numRings : Int) + 1) := by
    intro n hn
    rw [e5, List.mem_map] at hn
    obtain ⟨i, hi, rfl⟩ := hn
    exact ringCount_bounds hA h1 h2 (List.mem_range.mp hi) rfl
  refine ⟨⟨by rw [e5, e1]; simp, fun n hn => by have := (hb n hn).1; omega⟩, fun n hn => ?_⟩
  have := (hb n hn).2
  omega

/-- The ring number with rounding. -/
theorem dec_range (hA : A.Ieee) (h : Rings.new A c v = .ok R) (h1 : 1 ≤ c.numRings) (h2 : c.numRings ≤ 2 ^ 31) (lat : ℝ) :
    -1 ≤ R.decToRingNum A lat ∧ R.decToRingNum A lat ≤ c.numRings := by
  obtain ⟨e1, -, -, e4, -, -⟩ := new_attr h
  have h1' : (1 : ℝ) ≤ c.numRings := by exact_mod_cast h1
  have h2' : (c.numRings : ℝ) ≤ 2 ^ 31 := by exact_mod_cast h2
  obtain ⟨b1, b2, b3, b4⟩ := size_bounds hA h1' h2'
  rw [← e4] at b1 b2 b3 b4
  obtain ⟨p1, p2⟩ := hA.pi_range
  have b1' := abs_le.mp b1
  unfold decToRingNum
  rw [e1]
  split
  · omega
  next h3 =>
  split
  · omega
  next h4 =>
  have hN1 : (0 : ℝ) < c.numRings + 1 := by positivity
  have f1 := hA.near (x := R.ringSize * (1 / 2)) (M := 0.8) (by rw [abs_of_nonneg (by linarith)]; norm_num at b4 ⊢; linarith)
  have f2 := hA.near (x := 1 / 2 * A.pi) (M := 1.6) (by rw [abs_of_nonneg (by linarith)]; linarith)
  have f3 : 0 ≤ A.mul R.ringSize (1 / 2) := hA.nonneg (by linarith)
  have f4 : |A.mul R.ringSize (1 / 2) - A.mul (1 / 2) A.pi| ≤ 1.6 := by
    unfold FloatArith.mul at f3 ⊢
    rw [abs_le]
    norm_num at f1 f2 b4 p1 p2 ⊢
    constructor <;> linarith
  have f5 := hA.near f4
  have f6 : R.firstRingStart A = A.rnd (A.mul R.ringSize (1 / 2) - A.mul (1 / 2) A.pi) := rfl
  rw [← f6] at f5
  have f7 : -R.firstRingStart A ≤ A.pi / 2 - R.ringSize / 2 + 1 / 2 ^ 50 := by
    unfold FloatArith.mul at f5
    norm_num at f1 f2 f5 ⊢
    linarith
  have k1 : 0 ≤ lat - R.firstRingStart A := by linarith
  have k2 : lat - R.firstRingStart A ≤ A.pi - R.ringSize + 1 / 2 ^ 49 := by norm_num at f7 ⊢; linarith
  have k3 := hA.near (x := lat - R.firstRingStart A) (M := 3.2) (by
    rw [abs_of_nonneg k1]; norm_num at k2 p2 ⊢; linarith)
  have k4 : 0 ≤ A.sub lat (R.firstRingStart A) := hA.nonneg k1
  have k5 : A.sub lat (R.firstRingStart A) ≤ A.pi - R.ringSize + 1 / 2 ^ 48 := by
    unfold FloatArith.sub; norm_num at k2 k3 ⊢; linarith
  have k6 : A.pi - R.ringSize + 1 / 2 ^ 48 ≤ R.ringSize * (c.numRings + 1 / 8) := by
    have hs : 1 / 2 ^ 47 ≤ R.ringSize * (1 / 8) := by
      have : (3 : ℝ) / (2 ^ 31 + 1) ≤ 3 / (c.numRings + 1) := by gcongr
      norm_num at this ⊢
      linarith
    have := b1'.1
    norm_num at this hs ⊢
    linarith
  have k7 : 0 ≤ A.sub lat (R.firstRingStart A) / R.ringSize := div_nonneg k4 b2.le
  have k8 : A.sub lat (R.firstRingStart A) / R.ringSize ≤ c.numRings + 1 / 8 := by
    rw [div_le_iff₀ b2]; linarith
  have k9 := hA.near (x := A.sub lat (R.firstRingStart A) / R.ringSize) (M := 2 ^ 32) (by
    rw [abs_of_nonneg k7]; linarith)
  have k10 : 0 ≤ A.div (A.sub lat (R.firstRingStart A)) R.ringSize := hA.nonneg k7
  have k11 : A.div (A.sub lat (R.firstRingStart A)) R.ringSize < c.numRings + 1 := by
    unfold FloatArith.div; norm_num at k9 ⊢; linarith
  rw [pyTrunc_nonneg k10]
  have := Int.floor_nonneg.mpr k10
  have hlt : ⌊A.div (A.sub lat (R.firstRingStart A)) R.ringSize⌋ < (c.numRings : Int) + 1 := by
    rw [Int.floor_lt]; push_cast; exact k11
  omega

/-- The quotient whose integer part is the tract number, for any wrapped angle. -/
theorem tract_quot (hA : A.Ieee) {n : Int} (hn : 0 < n) (hn' : n ≤ 2 ^ 33) {w : ℝ} (w0 : 0 ≤ w) (w1 : w ≤ A.twoPi * (1 + 1 / 2 ^ 51)) :
    0 ≤ pyTrunc (A.add (A.div w (A.div (A.mul 2 A.pi) n)) (1 / 2)) ∧
      pyTrunc (A.add (A.div w (A.div (A.mul 2 A.pi) n)) (1 / 2)) ≤ n := by
  have hn1 : (1 : ℝ) ≤ n := by exact_mod_cast (by omega : 1 ≤ n)
  have hn2 : (n : ℝ) ≤ 2 ^ 33 := by exact_mod_cast hn'
  have etp : A.mul 2 A.pi = A.twoPi := rfl
  rw [etp]
  obtain ⟨t1, t2⟩ := hA.twoPi_range
  have q0 : 0 < A.twoPi / n := div_pos (by linarith) (by linarith)
  have he := hA.err' (A.twoPi / n)
  rw [abs_of_pos q0] at he
  -- a lower bound for the width of a tract
  have q1 : A.twoPi / n * (1 - 1 / 2 ^ 50) ≤ A.div A.twoPi n := by
    have h3 := (abs_le.mp he).1
    have h4 : 1 / 2 ^ 100 ≤ A.twoPi / n * (1 / 2 ^ 51) := by
      have : 6 / 2 ^ 33 ≤ A.twoPi / n := by
        have : (6 : ℝ) / 2 ^ 33 ≤ A.twoPi / 2 ^ 33 := by gcongr; linarith
        refine this.trans ?_
        have : (0 : ℝ) ≤ A.twoPi := by linarith
        gcongr
      norm_num at this ⊢
      linarith
    unfold FloatArith.div
    norm_num at h3 h4 ⊢
    linarith
  have q2 : 0 < A.div A.twoPi n := lt_of_lt_of_le (by positivity) q1
  have q3 : 0 ≤ w / A.div A.twoPi n := div_nonneg w0 q2.le
  have q4 : w / A.div A.twoPi n ≤ n + 1 / 16 := by
    rw [div_le_iff₀ q2]
    have e : A.twoPi / n * n = A.twoPi := by field_simp
    have : A.twoPi * (1 + 1 / 2 ^ 51) ≤ (n + 1 / 16) * (A.twoPi / n * (1 - 1 / 2 ^ 50)) := by
      have e2 : (n + 1 / 16) * (A.twoPi / n * (1 - 1 / 2 ^ 50)) =
          A.twoPi * ((1 + 1 / 16 / n) * (1 - 1 / 2 ^ 50)) := by field_simp
      rw [e2]
      have h5 : (1 : ℝ) / 16 / 2 ^ 33 ≤ 1 / 16 / n := by gcongr
      have h6 : (1 + 1 / 2 ^ 51 : ℝ) ≤ (1 + 1 / 16 / n) * (1 - 1 / 2 ^ 50) := by
        calc (1 + 1 / 2 ^ 51 : ℝ) ≤ (1 + 1 / 16 / 2 ^ 33) * (1 - 1 / 2 ^ 50) := by norm_num
          _ ≤ (1 + 1 / 16 / n) * (1 - 1 / 2 ^ 50) := by
            apply mul_le_mul_of_nonneg_right _ (by norm_num)
            linarith
      have t0 : 0 ≤ A.twoPi := by linarith
      exact mul_le_mul_of_nonneg_left h6 t0
    calc w ≤ A.twoPi * (1 + 1 / 2 ^ 51) := w1
      _ ≤ _ := this
      _ ≤ _ := by gcongr
  have q5 := hA.near (x := w / A.div A.twoPi n) (M := 2 ^ 34) (by
    rw [abs_of_nonneg q3]; norm_num at hn2 ⊢; linarith)
  have q6 : 0 ≤ A.div w (A.div A.twoPi n) := hA.nonneg q3
  have q7 : A.div w (A.div A.twoPi n) ≤ n + 1 / 8 := by
    unfold FloatArith.div at q5 ⊢; norm_num at q5 q4 ⊢; unfold FloatArith.div at q4; linarith
  have q8 := hA.near (x := A.div w (A.div A.twoPi n) + 1 / 2) (M := 2 ^ 34) (by
    rw [abs_of_nonneg (by linarith)]; norm_num at hn2 ⊢; linarith)
  have q9 : 0 ≤ A.add (A.div w (A.div A.twoPi n)) (1 / 2) := hA.nonneg (by linarith)
  have q10 : A.add (A.div w (A.div A.twoPi n)) (1 / 2) < n + 1 := by
    unfold FloatArith.add; norm_num at q8 ⊢; linarith
  rw [pyTrunc_nonneg q9]
  refine ⟨Int.floor_nonneg.mpr q9, ?_⟩
  have : ⌊A.add (A.div w (A.div A.twoPi n)) (1 / 2)⌋ < n + 1 := by rw [Int.floor_lt]; push_cast; exact q10
  omega

/-- An angle that was rounded up to a full circle belongs to the tract after the last one. -/
theorem tract_top (hA : A.Ieee) {n : Int} (hn : 0 < n) (hn' : n ≤ 2 ^ 33) {w : ℝ} (w0 : A.twoPi ≤ w)
    (w1 : w ≤ A.twoPi * (1 + 1 / 2 ^ 51)) : pyTrunc (A.add (A.div w (A.div (A.mul 2 A.pi) n)) (1 / 2)) = n := by
  have hn1 : (1 : ℝ) ≤ n := by exact_mod_cast (by omega : 1 ≤ n)
  have hn2 : (n : ℝ) ≤ 2 ^ 33 := by exact_mod_cast hn'
  obtain ⟨t1, t2⟩ := hA.twoPi_range
  obtain ⟨r1, r2⟩ := tract_quot hA hn hn' (w := w) (by linarith) w1
  refine le_antisymm r2 ?_
  have etp : A.mul 2 A.pi = A.twoPi := rfl
  rw [etp] at r1 r2 ⊢
  have q0 : 0 < A.twoPi / n := div_pos (by linarith) (by linarith)
  have he := hA.err' (A.twoPi / n)
  rw [abs_of_pos q0] at he
  have h5 : 6 / 2 ^ 33 ≤ A.twoPi / n := by
    have : (6 : ℝ) / 2 ^ 33 ≤ A.twoPi / 2 ^ 33 := by gcongr; linarith
    refine this.trans ?_
    have : (0 : ℝ) ≤ A.twoPi := by linarith
    gcongr
  have q1 : A.div A.twoPi n ≤ A.twoPi / n * (1 + 1 / 2 ^ 50) := by
    have h3 := (abs_le.mp he).2
    unfold FloatArith.div
    norm_num at h3 h5 ⊢
    linarith
  have q2 : 0 < A.div A.twoPi n := by
    have h3 := (abs_le.mp he).1
    unfold FloatArith.div
    norm_num at h3 h5 ⊢
    linarith
  have q3 : (n : ℝ) - 1 / 16 ≤ w / A.div A.twoPi n := by
    rw [le_div_iff₀ q2]
    have e : A.twoPi / n * n = A.twoPi := by field_simp
    have hnn : (0 : ℝ) ≤ n - 1 / 16 := by linarith
    calc (n - 1 / 16 : ℝ) * A.div A.twoPi n ≤ (n - 1 / 16) * (A.twoPi / n * (1 + 1 / 2 ^ 50)) := by gcongr
      _ = A.twoPi * ((1 - 1 / 16 / n) * (1 + 1 / 2 ^ 50)) := by field_simp
      _ ≤ A.twoPi * 1 := by
        have t0 : 0 ≤ A.twoPi := by linarith
        apply mul_le_mul_of_nonneg_left _ t0
        have h5 : (1 : ℝ) / 16 / 2 ^ 33 ≤ 1 / 16 / n := by gcongr
        calc (1 - 1 / 16 / n : ℝ) * (1 + 1 / 2 ^ 50) ≤ (1 - 1 / 16 / 2 ^ 33) * (1 + 1 / 2 ^ 50) := by
              apply mul_le_mul_of_nonneg_right _ (by norm_num)
              linarith
          _ ≤ 1 := by norm_num
      _ ≤ w := by linarith
  have q4 : A.rnd ((n : ℝ) - 1 / 16) ≤ A.div w (A.div A.twoPi n) := hA.mono q3
  have q5 := hA.near (x := (n : ℝ) - 1 / 16) (M := 2 ^ 33) (by rw [abs_of_nonneg (by linarith)]; linarith)
  have q6 : (n : ℝ) - 1 / 8 ≤ A.div w (A.div A.twoPi n) := by norm_num at q5 ⊢; linarith
  have q7 : A.rnd ((n : ℝ) + 3 / 8) ≤ A.add (A.div w (A.div A.twoPi n)) (1 / 2) := hA.mono (by linarith)
  have q8 := hA.near (x := (n : ℝ) + 3 / 8) (M := 2 ^ 34) (by
    rw [abs_of_nonneg (by linarith)]; norm_num at hn2 ⊢; linarith)
  have q9 : (n : ℝ) ≤ A.add (A.div w (A.div A.twoPi n)) (1 / 2) := by norm_num at q8 ⊢; linarith
  rw [pyTrunc_nonneg (by linarith), Int.le_floor]
  exact q9

/-- The start of the first ring is in the south. -/
theorem first_nonpos (hA : A.Ieee) (h : Rings.new A c v = .ok R) (h1 : 1 ≤ c.numRings) (h2 : c.numRings ≤ 2 ^ 31) :
    R.firstRingStart A ≤ 0 := by
  obtain ⟨e1, -, -, e4, -, -⟩ := new_attr h
  have h1' : (1 : ℝ) ≤ c.numRings := by exact_mod_cast h1
  have h2' : (c.numRings : ℝ) ≤ 2 ^ 31 := by exact_mod_cast h2
  obtain ⟨b1, b2, b3, b4⟩ := size_bounds hA h1' h2'
  rw [← e4] at b1 b2 b3 b4
  obtain ⟨p1, p2⟩ := hA.pi_range
  apply hA.nonpos
  have : A.mul R.ringSize (1 / 2) ≤ A.mul (1 / 2) A.pi := hA.mono (by norm_num at *; linarith)
  linarith

theorem WF.raToTractNum_eq {K : Type} [Field K] [LinearOrder K] [FloorRing K] {R : Rings K} (wf : R.WF) (A : FloatArith K)
    {k : Nat} {n : Int} (hn : R.ringNums[k]? = some n) (ra : K) : R.raToTractNum A ra k =
    .ok (if pyTrunc (A.add (A.div (A.wrap (A.sub ra R.raStart)) (A.div (A.mul 2 A.pi) n)) (1 / 2)) = n then 0
      else pyTrunc (A.add (A.div (A.wrap (A.sub ra R.raStart)) (A.div (A.mul 2 A.pi) n)) (1 / 2))) := by
  have hk := wf.lt_numRings hn
  unfold raToTractNum
  rw [if_neg (by omega), if_neg (by push Not; omega), CachingSkyMap.pyGetItem_nat hn]
  rfl

/-- C34: with rounding, for any number of rings that the SHA1 can encode and any position, the computed ring is in `-1..numRings`,
the computed tract number is in `0..n_r - 1`, and so the index is that of a tract: no assertion or index error. -/
theorem C34_total (hA : A.Ieee) (h : Rings.new A c v = .ok R) (h1 : 1 ≤ c.numRings) (h2 : c.numRings ≤ 2 ^ 31) (p : SpherePoint ℝ) :
    (-1 ≤ R.decToRingNum A p.lat ∧ R.decToRingNum A p.lat ≤ c.numRings) ∧
    (∀ (k : Nat) n, R.ringNums[k]? = some n → ∃ t, R.raToTractNum A p.lon k = .ok t ∧ 0 ≤ t ∧ t < n) ∧
    (∃ i, R.findIndex A p = .ok i ∧ 0 ≤ i ∧ i < R.numTracts) := by
  obtain ⟨wf, w33⟩ := new_wf_rounding hA h h1 h2
  obtain ⟨e1, e2, e3, -⟩ := new_attr h
  have hd := dec_range hA h h1 h2 p.lat
  have hra : ∀ (k : Nat) n, R.ringNums[k]? = some n → ∃ t, R.raToTractNum A p.lon k = .ok t ∧ 0 ≤ t ∧ t < n := by
    intro k n hn
    have hk := wf.lt_numRings hn
    have hpos := wf.pos n (List.mem_of_getElem? hn)
    obtain ⟨w0, w1⟩ := hA.wrap_range (A.sub p.lon R.raStart)
    obtain ⟨t0, t1⟩ := tract_quot hA hpos (w33 n (List.mem_of_getElem? hn)) w0 (by
      have := hA.twoPi_range.1
      norm_num at this ⊢; linarith)
    refine ⟨_, wf.raToTractNum_eq A hn p.lon, ?_⟩
    split <;> omega
  refine ⟨hd, hra, ?_⟩
  have h2 := wf.numTracts_ge
  unfold findIndex
  dsimp only
  rw [e1]
  split
  · exact ⟨0, rfl, by omega, by omega⟩
  next g1 =>
  split
  · exact ⟨_, rfl, by omega, by omega⟩
  next g2 =>
  obtain ⟨k, hk⟩ := Int.eq_ofNat_of_zero_le (show 0 ≤ R.decToRingNum A p.lat by omega)
  rw [hk] at hd g2 ⊢
  obtain ⟨n, hn, hn0⟩ := getNum wf (k := k) (by rw [e1]; omega)
  obtain ⟨t, ht, t0, t1⟩ := hra k n hn
  rw [ht]
  refine ⟨_, rfl, ?_⟩
  have hb := wf.block_range hn t0 t1
  have hs := sum_take_succ hn
  have hle := sum_take_le wf.pos (k + 1)
  split
  · next hz =>
    rw [show ((k : Int) + 1) = ((k + 1 : Nat) : Int) by push_cast; rfl, sumTo_nat]
    simp only [numTracts]; omega
  · rw [sumTo_nat]; omega

end Rings
end Skymap
