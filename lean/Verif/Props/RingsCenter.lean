import Verif.Props.RingsRounding
import Verif.Spec.Double

/-! # C28 with rounding: looking up the centre of a tract finds the tract -/

set_option linter.unusedSectionVars false

namespace Skymap

/-- `0.5*math.pi` is exactly half of `math.pi`, as halving a double is exact. -/
def FloatArith.HalfPi (A : FloatArith ℝ) : Prop := A.mul (1 / 2) A.pi = A.pi / 2

namespace FloatArith.Ieee
variable {A : FloatArith ℝ} (hA : A.Ieee)
include hA

/-- The wrapped angle is the angle up to full circles and a rounding error. -/
theorem wrap_near (x : ℝ) : ∃ k : ℤ, |A.wrap x - (x - k * A.twoPi)| ≤ 1 / 2 ^ 49 := by
  obtain ⟨t1, t2⟩ := hA.twoPi_range
  have t0 : 0 < A.twoPi := by linarith
  have e : x / A.twoPi * A.twoPi = x := by field_simp
  have hf : |fmod x A.twoPi| < A.twoPi := by
    unfold fmod
    have : x - (pyTrunc (x / A.twoPi) : ℝ) * A.twoPi = (x / A.twoPi - pyTrunc (x / A.twoPi)) * A.twoPi := by
      rw [sub_mul, e]
    rw [this, abs_mul, abs_of_pos t0]
    have h1 : |x / A.twoPi - pyTrunc (x / A.twoPi)| < 1 := by
      unfold pyTrunc
      rw [abs_lt]
      split
      · have := Int.floor_le (x / A.twoPi)
        have := Int.lt_floor_add_one (x / A.twoPi)
        constructor <;> linarith
      · have := Int.ceil_lt_add_one (x / A.twoPi)
        have := Int.le_ceil (x / A.twoPi)
        constructor <;> linarith
    nlinarith
  have hf' := abs_lt.mp hf
  unfold wrap
  dsimp only
  by_cases hneg : fmod x A.twoPi < 0
  · rw [if_pos hneg]
    have hr := hA.near (x := fmod x A.twoPi + A.twoPi) (M := 6.4) (by rw [abs_of_nonneg (by linarith)]; linarith)
    have ha : A.add (fmod x A.twoPi) A.twoPi = A.rnd (fmod x A.twoPi + A.twoPi) := rfl
    rw [← ha] at hr
    have hfd : fmod x A.twoPi = x - (pyTrunc (x / A.twoPi) : ℝ) * A.twoPi := rfl
    split
    · next hge =>
      refine ⟨pyTrunc (x / A.twoPi), ?_⟩
      rw [← hfd, abs_le]
      norm_num at hr ⊢
      constructor <;> linarith
    · refine ⟨pyTrunc (x / A.twoPi) - 1, ?_⟩
      push_cast
      have : x - ((pyTrunc (x / A.twoPi) : ℝ) - 1) * A.twoPi = fmod x A.twoPi + A.twoPi := by rw [hfd]; ring
      rw [this, abs_le]
      norm_num at hr ⊢
      constructor <;> linarith
  · rw [if_neg hneg, if_neg (by linarith)]
    refine ⟨pyTrunc (x / A.twoPi), ?_⟩
    rw [fmod, sub_self, abs_zero]
    positivity

/-- Wrapping changes nothing in [0, 2 pi). -/
theorem wrap_id {x : ℝ} (h0 : 0 ≤ x) (h1 : x < A.twoPi) : A.wrap x = x := by
  have t0 : 0 < A.twoPi := by linarith
  have hz : pyTrunc (x / A.twoPi) = 0 := by
    rw [pyTrunc_nonneg (by positivity), Int.floor_eq_zero_iff]
    exact ⟨by positivity, by rw [div_lt_one t0]; exact h1⟩
  have hf : fmod x A.twoPi = x := by rw [fmod, hz]; simp
  unfold wrap
  dsimp only
  rw [hf, if_neg (not_lt.mpr h0), if_neg (not_le.mpr h1)]

end FloatArith.Ieee

namespace Rings
variable {A : FloatArith ℝ} {c : RingsConfig ℝ} {v : Int} {R : Rings ℝ}

/-- The tract number of an angle close to that of the centre of a tract. -/
theorem tract_near (hA : A.Ieee) {n t : Int} (hn : 0 < n) (hn' : n ≤ 2 ^ 33) (t0 : 0 ≤ t) (t1 : t ≤ n) {w : ℝ} (w0 : 0 ≤ w)
    (hw : |w - A.twoPi * t / n| ≤ 1 / 2 ^ 45) :
    pyTrunc (A.add (A.div w (A.div (A.mul 2 A.pi) n)) (1 / 2)) = t := by
  have hn1 : (1 : ℝ) ≤ n := by exact_mod_cast (by omega : 1 ≤ n)
  have hn2 : (n : ℝ) ≤ 2 ^ 33 := by exact_mod_cast hn'
  have ht0 : (0 : ℝ) ≤ t := by exact_mod_cast t0
  have ht1 : (t : ℝ) ≤ n := by exact_mod_cast t1
  have etp : A.mul 2 A.pi = A.twoPi := rfl
  rw [etp]
  obtain ⟨p1, p2⟩ := hA.twoPi_range
  have q0 : 0 < A.twoPi / n := div_pos (by linarith) (by linarith)
  have q7 : 6 / 2 ^ 33 ≤ A.twoPi / n := by
    have h : (6 : ℝ) / 2 ^ 33 ≤ A.twoPi / 2 ^ 33 := by gcongr; linarith
    refine h.trans ?_
    have : (0 : ℝ) ≤ A.twoPi := by linarith
    gcongr
  have he := hA.err' (A.twoPi / n)
  rw [abs_of_pos q0] at he
  have hD : A.div A.twoPi n = A.rnd (A.twoPi / n) := rfl
  rw [← hD] at he
  generalize hDd : A.div A.twoPi n = D at he ⊢
  -- the width times the tract number
  have h1 : |D * t - A.twoPi * t / n| ≤ 1 / 2 ^ 49 := by
    have : D * t - A.twoPi * t / n = (D - A.twoPi / n) * t := by ring
    rw [this, abs_mul, abs_of_nonneg ht0]
    calc |D - A.twoPi / n| * t ≤ (A.twoPi / n / 2 ^ 53 + 1 / 2 ^ 100) * n := by gcongr
      _ = A.twoPi / 2 ^ 53 + n / 2 ^ 100 := by field_simp
      _ ≤ 6.4 / 2 ^ 53 + 2 ^ 33 / 2 ^ 100 := by gcongr
      _ ≤ 1 / 2 ^ 49 := by norm_num
  have hDlow : 3 / 2 ^ 33 ≤ D := by
    have h3 := (abs_le.mp he).1
    norm_num at h3 q7 ⊢
    linarith
  have hDpos : 0 < D := lt_of_lt_of_le (by positivity) hDlow
  have h2 : |w - D * t| ≤ D / 16 := by
    have h4 := abs_le.mp h1
    have h5 := abs_le.mp hw
    rw [abs_le]
    norm_num at h4 h5 hDlow ⊢
    constructor <;> linarith
  have h3 := abs_le.mp h2
  have k1 : (t : ℝ) - 1 / 16 ≤ w / D := by rw [le_div_iff₀ hDpos]; linarith
  have k2 : w / D ≤ t + 1 / 16 := by rw [div_le_iff₀ hDpos]; linarith
  have k3 := hA.near (x := w / D) (M := 2 ^ 34) (by
    rw [abs_of_nonneg (div_nonneg w0 hDpos.le)]; norm_num at hn2 ⊢; linarith)
  have hq : A.div w D = A.rnd (w / D) := rfl
  rw [← hq] at k3
  have k4 : (t : ℝ) - 1 / 8 ≤ A.div w D ∧ A.div w D ≤ t + 1 / 8 := by
    norm_num at k3 ⊢
    constructor <;> linarith
  have k5 := hA.near (x := A.div w D + 1 / 2) (M := 2 ^ 34) (by
    rw [abs_of_nonneg (by linarith)]; norm_num at hn2 ⊢; linarith)
  have hq2 : A.add (A.div w D) (1 / 2) = A.rnd (A.div w D + 1 / 2) := rfl
  rw [← hq2] at k5
  norm_num at k5
  rw [pyTrunc_nonneg (by norm_num at k4 ⊢; linarith), Int.floor_eq_iff]
  norm_num at k4 ⊢
  constructor <;> linarith

/-- The declination of a ring's centre, and where the first ring starts. -/
theorem ring_center_dec (hA : A.Ieee) (hh : A.HalfPi) (h : Rings.new A c v = .ok R) (h1 : 1 ≤ c.numRings) (h2 : c.numRings ≤ 2 ^ 31)
    {k : Nat} (hk : k < c.numRings) :
    |A.sub (A.mul R.ringSize ((k : ℝ) + 1)) (A.mul (1 / 2) A.pi)| ≤ A.pi / 2 ∧
      R.decToRingNum A (A.sub (A.mul R.ringSize ((k : ℝ) + 1)) (A.mul (1 / 2) A.pi)) = k := by
  obtain ⟨e1, -, -, e4, -, -⟩ := new_attr h
  have h1' : (1 : ℝ) ≤ c.numRings := by exact_mod_cast h1
  have h2' : (c.numRings : ℝ) ≤ 2 ^ 31 := by exact_mod_cast h2
  have hk1 : (k : ℝ) + 1 ≤ c.numRings := by exact_mod_cast hk
  have hk0 : (0 : ℝ) ≤ k := by positivity
  obtain ⟨b1, b2, b3, b4⟩ := size_bounds hA h1' h2'
  rw [← e4] at b1 b2 b3 b4
  obtain ⟨p1, p2⟩ := hA.pi_range
  have b1' := abs_le.mp b1
  have hN1 : (0 : ℝ) < c.numRings + 1 := by positivity
  have hs : 3 / (2 ^ 31 + 1) ≤ R.ringSize := le_trans (by gcongr) b3
  unfold FloatArith.HalfPi at hh
  -- where the first ring starts
  have f1 := hA.near (x := R.ringSize * (1 / 2)) (M := 0.8) (by rw [abs_of_nonneg (by linarith)]; norm_num at b4 ⊢; linarith)
  have f1' : A.mul R.ringSize (1 / 2) = A.rnd (R.ringSize * (1 / 2)) := rfl
  rw [← f1'] at f1
  have f3 : 0 ≤ A.mul R.ringSize (1 / 2) := hA.nonneg (by linarith)
  have f5 := hA.near (x := A.mul R.ringSize (1 / 2) - A.pi / 2) (M := 1.6) (by
    rw [abs_le]; norm_num at f1 b4 p1 p2 ⊢; constructor <;> linarith)
  have f6 : R.firstRingStart A = A.rnd (A.mul R.ringSize (1 / 2) - A.pi / 2) := by rw [firstRingStart, hh]; rfl
  rw [← f6] at f5
  have f7 : |R.firstRingStart A - (R.ringSize / 2 - A.pi / 2)| ≤ 1 / 2 ^ 51 := by
    rw [abs_le]; norm_num at f1 f5 ⊢; constructor <;> linarith
  have f7' := abs_le.mp f7
  -- the declination
  have x0 : 0 ≤ R.ringSize * ((k : ℝ) + 1) := by positivity
  have xN : R.ringSize * ((k : ℝ) + 1) ≤ R.ringSize * c.numRings := by gcongr
  have x1 : R.ringSize * ((k : ℝ) + 1) ≤ A.pi - R.ringSize + 1 / 2 ^ 50 := by nlinarith [b1'.2]
  have x2 : R.ringSize ≤ R.ringSize * ((k : ℝ) + 1) := by nlinarith
  have g1 := hA.near (x := R.ringSize * ((k : ℝ) + 1)) (M := 3.2) (by
    rw [abs_of_nonneg x0]; norm_num at x1 p2 ⊢; linarith)
  have g1' : A.mul R.ringSize ((k : ℝ) + 1) = A.rnd (R.ringSize * ((k : ℝ) + 1)) := rfl
  rw [← g1'] at g1
  have g2 := hA.near (x := A.mul R.ringSize ((k : ℝ) + 1) - A.pi / 2) (M := 2) (by
    rw [abs_le]; norm_num at g1 b4 x1 p1 p2 ⊢; constructor <;> linarith)
  have g3 : A.sub (A.mul R.ringSize ((k : ℝ) + 1)) (A.pi / 2) = A.rnd (A.mul R.ringSize ((k : ℝ) + 1) - A.pi / 2) := rfl
  rw [hh]
  rw [← g3] at g2
  generalize A.sub (A.mul R.ringSize ((k : ℝ) + 1)) (A.pi / 2) = d at g2 ⊢
  have g4 : |d - (R.ringSize * ((k : ℝ) + 1) - A.pi / 2)| ≤ 1 / 2 ^ 50 := by
    rw [abs_le]; norm_num at g1 g2 ⊢; constructor <;> linarith
  have g4' := abs_le.mp g4
  refine ⟨?_, ?_⟩
  · rw [abs_le]
    norm_num at g4' x1 hs ⊢
    constructor <;> linarith
  · unfold decToRingNum
    rw [if_neg (by norm_num at g4' f7' hs ⊢; linarith), if_neg (by norm_num at g4' f7' hs x1 ⊢; linarith)]
    have m1 : |d - R.firstRingStart A - R.ringSize * ((k : ℝ) + 1 / 2)| ≤ 1 / 2 ^ 49 := by
      rw [abs_le]; norm_num at g4' f7' ⊢; constructor <;> linarith
    have m1' := abs_le.mp m1
    have xk : 0 ≤ R.ringSize * ((k : ℝ) + 1 / 2) := by positivity
    have m2 := hA.near (x := d - R.firstRingStart A) (M := 3.2) (by
      rw [abs_le]; norm_num at m1' x1 p2 ⊢; constructor <;> linarith)
    have m2' : A.sub d (R.firstRingStart A) = A.rnd (d - R.firstRingStart A) := rfl
    rw [← m2'] at m2
    generalize A.sub d (R.firstRingStart A) = y at m2 ⊢
    have m3 : |y - R.ringSize * ((k : ℝ) + 1 / 2)| ≤ R.ringSize / 16 := by
      rw [abs_le]; norm_num at m1' m2 hs ⊢; constructor <;> linarith
    have m3' := abs_le.mp m3
    have r1 : (k : ℝ) + 7 / 16 ≤ y / R.ringSize := by rw [le_div_iff₀ b2]; linarith
    have r2 : y / R.ringSize ≤ k + 9 / 16 := by rw [div_le_iff₀ b2]; linarith
    have r3 := hA.near (x := y / R.ringSize) (M := 2 ^ 32) (by
      rw [abs_of_nonneg (by linarith)]; linarith [show (2 : ℝ) ^ 31 + 1 ≤ 2 ^ 32 by norm_num])
    have r4 : A.div y R.ringSize = A.rnd (y / R.ringSize) := rfl
    rw [← r4] at r3
    norm_num at r3
    rw [pyTrunc_nonneg (by linarith), Int.floor_eq_iff]
    push_cast
    constructor <;> linarith

/-- The tract number of the right ascension of a tract's centre. -/
theorem ring_center_ra (hA : A.Ieee) (wf : R.WF) {k : Nat} {n t : Int} (hn : R.ringNums[k]? = some n) (hn' : n ≤ 2 ^ 33)
    (t0 : 0 ≤ t) (t1 : t < n) (hr : |R.raStart| ≤ 6.4) :
    R.raToTractNum A (A.wrap (A.add (A.div (A.mul (A.mul 2 A.pi) t) n) R.raStart)) k = .ok t := by
  have hpos := wf.pos n (List.mem_of_getElem? hn)
  rw [wf.raToTractNum_eq A hn]
  have hn1 : (1 : ℝ) ≤ n := by exact_mod_cast (by omega : 1 ≤ n)
  have hn2 : (n : ℝ) ≤ 2 ^ 33 := by exact_mod_cast hn'
  have ht0 : (0 : ℝ) ≤ t := by exact_mod_cast t0
  have ht1 : (t : ℝ) + 1 ≤ n := by exact_mod_cast t1
  have etp : A.mul 2 A.pi = A.twoPi := rfl
  have hr' := abs_le.mp hr
  obtain ⟨p1, p2⟩ := hA.twoPi_range
  have p0 : 0 < A.twoPi := by linarith
  -- the angle from the start of the ring
  have hx0 : 0 ≤ A.twoPi * t / n := by positivity
  have hx1 : A.twoPi * t / n + A.twoPi / n ≤ A.twoPi := by
    rw [← add_div, div_le_iff₀ (by linarith)]; nlinarith
  have hq : 6 / 2 ^ 33 ≤ A.twoPi / n := by
    have h : (6 : ℝ) / 2 ^ 33 ≤ A.twoPi / 2 ^ 33 := by gcongr; linarith
    refine h.trans ?_
    gcongr
  have e1 := hA.err' (A.twoPi * t)
  rw [abs_of_nonneg (a := A.twoPi * t) (by positivity)] at e1
  have e1' : A.mul A.twoPi t = A.rnd (A.twoPi * t) := rfl
  rw [← e1'] at e1
  have e2 : |A.mul A.twoPi t / n - A.twoPi * t / n| ≤ 1 / 2 ^ 50 := by
    rw [← sub_div, abs_div, abs_of_pos (show (0 : ℝ) < n by linarith), div_le_iff₀ (by linarith)]
    refine e1.trans ?_
    calc A.twoPi * t / 2 ^ 53 + 1 / 2 ^ 100 ≤ 6.4 * (n : ℝ) / 2 ^ 53 + 1 / 2 ^ 100 := by gcongr
      _ ≤ 1 / 2 ^ 50 * (n : ℝ) := by norm_num; linarith
  have e2' := abs_le.mp e2
  have e3 := hA.near (x := A.mul A.twoPi t / n) (M := 6.5) (by
    rw [abs_le]; norm_num at e2' p2 ⊢; constructor <;> linarith)
  have e3' : A.div (A.mul A.twoPi t) n = A.rnd (A.mul A.twoPi t / n) := rfl
  rw [← e3'] at e3
  rw [etp]
  generalize A.div (A.mul A.twoPi t) n = y at e3 ⊢
  have e4 := hA.near (x := y + R.raStart) (M := 13) (by
    rw [abs_le]; norm_num at e2' e3 hr' p2 ⊢; constructor <;> linarith)
  have e4' : A.add y R.raStart = A.rnd (y + R.raStart) := rfl
  rw [← e4'] at e4
  generalize A.add y R.raStart = x at e4 ⊢
  -- wrapped
  obtain ⟨k1, hk1⟩ := hA.wrap_near x
  obtain ⟨r1, r2⟩ := hA.wrap_range x
  generalize A.wrap x = ra at hk1 r1 r2 ⊢
  have hk1' := abs_le.mp hk1
  have e5 := hA.near (x := ra - R.raStart) (M := 13) (by
    rw [abs_le]; norm_num at r1 r2 hr' p2 ⊢; constructor <;> linarith)
  have e5' : A.sub ra R.raStart = A.rnd (ra - R.raStart) := rfl
  rw [← e5'] at e5
  generalize A.sub ra R.raStart = z at e5 ⊢
  obtain ⟨k2, hk2⟩ := hA.wrap_near z
  obtain ⟨w0, w1⟩ := hA.wrap_range z
  generalize A.wrap z = w at hk2 w0 w1 ⊢
  have hk2' := abs_le.mp hk2
  have key : |w - (A.twoPi * t / n - ((k1 + k2 : ℤ) : ℝ) * A.twoPi)| ≤ 1 / 2 ^ 46 := by
    push_cast
    rw [abs_le]
    norm_num at e2' e3 e4 hk1' e5 hk2' ⊢
    constructor <;> linarith
  generalize k1 + k2 = K at key
  have key' := abs_le.mp key
  have K0 : K ≤ 0 := by
    by_contra hc
    have : (1 : ℝ) ≤ K := by exact_mod_cast (by omega : 1 ≤ K)
    have hm : A.twoPi * 1 ≤ A.twoPi * K := by gcongr
    norm_num at key' hq hm
    linarith
  have K1 : -1 ≤ K := by
    by_contra hc
    have : (K : ℝ) ≤ -2 := by exact_mod_cast (by omega : K ≤ -2)
    have hm : A.twoPi * K ≤ A.twoPi * (-2) := by gcongr
    norm_num at key' hm
    linarith
  congr 1
  rcases (by omega : K = 0 ∨ K = -1) with rfl | rfl
  · rw [← etp, tract_near hA hpos hn' t0 t1.le w0 (by norm_num at key ⊢; linarith), if_neg (by omega)]
  · -- rounded down to nearly a full circle: the first tract
    have htz : t = 0 := by
      by_contra hc
      have h3 : (1 : ℝ) ≤ t := by exact_mod_cast (by omega : 1 ≤ t)
      have h4 : A.twoPi * 1 / n ≤ A.twoPi * t / n := by gcongr
      norm_num at key' h4 hq
      linarith
    subst htz
    have e6 : A.twoPi * ((n : ℤ) : ℝ) / n = A.twoPi := by field_simp
    rw [← etp, tract_near hA hpos hn' (t := n) (by omega) (le_refl _) w0 (by
      rw [e6]
      have e7 : w - (A.twoPi * ((0 : ℤ) : ℝ) / n - ((-1 : ℤ) : ℝ) * A.twoPi) = w - A.twoPi := by push_cast; ring
      rw [e7] at key
      norm_num at key ⊢
      linarith), if_pos rfl]

/-- The start of the first ring lies between the pole and the equator. -/
theorem first_bounds (hA : A.Ieee) (hh : A.HalfPi) (h : Rings.new A c v = .ok R) (h1 : 1 ≤ c.numRings) (h2 : c.numRings ≤ 2 ^ 31) :
    -(A.pi / 2) < R.firstRingStart A := by
  obtain ⟨e1, -, -, e4, -, -⟩ := new_attr h
  have h1' : (1 : ℝ) ≤ c.numRings := by exact_mod_cast h1
  have h2' : (c.numRings : ℝ) ≤ 2 ^ 31 := by exact_mod_cast h2
  obtain ⟨b1, b2, b3, b4⟩ := size_bounds hA h1' h2'
  rw [← e4] at b1 b2 b3 b4
  obtain ⟨p1, p2⟩ := hA.pi_range
  have hs : 3 / (2 ^ 31 + 1) ≤ R.ringSize := le_trans (by gcongr) b3
  unfold FloatArith.HalfPi at hh
  have f1 := hA.near (x := R.ringSize * (1 / 2)) (M := 0.8) (by rw [abs_of_nonneg (by linarith)]; norm_num at b4 ⊢; linarith)
  have f1' : A.mul R.ringSize (1 / 2) = A.rnd (R.ringSize * (1 / 2)) := rfl
  rw [← f1'] at f1
  have f5 := hA.near (x := A.mul R.ringSize (1 / 2) - A.pi / 2) (M := 1.6) (by
    rw [abs_le]; norm_num at f1 b4 p1 p2 hs ⊢; constructor <;> linarith)
  have f6 : R.firstRingStart A = A.rnd (A.mul R.ringSize (1 / 2) - A.pi / 2) := by rw [firstRingStart, hh]; rfl
  rw [← f6] at f5
  norm_num at f1 f5 hs ⊢
  linarith

theorem raStart_bound (hA : A.Ieee) (h : Rings.new A c v = .ok R) (hr : |c.raStart| ≤ 360) : |R.raStart| ≤ 6.4 := by
  obtain ⟨-, -, -, -, -, e6⟩ := new_attr h
  obtain ⟨p1, p2⟩ := hA.pi_range
  have hpp := abs_le.mp hA.pi_err
  have q := hA.near (x := A.pi / 180) (M := 0.0176) (by
    rw [abs_of_nonneg (by linarith)]; norm_num at p2 ⊢; linarith)
  have q' : A.div A.pi 180 = A.rnd (A.pi / 180) := rfl
  rw [← q'] at q
  have d0 : |A.div A.pi 180| ≤ 0.01755 := by
    rw [abs_le]; norm_num at q p1 p2 ⊢; constructor <;> linarith
  have d1 : |c.raStart * A.div A.pi 180| ≤ 6.318 := by
    rw [abs_mul]
    calc |c.raStart| * |A.div A.pi 180| ≤ 360 * 0.01755 := by gcongr
      _ ≤ 6.318 := by norm_num
  have d2 := hA.near d1
  rw [e6, FloatArith.deg2rad, FloatArith.mul]
  have d1' := abs_le.mp d1
  rw [abs_le]; norm_num at d1' d2 ⊢; constructor <;> linarith

/-- C28 with rounding: for any number of rings that the SHA1 can encode and a start within a full circle, every tract has a
centre, a legal position, and looking it up finds the tract. -/
theorem C28_rounding (hA : A.Ieee) (hh : A.HalfPi) (h : Rings.new A c 1 = .ok R) (h1 : 1 ≤ c.numRings) (h2 : c.numRings ≤ 2 ^ 31)
    (hr : |c.raStart| ≤ 360) {i : Int} (hi : 0 ≤ i ∧ i < R.numTracts) :
    ∃ p, R.center A i = .ok p ∧ (0 ≤ p.lon ∧ p.lon < A.twoPi) ∧ |p.lat| ≤ A.pi / 2 ∧ R.findIndex A p = .ok i := by
  obtain ⟨wf, w33⟩ := new_wf_rounding hA h h1 h2
  obtain ⟨e1, hv, -, -, -, -⟩ := new_attr h
  obtain ⟨p1, p2⟩ := hA.pi_range
  obtain ⟨t1, t2⟩ := hA.twoPi_range
  have hf := first_bounds hA hh h h1 h2
  have hf0 := first_nonpos hA h h1 h2
  have w0 : A.wrap 0 = 0 := hA.wrap_id (le_refl _) (by linarith)
  have hh' : A.mul (1 / 2) A.pi = A.pi / 2 := hh
  have hab : |A.pi / 2| = A.pi / 2 := abs_of_pos (by linarith)
  rcases wf.index_cases hi with rfl | rfl | ⟨k, n, u, hk, h3, h4, rfl⟩
  · refine ⟨⟨0, -(A.pi / 2)⟩, ?_, ⟨le_refl _, by dsimp only; linarith⟩, ?_, ?_⟩
    · unfold center
      rw [getRingIndices_south]
      simp only [bind, Except.bind, if_true, FloatArith.point, hh', abs_neg, hab, gt_iff_lt, lt_irrefl, if_false, w0]
    · dsimp only; rw [abs_neg, hab]
    · unfold findIndex
      dsimp only
      rw [decToRingNum, if_pos hf, if_pos rfl]
  · refine ⟨⟨0, A.pi / 2⟩, ?_, ⟨le_refl _, by dsimp only; linarith⟩, ?_, ?_⟩
    · unfold center
      rw [wf.getRingIndices_north]
      have q1 : ¬ ((R.config.numRings : Int) = -1) := by omega
      simp only [bind, Except.bind, q1, if_false, if_true, FloatArith.point, hh', hab, gt_iff_lt, lt_irrefl, w0]
    · dsimp only; rw [hab]
    · unfold findIndex
      dsimp only
      have : R.decToRingNum A (A.pi / 2) = R.config.numRings := by
        rw [decToRingNum, if_neg (by linarith), if_pos (by linarith)]
      rw [this, if_neg (by omega), if_pos rfl]
  · have hk' := wf.lt_numRings hk
    rw [e1] at hk'
    obtain ⟨d1, d2⟩ := ring_center_dec hA hh h h1 h2 hk'
    have hra := ring_center_ra hA wf hk (w33 n (List.mem_of_getElem? hk)) h3 h4 (raStart_bound hA h hr)
    obtain ⟨r1, r2⟩ := hA.wrap_range (A.add (A.div (A.mul (A.mul 2 A.pi) u) n) R.raStart)
    refine ⟨⟨A.wrap (A.add (A.div (A.mul (A.mul 2 A.pi) u) n) R.raStart),
      A.sub (A.mul R.ringSize ((k : ℝ) + 1)) (A.mul (1 / 2) A.pi)⟩, ?_, ⟨r1, r2⟩, d1, ?_⟩
    · unfold center
      rw [wf.getRingIndices_ring hv hk h3 h4]
      have q1 : ¬ ((k : Int) = -1) := by omega
      have q2 : ¬ ((k : Int) = (R.config.numRings : Int)) := by rw [e1]; omega
      simp only [bind, Except.bind, q1, q2, if_false, CachingSkyMap.pyGetItem_nat hk, FloatArith.point, Int.cast_natCast,
        gt_iff_lt, not_lt.mpr d1, hA.wrap_id r1 r2]
    · unfold findIndex
      dsimp only
      rw [d2, e1, if_neg (by omega), if_neg (by omega), hra]
      simp only [bind, Except.bind, pure, Except.pure, hv]
      rw [if_neg (by omega), sumTo_nat]
      congr 1; omega

/-- C28 with rounding: distinct tracts have distinct centres. -/
theorem C28_rounding_distinct (hA : A.Ieee) (hh : A.HalfPi) (h : Rings.new A c 1 = .ok R) (h1 : 1 ≤ c.numRings)
    (h2 : c.numRings ≤ 2 ^ 31) (hr : |c.raStart| ≤ 360) {i j : Int} (hi : 0 ≤ i ∧ i < R.numTracts) (hj : 0 ≤ j ∧ j < R.numTracts)
    (he : R.center A i = R.center A j) : i = j := by
  obtain ⟨p, q1, -, -, q2⟩ := C28_rounding hA hh h h1 h2 hr hi
  obtain ⟨q, q3, -, -, q4⟩ := C28_rounding hA hh h h1 h2 hr hj
  rw [q1, q3] at he
  simp only [Except.ok.injEq] at he
  rw [he, q4] at q2
  exact (Except.ok.inj q2).symm

end Rings

/-- Exact arithmetic halves exactly. -/
theorem FloatArith.exact_halfPi : FloatArith.exact.HalfPi := by
  change 1 / 2 * Real.pi = Real.pi / 2
  ring

/-- Double precision arithmetic halves pi exactly. -/
theorem FloatArith.double_halfPi : FloatArith.double.HalfPi := by
  have hp := FloatArith.double_ieee.pi_range
  have h3 := Real.pi_gt_three
  have hl : Int.log 2 Real.pi = 1 := by
    have h1 := Real.pi_lt_d2
    have a : (1 : ℤ) ≤ Int.log 2 Real.pi := by
      rw [← Int.zpow_le_iff_le_log (by norm_num) Real.pi_pos]; norm_num; linarith
    have b : Int.log 2 Real.pi < 2 := by
      rw [← Int.lt_zpow_iff_log_lt (by norm_num) Real.pi_pos]; norm_num at h1 ⊢; linarith
    omega
  have hy : FloatArith.double.pi = ⌊Real.pi * 2 ^ (51 : ℤ) + 1 / 2⌋ * (2 : ℝ) ^ (-51 : ℤ) := by
    change rnd53 Real.pi = _
    rw [rnd53, if_neg (by linarith), round53]
    rw [hl]; norm_num
  generalize hF : ⌊Real.pi * 2 ^ (51 : ℤ) + 1 / 2⌋ = F at hy
  generalize hq : FloatArith.double.pi = y at hy hp
  change rnd53 (1 / 2 * FloatArith.double.pi) = FloatArith.double.pi / 2
  rw [hq]
  have hpos : 0 < 1 / 2 * y := by linarith
  have hl2 : Int.log 2 (1 / 2 * y) = 0 := by
    have a : (0 : ℤ) ≤ Int.log 2 (1 / 2 * y) := by
      rw [← Int.zpow_le_iff_le_log (by norm_num) hpos]; norm_num; linarith
    have b : Int.log 2 (1 / 2 * y) < 1 := by
      rw [← Int.lt_zpow_iff_log_lt (by norm_num) hpos]; norm_num at hp ⊢; linarith
    omega
  rw [rnd53, if_neg (by linarith), round53]
  rw [hl2]
  have e : 1 / 2 * y * (2 : ℝ) ^ (52 - 0 : ℤ) = F := by
    rw [hy, show ((52 : ℤ) - 0) = 51 + 1 by norm_num, zpow_add₀ (by norm_num), zpow_neg]
    field_simp
  rw [e, add_comm, Int.floor_add_intCast, show ⌊(1 / 2 : ℝ)⌋ = 0 by norm_num, zero_add, hy,
    show ((0 : ℤ) - 52) = -51 - 1 by norm_num, zpow_sub_one₀ (by norm_num)]
  ring

/-- The assumptions of `C28_rounding` hold of double precision arithmetic and a sky map of 120 rings. -/
example : ∃ (R : Rings ℝ), Rings.new FloatArith.double ⟨120, 0, 1 / 60⟩ 1 = .ok R ∧
    ∀ i, 0 ≤ i ∧ i < R.numTracts → ∃ p, R.center FloatArith.double i = .ok p ∧ R.findIndex FloatArith.double p = .ok i := by
  refine ⟨_, rfl, fun i hi => ?_⟩
  obtain ⟨p, a, -, -, b⟩ := Rings.C28_rounding (c := ⟨120, 0, 1 / 60⟩) FloatArith.double_ieee FloatArith.double_halfPi rfl (by norm_num)
    (by norm_num) (by simp) hi
  exact ⟨p, a, b⟩

end Skymap
