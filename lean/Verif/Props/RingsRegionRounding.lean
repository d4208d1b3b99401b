import Verif.Props.RingsRegion

/-! # C55 with rounding: the inner sky region of the tract found is next to the position, if it does not contain it -/

set_option linter.unusedSectionVars false

namespace Skymap
namespace Rings
variable {A : FloatArith ℝ} {c : RingsConfig ℝ} {R : Rings ℝ} {v : Int}
variable {env : FloatEnv ℝ} {ops : SkyOps (SpherePoint ℝ) ℝ} {mk : SpherePoint ℝ → Wcs (SpherePoint ℝ) ℝ} {b₀ : TractBuilder}
variable {s s' : MapState (SpherePoint ℝ) ℝ} {r : TractRef (SpherePoint ℝ) ℝ}

/-- The bounds of a ring that `getRaDecRange` computes. -/
theorem decBound (hA : A.Ieee) (h : Rings.new A c v = .ok R) (h1 : 1 ≤ c.numRings) (h2 : c.numRings ≤ 2 ^ 31) {x : ℝ} (hx0 : 0 ≤ x)
    (hx1 : x ≤ c.numRings + 1) : |A.add (A.div (-A.pi) 2) (A.mul (A.rnd x) R.ringSize) - (-A.pi / 2 + x * R.ringSize)| ≤ 1 / 2 ^ 48 := by
  obtain ⟨e1, -, -, e4, -, -⟩ := new_attr h
  have h1' : (1 : ℝ) ≤ c.numRings := by exact_mod_cast h1
  have h2' : (c.numRings : ℝ) ≤ 2 ^ 31 := by exact_mod_cast h2
  obtain ⟨b1, b2, b3, b4⟩ := size_bounds hA h1' h2'
  rw [← e4] at b1 b2 b3 b4
  obtain ⟨p1, p2⟩ := hA.pi_range
  have b1' := abs_le.mp b1
  have d := hA.near (x := -A.pi / 2) (M := 1.6) (by rw [abs_le]; norm_num at p2 ⊢; constructor <;> linarith)
  have d' : A.div (-A.pi) 2 = A.rnd (-A.pi / 2) := rfl
  rw [← d'] at d
  generalize A.div (-A.pi) 2 = u at d ⊢
  have g := hA.near (x := x) (M := c.numRings + 1) (by rw [abs_of_nonneg hx0]; exact hx1)
  have g0 := hA.nonneg hx0
  generalize A.rnd x = y at g g0 ⊢
  have hsN : R.ringSize * (c.numRings + 1) ≤ 3.2 := by have := b1'.2; norm_num at this p2 ⊢; linarith
  have y1 : |y * R.ringSize - x * R.ringSize| ≤ 1 / 2 ^ 51 := by
    rw [← sub_mul, abs_mul, abs_of_pos b2]
    have : |y - x| ≤ (c.numRings + 1) / 2 ^ 53 + 1 / 2 ^ 100 := by rw [abs_le]; constructor <;> linarith
    calc |y - x| * R.ringSize ≤ ((c.numRings + 1) / 2 ^ 53 + 1 / 2 ^ 100) * R.ringSize := by gcongr
      _ = R.ringSize * (c.numRings + 1) / 2 ^ 53 + R.ringSize / 2 ^ 100 := by ring
      _ ≤ 3.2 / 2 ^ 53 + 1.6 / 2 ^ 100 := by gcongr
      _ ≤ _ := by norm_num
  have y1' := abs_le.mp y1
  have xs : x * R.ringSize ≤ 3.2 := by
    calc x * R.ringSize ≤ (c.numRings + 1) * R.ringSize := by gcongr
      _ ≤ 3.2 := by linarith
  have xs0 : 0 ≤ x * R.ringSize := by positivity
  have m := hA.near (x := y * R.ringSize) (M := 3.3) (by
    rw [abs_le]; norm_num at y1' xs ⊢; constructor <;> linarith)
  have m' : A.mul y R.ringSize = A.rnd (y * R.ringSize) := rfl
  rw [← m'] at m
  generalize A.mul y R.ringSize = z at m ⊢
  have w := hA.near (x := u + z) (M := 2) (by
    rw [abs_le]; norm_num at d m y1' xs p1 p2 ⊢; constructor <;> linarith)
  have w' : A.add u z = A.rnd (u + z) := rfl
  rw [← w'] at w
  rw [abs_le]
  norm_num at d m w y1' ⊢
  constructor <;> linarith

/-- Where the ring number says the position is. -/
theorem dec_near (hA : A.Ieee) (h : Rings.new A c v = .ok R) (h1 : 1 ≤ c.numRings) (h2 : c.numRings ≤ 2 ^ 31) (lat : ℝ) :
    (R.decToRingNum A lat < c.numRings → lat ≤ -A.pi / 2 + (R.decToRingNum A lat + 3 / 2) * R.ringSize + 1 / 2 ^ 48) ∧
    (-1 < R.decToRingNum A lat → -A.pi / 2 + (R.decToRingNum A lat + 1 / 2) * R.ringSize - 1 / 2 ^ 48 ≤ lat) := by
  obtain ⟨e1, -, -, e4, -, -⟩ := new_attr h
  have h1' : (1 : ℝ) ≤ c.numRings := by exact_mod_cast h1
  have h2' : (c.numRings : ℝ) ≤ 2 ^ 31 := by exact_mod_cast h2
  obtain ⟨b1, b2, b3, b4⟩ := size_bounds hA h1' h2'
  rw [← e4] at b1 b2 b3 b4
  obtain ⟨p1, p2⟩ := hA.pi_range
  have b1' := abs_le.mp b1
  have hs : 3 / (2 ^ 31 + 1) ≤ R.ringSize := le_trans (by gcongr) b3
  have f1 := hA.near (x := R.ringSize * (1 / 2)) (M := 0.8) (by rw [abs_of_nonneg (by linarith)]; norm_num at b4 ⊢; linarith)
  have f1' : A.mul R.ringSize (1 / 2) = A.rnd (R.ringSize * (1 / 2)) := rfl
  rw [← f1'] at f1
  have f2 := hA.near (x := 1 / 2 * A.pi) (M := 1.6) (by rw [abs_of_nonneg (by linarith)]; linarith)
  have f2' : A.mul (1 / 2) A.pi = A.rnd (1 / 2 * A.pi) := rfl
  rw [← f2'] at f2
  have f5 := hA.near (x := A.mul R.ringSize (1 / 2) - A.mul (1 / 2) A.pi) (M := 1.7) (by
    rw [abs_le]; norm_num at f1 f2 b4 p1 p2 hs ⊢; constructor <;> linarith)
  have f6 : R.firstRingStart A = A.rnd (A.mul R.ringSize (1 / 2) - A.mul (1 / 2) A.pi) := rfl
  rw [← f6] at f5
  have f7 : |R.firstRingStart A - (R.ringSize / 2 - A.pi / 2)| ≤ 1 / 2 ^ 50 := by
    rw [abs_le]; norm_num at f1 f2 f5 ⊢; constructor <;> linarith
  have f7' := abs_le.mp f7
  generalize hf : R.firstRingStart A = f at f7'
  unfold decToRingNum
  rw [hf, e1]
  split
  · next g =>
    refine ⟨fun _ => ?_, fun hc => by omega⟩
    push_cast
    norm_num at f7' ⊢
    linarith
  next g =>
  split
  · next g' =>
    refine ⟨fun hc => by omega, fun _ => ?_⟩
    push_cast
    norm_num at f7' b1' ⊢
    nlinarith
  next g' =>
  have x0 : 0 ≤ lat - f := by linarith
  have x1 : lat - f ≤ A.pi - R.ringSize + 1 / 2 ^ 49 := by norm_num at f7' ⊢; linarith
  have k3 := hA.near (x := lat - f) (M := 3.2) (by
    rw [abs_of_nonneg x0]; norm_num at x1 p2 ⊢; linarith)
  have k0 : 0 ≤ A.sub lat f := hA.nonneg x0
  have k3' : A.sub lat f = A.rnd (lat - f) := rfl
  rw [← k3'] at k3
  generalize A.sub lat f = y at k0 k3 ⊢
  have q0 : 0 ≤ y / R.ringSize := div_nonneg k0 b2.le
  have q1 : y / R.ringSize ≤ c.numRings + 1 := by
    rw [div_le_iff₀ b2]; norm_num at k3 x1 b1' hs ⊢; linarith
  have q2 := hA.near (x := y / R.ringSize) (M := c.numRings + 1) (by rw [abs_of_nonneg q0]; exact q1)
  have q3 : 0 ≤ A.div y R.ringSize := hA.nonneg q0
  have q2' : A.div y R.ringSize = A.rnd (y / R.ringSize) := rfl
  rw [← q2'] at q2
  rw [pyTrunc_nonneg q3]
  have fl := Int.floor_le (A.div y R.ringSize)
  have fu := Int.lt_floor_add_one (A.div y R.ringSize)
  generalize (⌊A.div y R.ringSize⌋ : Int) = k at fl fu ⊢
  have hsN : R.ringSize * (c.numRings + 1) ≤ 3.2 := by have := b1'.2; norm_num at this p2 ⊢; linarith
  have z1 : R.ringSize * A.div y R.ringSize ≤ y + 1 / 2 ^ 50 := by
    calc R.ringSize * A.div y R.ringSize ≤ R.ringSize * (y / R.ringSize + ((c.numRings + 1) / 2 ^ 53 + 1 / 2 ^ 100)) := by gcongr; exact q2.2
      _ = y + R.ringSize * (c.numRings + 1) / 2 ^ 53 + R.ringSize / 2 ^ 100 := by field_simp; ring
      _ ≤ y + 3.2 / 2 ^ 53 + 1.6 / 2 ^ 100 := by gcongr
      _ ≤ _ := by norm_num; linarith
  have z2 : y - 1 / 2 ^ 50 ≤ R.ringSize * A.div y R.ringSize := by
    calc y - 1 / 2 ^ 50 ≤ y - 3.2 / 2 ^ 53 - 1.6 / 2 ^ 100 := by norm_num; linarith
      _ ≤ y - R.ringSize * (c.numRings + 1) / 2 ^ 53 - R.ringSize / 2 ^ 100 := by gcongr
      _ = R.ringSize * (y / R.ringSize - ((c.numRings + 1) / 2 ^ 53 + 1 / 2 ^ 100)) := by field_simp; ring
      _ ≤ _ := by gcongr; exact q2.1
  constructor
  · intro _
    have := mul_le_mul_of_nonneg_left fu.le b2.le
    norm_num at k3 z1 z2 f7' ⊢
    linarith
  · intro _
    have := mul_le_mul_of_nonneg_left fl b2.le
    norm_num at k3 z1 z2 f7' ⊢
    linarith

/-- What the tract number says about the angle. -/
theorem tract_bounds (hA : A.Ieee) {n : Int} (hn : 0 < n) (hn' : n ≤ 2 ^ 33) {w : ℝ} (w0 : 0 ≤ w) (w1 : w ≤ A.twoPi) :
    A.twoPi * (pyTrunc (A.add (A.div w (A.div (A.mul 2 A.pi) n)) (1 / 2)) - 1 / 2) / n - 1 / 2 ^ 47 ≤ w ∧
      w ≤ A.twoPi * (pyTrunc (A.add (A.div w (A.div (A.mul 2 A.pi) n)) (1 / 2)) + 1 / 2) / n + 1 / 2 ^ 47 := by
  have hn1 : (1 : ℝ) ≤ n := by exact_mod_cast (by omega : 1 ≤ n)
  have hn2 : (n : ℝ) ≤ 2 ^ 33 := by exact_mod_cast hn'
  obtain ⟨T0, T1⟩ := tract_quot hA hn hn' w0 (by
    have := hA.twoPi_range.1; norm_num at this ⊢; linarith)
  have etp : A.mul 2 A.pi = A.twoPi := rfl
  rw [etp] at T0 T1 ⊢
  obtain ⟨p1, p2⟩ := hA.twoPi_range
  have q0 : 0 < A.twoPi / n := div_pos (by linarith) (by linarith)
  have q7 : 6 / 2 ^ 33 ≤ A.twoPi / n := by
    have h : (6 : ℝ) / 2 ^ 33 ≤ A.twoPi / 2 ^ 33 := by gcongr; linarith
    refine h.trans ?_
    have : (0 : ℝ) ≤ A.twoPi := by linarith
    gcongr
  have he := hA.err' (A.twoPi / n)
  rw [abs_of_pos q0] at he
  have hD : A.div A.twoPi n = A.rnd (A.twoPi / n) := rfl
  rw [← hD] at he
  generalize A.div A.twoPi n = D at he T0 T1 ⊢
  have he' := abs_le.mp he
  have hDlow : 3 / 2 ^ 33 ≤ D := by norm_num at he' q7 ⊢; linarith
  have hDpos : 0 < D := lt_of_lt_of_le (by positivity) hDlow
  -- the width of a tract times the number of tracts
  have hDn : |D * n - A.twoPi| ≤ 1 / 2 ^ 49 := by
    have e : D * n - A.twoPi = (D - A.twoPi / n) * n := by field_simp
    rw [e, abs_mul, abs_of_nonneg (by linarith : (0 : ℝ) ≤ n)]
    calc |D - A.twoPi / n| * n ≤ (A.twoPi / n / 2 ^ 53 + 1 / 2 ^ 100) * n := by gcongr
      _ = A.twoPi / 2 ^ 53 + n / 2 ^ 100 := by field_simp
      _ ≤ 6.4 / 2 ^ 53 + 2 ^ 33 / 2 ^ 100 := by gcongr
      _ ≤ 1 / 2 ^ 49 := by norm_num
  have hDn' := abs_le.mp hDn
  -- the quotient
  have k0 : 0 ≤ w / D := div_nonneg w0 hDpos.le
  have k1 : w / D ≤ n + 1 := by
    rw [div_le_iff₀ hDpos, show ((n : ℝ) + 1) * D = D * n + D by ring]; norm_num at hDn' hDlow ⊢; linarith
  have k2 := hA.near (x := w / D) (M := n + 1) (by rw [abs_of_nonneg k0]; exact k1)
  have k3 : 0 ≤ A.div w D := hA.nonneg k0
  have hq : A.div w D = A.rnd (w / D) := rfl
  rw [← hq] at k2
  generalize A.div w D = y at k2 k3 T0 T1 ⊢
  have k4 := hA.near (x := y + 1 / 2) (M := n + 2) (by
    rw [abs_of_nonneg (by linarith)]; norm_num at k2 hn2 ⊢; linarith)
  have k5 : 0 ≤ A.add y (1 / 2) := hA.nonneg (by linarith)
  have hq2 : A.add y (1 / 2) = A.rnd (y + 1 / 2) := rfl
  rw [← hq2] at k4
  rw [pyTrunc_nonneg k5] at T0 T1 ⊢
  have fl := Int.floor_le (A.add y (1 / 2))
  have fu := Int.lt_floor_add_one (A.add y (1 / 2))
  generalize A.add y (1 / 2) = z at k4 k5 fl fu T0 T1 ⊢
  generalize (⌊z⌋ : Int) = t at fl fu T0 T1 ⊢
  have ht0 : (0 : ℝ) ≤ t := by exact_mod_cast T0
  have ht1 : (t : ℝ) ≤ n := by exact_mod_cast T1
  have hwD : w / D * D = w := by field_simp
  have eps : D * ((2 * n + 3) / 2 ^ 53 + 2 / 2 ^ 100) ≤ 2.5 / 2 ^ 49 := by
    have : D * ((2 * n + 3) / 2 ^ 53 + 2 / 2 ^ 100) ≤ D * (6 * n / 2 ^ 53) := by
      apply mul_le_mul_of_nonneg_left _ hDpos.le
      norm_num
      linarith
    refine this.trans ?_
    have e : D * (6 * n / 2 ^ 53) = D * n * (6 / 2 ^ 53) := by ring
    rw [e]
    have hd2 := hDn'.2
    generalize D * n = E at hd2 ⊢
    clear * - hd2 p2
    norm_num at hd2 p2 ⊢
    linarith
  have Dt : ∀ a : ℝ, -(1 / 2) ≤ a → a ≤ n + 1 / 2 → |D * a - A.twoPi * a / n| ≤ 1.5 / 2 ^ 49 := by
    intro a a0 a1
    have e : D * a - A.twoPi * a / n = (D * n - A.twoPi) * (a / n) := by field_simp
    rw [e, abs_mul]
    have ha : |a / n| ≤ 1.5 := by
      rw [abs_le, le_div_iff₀ (by linarith), div_le_iff₀ (by linarith)]
      constructor <;> linarith
    calc |D * n - A.twoPi| * |a / n| ≤ 1 / 2 ^ 49 * 1.5 := by gcongr
      _ = _ := by norm_num
  have u1 := abs_le.mp (Dt (t - 1 / 2) (by linarith) (by linarith))
  have u2 := abs_le.mp (Dt (t + 1 / 2) (by linarith) (by linarith))
  have v1 : (t : ℝ) - 1 / 2 - ((2 * n + 3) / 2 ^ 53 + 2 / 2 ^ 100) ≤ w / D := by
    have : ((2 * n + 3 : ℝ)) / 2 ^ 53 = (n + 1) / 2 ^ 53 + (n + 2) / 2 ^ 53 := by ring
    rw [this]
    norm_num at k2 k4 ⊢
    linarith
  have v2 : w / D ≤ (t : ℝ) + 1 / 2 + ((2 * n + 3) / 2 ^ 53 + 2 / 2 ^ 100) := by
    have : ((2 * n + 3 : ℝ)) / 2 ^ 53 = (n + 1) / 2 ^ 53 + (n + 2) / 2 ^ 53 := by ring
    rw [this]
    norm_num at k2 k4 ⊢
    linarith
  have m1 := mul_le_mul_of_nonneg_right v1 hDpos.le
  have m2 := mul_le_mul_of_nonneg_right v2 hDpos.le
  rw [hwD] at m1 m2
  constructor
  · have : ((t : ℝ) - 1 / 2 - ((2 * n + 3) / 2 ^ 53 + 2 / 2 ^ 100)) * D =
        D * (t - 1 / 2) - D * ((2 * n + 3) / 2 ^ 53 + 2 / 2 ^ 100) := by ring
    rw [this] at m1
    generalize D * ((2 * n + 3) / 2 ^ 53 + 2 / 2 ^ 100) = E at *
    have u := u1.1
    clear * - u m1 eps
    norm_num at u eps m1 ⊢
    linarith
  · have : ((t : ℝ) + 1 / 2 + ((2 * n + 3) / 2 ^ 53 + 2 / 2 ^ 100)) * D =
        D * (t + 1 / 2) + D * ((2 * n + 3) / 2 ^ 53 + 2 / 2 ^ 100) := by ring
    rw [this] at m2
    generalize D * ((2 * n + 3) / 2 ^ 53 + 2 / 2 ^ 100) = E at *
    have u := u2.2
    clear * - u m2 eps
    norm_num at u eps m2 ⊢
    linarith

/-- The angle of an end of a tract that `getRaDecRange` computes. -/
theorem delta_near (hA : A.Ieee) {n : ℝ} (hn : 1 ≤ n) {a : ℝ} (ha : |a| ≤ n) :
    |A.div (A.mul (A.mul (A.rnd a) 2) A.pi) n - A.twoPi * a / n| ≤ 1 / 2 ^ 47 := by
  obtain ⟨p1, p2⟩ := hA.pi_range
  have ha' := abs_le.mp ha
  have y1 := hA.near ha
  generalize A.rnd a = y at y1 ⊢
  have hy : |y * 2| ≤ 3 * n := by rw [abs_le]; norm_num at y1 ⊢; constructor <;> linarith
  have z1 := hA.near hy
  have z1' : A.mul y 2 = A.rnd (y * 2) := rfl
  rw [← z1'] at z1
  generalize A.mul y 2 = z at z1 ⊢
  have hz : |z - 2 * a| ≤ 6 * n / 2 ^ 53 := by rw [abs_le]; norm_num at y1 z1 ⊢; constructor <;> linarith
  have hz2 : |z * A.pi| ≤ 7 * n := by
    rw [abs_mul, abs_of_pos (by linarith : 0 < A.pi)]
    have hzn : |z| ≤ 2.1 * n := by
      have := abs_le.mp hz
      rw [abs_le]; norm_num at this ⊢; constructor <;> linarith
    calc |z| * A.pi ≤ 2.1 * n * 3.15 := by gcongr
      _ ≤ 7 * n := by norm_num; linarith
  have w1 := hA.near hz2
  have w1' : A.mul z A.pi = A.rnd (z * A.pi) := rfl
  rw [← w1'] at w1
  generalize A.mul z A.pi = w at w1 ⊢
  have hzp : |z * A.pi - 2 * A.pi * a| ≤ 20 * n / 2 ^ 53 := by
    have : z * A.pi - 2 * A.pi * a = (z - 2 * a) * A.pi := by ring
    rw [this, abs_mul, abs_of_pos (by linarith : 0 < A.pi)]
    calc |z - 2 * a| * A.pi ≤ 6 * n / 2 ^ 53 * 3.15 := by gcongr
      _ ≤ _ := by norm_num; linarith
  have hzp' := abs_le.mp hzp
  have hw : |w - 2 * A.pi * a| ≤ 28 * n / 2 ^ 53 := by
    rw [abs_le]; norm_num at hzp' w1 ⊢; constructor <;> linarith
  have t1 := hA.near (x := 2 * A.pi) (M := 6.4) (by rw [abs_of_nonneg (by linarith)]; linarith)
  have t1' : A.twoPi = A.rnd (2 * A.pi) := rfl
  rw [← t1'] at t1
  have hT : |2 * A.pi * a - A.twoPi * a| ≤ 7 * n / 2 ^ 53 := by
    rw [← sub_mul, abs_mul]
    have : |2 * A.pi - A.twoPi| ≤ 7 / 2 ^ 53 := by rw [abs_le]; norm_num at t1 ⊢; constructor <;> linarith
    calc |2 * A.pi - A.twoPi| * |a| ≤ 7 / 2 ^ 53 * n := by gcongr
      _ = _ := by ring
  have hwT : |w / n - A.twoPi * a / n| ≤ 35 / 2 ^ 53 := by
    rw [← sub_div, abs_div, abs_of_pos (by linarith : 0 < n), div_le_iff₀ (by linarith)]
    have := abs_sub_le w (2 * A.pi * a) (A.twoPi * a)
    calc |w - A.twoPi * a| ≤ 28 * n / 2 ^ 53 + 7 * n / 2 ^ 53 := by linarith
      _ = 35 / 2 ^ 53 * n := by ring
  obtain ⟨T1, T2⟩ := hA.twoPi_range
  have hb : |A.twoPi * a / n| ≤ 6.4 := by
    rw [abs_div, abs_of_pos (by linarith : 0 < n), div_le_iff₀ (by linarith), abs_mul, abs_of_pos (by linarith : 0 < A.twoPi)]
    gcongr
  have hwT' := abs_le.mp hwT
  have hb' := abs_le.mp hb
  have v1 := hA.near (x := w / n) (M := 7) (by rw [abs_le]; norm_num at hwT' hb' ⊢; constructor <;> linarith)
  have v1' : A.div w n = A.rnd (w / n) := rfl
  rw [← v1'] at v1
  rw [abs_le]
  norm_num at v1 hwT' ⊢
  constructor <;> linarith

/-- A position that is up to `e` on the arc between two angles known up to `e` is up to `2 e` on the arc between them. -/
theorem arc_near {T e lo W a b x : ℝ} {m m' k : ℤ} (he : 0 ≤ e) (hT : W + 4 * e < T) (hW : 4 * e < W) (ha : 0 ≤ a ∧ a < T)
    (hb : 0 ≤ b ∧ b < T) (hx : 0 ≤ x ∧ x < T) (ea : |a - (lo - m * T)| ≤ e) (eb : |b - (lo + W - m' * T)| ≤ e)
    (h1 : lo - e ≤ x - k * T) (h2 : x - k * T ≤ lo + W + e) :
    ∃ q, (∃ j : ℤ, |q - x - j * T| ≤ 2 * e) ∧ (if a ≤ b then a ≤ q ∧ q ≤ b else a ≤ q ∨ q ≤ b) := by
  have ea' := abs_le.mp ea
  have eb' := abs_le.mp eb
  by_cases c1 : x - k * T ≤ lo + e
  · refine ⟨a, ⟨-(k + m), ?_⟩, ?_⟩
    · push_cast
      rw [abs_le]; constructor <;> nlinarith
    · split
      · next h => exact ⟨le_refl _, h⟩
      · exact .inl (le_refl _)
  by_cases c2 : lo + W - e ≤ x - k * T
  · refine ⟨b, ⟨-(k + m'), ?_⟩, ?_⟩
    · push_cast
      rw [abs_le]; constructor <;> nlinarith
    · split
      · next h => exact ⟨h, le_refl _⟩
      · exact .inr (le_refl _)
  refine ⟨x, ⟨0, by simp; exact he⟩, ?_⟩
  rw [not_le] at c1 c2
  have T0 : 0 < T := by linarith
  -- full circles between the three angles
  have n1 : k + m = 0 ∨ k + m = -1 := by
    have e1 : x - a = ((k + m : ℤ) : ℝ) * T + (x - k * T - lo) - (a - (lo - m * T)) := by push_cast; ring
    have u : k + m < 1 := by
      by_contra hc
      have : (1 : ℝ) ≤ ((k + m : ℤ) : ℝ) := by exact_mod_cast (by omega : 1 ≤ k + m)
      nlinarith
    have l : -2 < k + m := by
      by_contra hc
      have : ((k + m : ℤ) : ℝ) ≤ -2 := by exact_mod_cast (by omega : k + m ≤ -2)
      nlinarith
    omega
  have n2 : k + m' = 0 ∨ k + m' = 1 := by
    have e1 : b - x = -((k + m' : ℤ) : ℝ) * T + (lo + W - (x - k * T)) + (b - (lo + W - m' * T)) := by push_cast; ring
    have l : -1 < k + m' := by
      by_contra hc
      have : ((k + m' : ℤ) : ℝ) ≤ -1 := by exact_mod_cast (by omega : k + m' ≤ -1)
      nlinarith
    have u : k + m' < 2 := by
      by_contra hc
      have : (2 : ℝ) ≤ ((k + m' : ℤ) : ℝ) := by exact_mod_cast (by omega : 2 ≤ k + m')
      nlinarith
    omega
  have ha2 : k + m = 0 → a ≤ x := by
    intro h
    have h' : (k : ℝ) + m = 0 := by exact_mod_cast h
    nlinarith
  have hb2 : k + m' = 0 → x ≤ b := by
    intro h
    have h' : (k : ℝ) + m' = 0 := by exact_mod_cast h
    nlinarith
  have hlt : ∀ d : ℤ, m - m' = d → d ≤ -1 → ¬ a ≤ b := by
    intro d hd hd1 hab
    have : ((m - m' : ℤ) : ℝ) ≤ -1 := by exact_mod_cast (by omega : m - m' ≤ -1)
    push_cast at this
    nlinarith
  rcases n1 with n1 | n1 <;> rcases n2 with n2 | n2
  · have h3 := ha2 n1
    have h4 := hb2 n2
    rw [if_pos (h3.trans h4)]
    exact ⟨h3, h4⟩
  · rw [if_neg (hlt _ rfl (by omega))]
    exact .inl (ha2 n1)
  · rw [if_neg (hlt _ rfl (by omega))]
    exact .inr (hb2 n2)
  · exfalso
    have : ((m - m' : ℤ) : ℝ) ≤ -2 := by exact_mod_cast (by omega : m - m' ≤ -2)
    push_cast at this
    nlinarith

/-- A latitude that is up to `e` in an interval known up to `e` is up to `2 e` in the interval. -/
theorem clamp_near {e lo hi a b x : ℝ} (he : 0 ≤ e) (h : lo + 2 * e ≤ hi) (ha : |a - lo| ≤ e) (hb : |b - hi| ≤ e) (h1 : lo - e ≤ x)
    (h2 : x ≤ hi + e) : ∃ q, |q - x| ≤ 2 * e ∧ a ≤ q ∧ q ≤ b := by
  have ha' := abs_le.mp ha
  have hb' := abs_le.mp hb
  have hab : a ≤ b := by linarith
  by_cases c1 : x ≤ a
  · exact ⟨a, by rw [abs_le]; constructor <;> linarith, le_refl _, hab⟩
  by_cases c2 : b ≤ x
  · exact ⟨b, by rw [abs_le]; constructor <;> linarith, hab, le_refl _⟩
  exact ⟨x, by simp; exact he, (not_le.mp c1).le, (not_le.mp c2).le⟩

/-- Two sky positions are at most `e` radians apart in declination and in right ascension (up to full circles of `T` radians). -/
def Within (T e : ℝ) (q p : SpherePoint ℝ) : Prop := |q.lat - p.lat| ≤ e ∧ ∃ j : ℤ, |q.lon - p.lon - j * T| ≤ e

/-- The ranges of the caps. -/
theorem range_south' (A : FloatArith ℝ) (R : Rings ℝ) : R.getRaDecRange A 0 =
    .ok (0, A.twoPi, A.div (-A.pi) 2, A.add (A.div (-A.pi) 2) (A.mul (A.rnd ((-1 : ℤ) + 3 / 2)) R.ringSize)) := by
  unfold getRaDecRange
  rw [getRingIndices_south]
  simp only [bind, Except.bind, pure, Except.pure, if_true]
  rfl

theorem range_north' (A : FloatArith ℝ) (h : R.WF) : R.getRaDecRange A (R.numTracts - 1) =
    .ok (0, A.twoPi, A.add (A.div (-A.pi) 2) (A.mul (A.rnd (R.config.numRings + 1 / 2)) R.ringSize), A.div A.pi 2) := by
  unfold getRaDecRange
  rw [h.getRingIndices_north]
  have : ¬ ((R.config.numRings : Int) = -1) := by omega
  simp only [bind, Except.bind, pure, Except.pure, this, if_true, if_false, Int.cast_natCast]
  rfl

theorem range_ring' (A : FloatArith ℝ) (h : R.WF) {i : Int} {k : Nat} {t n : Int} (hi : R.getRingIndices i = .ok ((k : Int), t))
    (hn : R.ringNums[k]? = some n) : R.getRaDecRange A i =
    .ok (A.wrap (A.add R.raStart (A.div (A.mul (A.mul (A.rnd (t - 1 / 2)) 2) A.pi) n)),
      A.wrap (A.add R.raStart (A.div (A.mul (A.mul (A.rnd (t + 1 / 2)) 2) A.pi) n)),
      A.add (A.div (-A.pi) 2) (A.mul (A.rnd (k + 1 / 2)) R.ringSize),
      A.add (A.div (-A.pi) 2) (A.mul (A.rnd (k + 3 / 2)) R.ringSize)) := by
  have hk := h.lt_numRings hn
  unfold getRaDecRange
  rw [hi]
  have h1 : ¬ ((k : Int) = -1) := by omega
  have h2 : ¬ ((k : Int) = (R.config.numRings : Int)) := by omega
  simp only [bind, Except.bind, pure, Except.pure, h1, h2, if_false, CachingSkyMap.pyGetItem_nat hn, Int.cast_natCast]
  rfl

/-- An end of a tract's range, up to full circles. -/
theorem raBound (hA : A.Ieee) {n : ℝ} (hn : 1 ≤ n) {a : ℝ} (ha : |a| ≤ n) (hr : |R.raStart| ≤ 6.4) :
    ∃ m : ℤ, |A.wrap (A.add R.raStart (A.div (A.mul (A.mul (A.rnd a) 2) A.pi) n)) - (R.raStart + A.twoPi * a / n - m * A.twoPi)| ≤
      1 / 2 ^ 46 := by
  have hd := abs_le.mp (delta_near hA hn ha)
  obtain ⟨T1, T2⟩ := hA.twoPi_range
  have hb : |A.twoPi * a / n| ≤ 6.4 := by
    rw [abs_div, abs_of_pos (by linarith : 0 < n), div_le_iff₀ (by linarith), abs_mul, abs_of_pos (by linarith : 0 < A.twoPi)]
    gcongr
  have hb' := abs_le.mp hb
  have hr' := abs_le.mp hr
  generalize A.div (A.mul (A.mul (A.rnd a) 2) A.pi) n = d at hd ⊢
  have h1 := hA.near (x := R.raStart + d) (M := 13) (by
    rw [abs_le]; norm_num at hd hb' hr' ⊢; constructor <;> linarith)
  have h1' : A.add R.raStart d = A.rnd (R.raStart + d) := rfl
  rw [← h1'] at h1
  obtain ⟨m, hm⟩ := hA.wrap_near (A.add R.raStart d)
  refine ⟨m, ?_⟩
  have hm' := abs_le.mp hm
  rw [abs_le]
  norm_num at hd h1 hm' ⊢
  constructor <;> linarith

/-- C55 with rounding: whatever was accessed before, the inner sky region of the tract that `findTract` returns contains a position
within 2^-44 radians of the one looked up. -/
theorem C55_rounding (hA : A.Ieee) (h : Rings.new A c 1 = .ok R) (h1 : 1 ≤ c.numRings) (h2 : c.numRings ≤ 2 ^ 31)
    (hr : |c.raStart| ≤ 360) (hs : (skyMapOps A R env ops mk).After (init A R env ops mk b₀) s)
    {p : SpherePoint ℝ} (hlon : 0 ≤ p.lon ∧ p.lon < A.twoPi) (hlat : |p.lat| ≤ A.pi / 2)
    (hf : R.findTract A (skyMapOps A R env ops mk) p s = (.ok r, s')) :
    ∃ c₁ c₂, r.info.getInnerSkyRegion = .inl (c₁, c₂) ∧ ∃ q, Within A.twoPi (1 / 2 ^ 44) q p ∧ boxContains c₁ c₂ q := by
  obtain ⟨wf, w33⟩ := new_wf_rounding hA h h1 h2
  have w3 := new_three hA h h1 h2
  obtain ⟨e1, hv, -, e4, -, -⟩ := new_attr h
  have h1' : (1 : ℝ) ≤ c.numRings := by exact_mod_cast h1
  have h2' : (c.numRings : ℝ) ≤ 2 ^ 31 := by exact_mod_cast h2
  obtain ⟨z1, z2, z3, z4⟩ := size_bounds hA h1' h2'
  rw [← e4] at z1 z2 z3 z4
  have z1' := abs_le.mp z1
  have hsz : 3 / (2 ^ 31 + 1) ≤ R.ringSize := le_trans (by gcongr) z3
  obtain ⟨p1, p2⟩ := hA.pi_range
  obtain ⟨T1, T2⟩ := hA.twoPi_range
  have hlat' := abs_le.mp hlat
  obtain ⟨hd, hra, -⟩ := C34_total hA h h1 h2 p
  obtain ⟨dn1, dn2⟩ := dec_near hA h h1 h2 p.lat
  have hpi2 : |A.div (-A.pi) 2 - (-A.pi / 2)| ≤ 1 / 2 ^ 48 := by
    have d := hA.near (x := -A.pi / 2) (M := 1.6) (by rw [abs_le]; norm_num at p2 ⊢; constructor <;> linarith)
    have d' : A.div (-A.pi) 2 = A.rnd (-A.pi / 2) := rfl
    rw [← d'] at d
    rw [abs_le]; norm_num at d ⊢; constructor <;> linarith
  have hpi3 : |A.div A.pi 2 - (A.pi / 2)| ≤ 1 / 2 ^ 48 := by
    have d := hA.near (x := A.pi / 2) (M := 1.6) (by rw [abs_le]; norm_num at p2 ⊢; constructor <;> linarith)
    have d' : A.div A.pi 2 = A.rnd (A.pi / 2) := rfl
    rw [← d'] at d
    rw [abs_le]; norm_num at d ⊢; constructor <;> linarith
  have hsN : R.ringSize * c.numRings ≤ R.ringSize * c.numRings := le_refl _
  -- it is enough to look at the range of the tract
  suffices H : ∃ i g, R.findIndex A p = .ok i ∧ R.getRaDecRange A i = .ok g ∧
      ∃ q, Within A.twoPi (1 / 2 ^ 44) q p ∧ boxContains ⟨g.1, g.2.2.1⟩ ⟨g.2.1, g.2.2.2⟩ q by
    obtain ⟨i, g, hi, hg, q, hq⟩ := H
    have hf' : (skyMapOps A R env ops mk).getItem i s = (.ok r, s') := by
      rw [← hf]
      simp only [findTract, hi]
      exact (PyS.bind_ok rfl).symm
    obtain ⟨g', hg', hr'⟩ := region_of_getItem hs hf'
    rw [hg] at hg'
    cases hg'
    exact ⟨_, _, hr', q, hq⟩
  have full : ∀ lat : ℝ, |lat - p.lat| ≤ 1 / 2 ^ 44 → Within A.twoPi (1 / 2 ^ 44) ⟨p.lon, lat⟩ p := by
    intro lat hl
    exact ⟨hl, 0, by simp⟩
  have lonFull : (if (0 : ℝ) ≤ A.twoPi then 0 ≤ p.lon ∧ p.lon ≤ A.twoPi else 0 ≤ p.lon ∨ p.lon ≤ A.twoPi) := by
    rw [if_pos (by linarith)]; exact ⟨hlon.1, hlon.2.le⟩
  unfold findIndex
  dsimp only
  rw [e1]
  by_cases c1 : R.decToRingNum A p.lat = -1
  · refine ⟨0, _, by rw [if_pos c1], range_south' A R, ?_⟩
    have hb := decBound hA h h1 h2 (x := ((-1 : ℤ) : ℝ) + 3 / 2) (by norm_num) (by norm_num; linarith)
    have dl := dn1 (by omega)
    rw [c1] at dl
    obtain ⟨q, q1, q2, q3⟩ := clamp_near (e := 1 / 2 ^ 48) (x := p.lat) (by positivity)
      (by norm_num at hsz ⊢; linarith) hpi2 hb (by norm_num; linarith) (by push_cast at dl ⊢; linarith)
    exact ⟨⟨p.lon, q⟩, full q (q1.trans (by norm_num)), lonFull, q2, q3⟩
  by_cases c2 : R.decToRingNum A p.lat = c.numRings
  · refine ⟨_, _, by rw [if_neg c1, if_pos c2], range_north' A wf, ?_⟩
    rw [e1]
    have hb := decBound hA h h1 h2 (x := (c.numRings : ℝ) + 1 / 2) (by positivity) (by linarith)
    have dl := dn2 (by omega)
    rw [c2] at dl
    obtain ⟨q, q1, q2, q3⟩ := clamp_near (e := 1 / 2 ^ 48) (x := p.lat) (by positivity)
      (by norm_num at hsz z1' ⊢; nlinarith) hb hpi3 (by push_cast at dl ⊢; linarith) (by norm_num; linarith)
    exact ⟨⟨p.lon, q⟩, full q (q1.trans (by norm_num)), lonFull, q2, q3⟩
  obtain ⟨k, hk⟩ := Int.eq_ofNat_of_zero_le (show 0 ≤ R.decToRingNum A p.lat by omega)
  obtain ⟨n, hn, hn0⟩ := getNum wf (k := k) (by rw [e1]; omega)
  have hn33 := w33 n (List.mem_of_getElem? hn)
  have hn3 := w3 n (List.mem_of_getElem? hn)
  have hnR : (3 : ℝ) ≤ n := by exact_mod_cast hn3
  have hnR2 : (n : ℝ) ≤ 2 ^ 33 := by exact_mod_cast hn33
  obtain ⟨t, ht, t0, t1⟩ := hra k n hn
  have htR : (0 : ℝ) ≤ t := by exact_mod_cast t0
  have htR1 : (t : ℝ) + 1 ≤ n := by exact_mod_cast t1
  have hkN : (k : ℝ) + 1 ≤ c.numRings := by exact_mod_cast (by omega : k + 1 ≤ c.numRings)
  have hk0 : (0 : ℝ) ≤ k := by positivity
  have hgr := wf.getRingIndices_ring hv hn t0 t1
  refine ⟨1 + (R.ringNums.take k).sum + t, _, ?_, range_ring' A wf hgr hn, ?_⟩
  · rw [if_neg c1, if_neg c2, hk]
    simp only [ht, bind, Except.bind, pure, Except.pure, hv]
    rw [if_neg (by omega), sumTo_nat]
    congr 1; omega
  -- declination
  have dl := dn1 (by omega)
  have dg := dn2 (by omega)
  rw [hk] at dl dg
  have hb1 := decBound hA h h1 h2 (x := (k : ℝ) + 1 / 2) (by positivity) (by linarith)
  have hb2 := decBound hA h h1 h2 (x := (k : ℝ) + 3 / 2) (by positivity) (by linarith)
  obtain ⟨q, q1, q2, q3⟩ := clamp_near (e := 1 / 2 ^ 48) (x := p.lat) (by positivity)
    (by norm_num at hsz ⊢; linarith) hb1 hb2 (by simpa using dg) (by simpa using dl)
  -- right ascension
  have hrs := raStart_bound hA h hr
  have hrs' := abs_le.mp hrs
  obtain ⟨m, hm⟩ := raBound hA (n := n) (a := (t : ℝ) - 1 / 2) (by linarith) (by rw [abs_le]; constructor <;> linarith) hrs
  obtain ⟨m', hm'⟩ := raBound hA (n := n) (a := (t : ℝ) + 1 / 2) (by linarith) (by rw [abs_le]; constructor <;> linarith) hrs
  have hW : A.twoPi * ((t : ℝ) + 1 / 2) / n = A.twoPi * ((t : ℝ) - 1 / 2) / n + A.twoPi / n := by ring
  have q7 : 6 / 2 ^ 33 ≤ A.twoPi / n := by
    have h : (6 : ℝ) / 2 ^ 33 ≤ A.twoPi / 2 ^ 33 := by gcongr; linarith
    refine h.trans ?_
    have : (0 : ℝ) ≤ A.twoPi := by linarith
    gcongr
  have q8 : A.twoPi / n ≤ A.twoPi / 3 := by
    have : (0 : ℝ) ≤ A.twoPi := by linarith
    gcongr
  have x1 := hA.near (x := p.lon - R.raStart) (M := 13) (by
    rw [abs_le]; norm_num at hrs' T2 ⊢; constructor <;> linarith [hlon.1, hlon.2])
  have x1' : A.sub p.lon R.raStart = A.rnd (p.lon - R.raStart) := rfl
  rw [← x1'] at x1
  obtain ⟨k2, hk2⟩ := hA.wrap_near (A.sub p.lon R.raStart)
  obtain ⟨w0, w1⟩ := hA.wrap_range (A.sub p.lon R.raStart)
  have tb := tract_bounds hA hn0 hn33 w0 w1.le
  rw [wf.raToTractNum_eq A hn] at ht
  generalize A.wrap (A.sub p.lon R.raStart) = w at hk2 w0 w1 tb ht
  generalize A.sub p.lon R.raStart = x at x1 hk2
  have hk2' := abs_le.mp hk2
  simp only [Except.ok.injEq] at ht
  generalize pyTrunc (A.add (A.div w (A.div (A.mul 2 A.pi) n)) (1 / 2)) = t' at tb ht
  obtain ⟨κ, hκ⟩ : ∃ κ : ℤ, R.raStart + A.twoPi * ((t : ℝ) - 1 / 2) / n - 1 / 2 ^ 45 ≤ p.lon - κ * A.twoPi ∧
      p.lon - κ * A.twoPi ≤ R.raStart + A.twoPi * ((t : ℝ) - 1 / 2) / n + A.twoPi / n + 1 / 2 ^ 45 := by
    rw [add_assoc R.raStart, ← hW]
    split at ht
    · next hc =>
      subst hc
      subst ht
      have y1 : A.twoPi * ((t' : ℝ) - 1 / 2) / t' = A.twoPi + A.twoPi * (((0 : ℤ) : ℝ) - 1 / 2) / t' := by field_simp; push_cast; ring
      have y2 : A.twoPi * ((t' : ℝ) + 1 / 2) / t' = A.twoPi + A.twoPi * (((0 : ℤ) : ℝ) + 1 / 2) / t' := by field_simp; push_cast; ring
      rw [y1, y2] at tb
      refine ⟨k2 + 1, ?_⟩
      push_cast at tb ⊢
      rw [add_mul, one_mul]
      generalize A.twoPi * (0 - 1 / 2) / (t' : ℝ) = Y1 at *
      generalize A.twoPi * (0 + 1 / 2) / (t' : ℝ) = Y2 at *
      generalize (k2 : ℝ) * A.twoPi = K at *
      norm_num at x1 hk2' tb ⊢
      constructor <;> linarith
    · subst ht
      refine ⟨k2, ?_⟩
      generalize A.twoPi * ((t' : ℝ) - 1 / 2) / n = Y1 at *
      generalize A.twoPi * ((t' : ℝ) + 1 / 2) / n = Y2 at *
      generalize (k2 : ℝ) * A.twoPi = K at *
      norm_num at x1 hk2' tb ⊢
      constructor <;> linarith
  rw [hW, ← add_assoc] at hm'
  obtain ⟨ql, ⟨j, hj⟩, hq⟩ := arc_near (T := A.twoPi) (e := 1 / 2 ^ 45) (m := m) (m' := m') (k := κ) (by positivity)
    (by norm_num at q8 T1 ⊢; linarith) (by norm_num at q7 ⊢; linarith) (hA.wrap_range _) (hA.wrap_range _) hlon
    (hm.trans (by norm_num)) (hm'.trans (by norm_num)) hκ.1 hκ.2
  exact ⟨⟨ql, q⟩, ⟨q1.trans (by norm_num), j, by dsimp only; norm_num at hj ⊢; linarith⟩, hq, q2, q3⟩

end Rings

/-- C55 is not vacuous: with a projection that is defined everywhere, `findTract` returns for every position, from every reachable
state, and so the inner sky region of its tract contains the position. -/
theorem Rings.C55_total {c : RingsConfig ℝ} {R : Rings ℝ} {env : FloatEnv ℝ} {ops : SkyOps (SpherePoint ℝ) ℝ}
    {mk : SpherePoint ℝ → Wcs (SpherePoint ℝ) ℝ} {b₀ : TractBuilder} {s : MapState (SpherePoint ℝ) ℝ}
    (h : Rings.new FloatArith.exact c 1 = .ok R) (hx : 0 < b₀.patchInnerDimensions.x) (hy : 0 < b₀.patchInnerDimensions.y)
    (hw : ∀ ctr b r, ∃ q, (mk ctr).skyToPixel (ops.offset ctr b r) = .pix q)
    (hs : (skyMapOps FloatArith.exact R env ops mk).After (init FloatArith.exact R env ops mk b₀) s)
    {p : SpherePoint ℝ} (hlon : 0 ≤ p.lon ∧ p.lon < 2 * Real.pi) (hlat : |p.lat| ≤ Real.pi / 2) :
    ∃ r s' c₁ c₂, R.findTract FloatArith.exact (skyMapOps FloatArith.exact R env ops mk) p s = (.ok r, s') ∧
      r.info.getInnerSkyRegion = .inl (c₁, c₂) ∧ boxContains c₁ c₂ p := by
  obtain ⟨i, hi, -, hf⟩ := C27_findTract h (skyMapOps FloatArith.exact R env ops mk) p hlon hlat
  obtain ⟨r, s', hg⟩ := generate h hx hy hw hi hs
  rw [← hf] at hg
  obtain ⟨c₁, c₂, h1, h2⟩ := C55_covers h hs hlon hlat hg
  exact ⟨r, s', c₁, c₂, hg, h1, h2⟩

/-- A sky map of 120 rings. -/
example : ∃ (R : Rings ℝ) (env : FloatEnv ℝ) (ops : SkyOps (SpherePoint ℝ) ℝ) (mk : SpherePoint ℝ → Wcs (SpherePoint ℝ) ℝ),
    Rings.new FloatArith.exact ⟨120, 0, 1 / 60⟩ 1 = .ok R ∧
    ∃ r s' c₁ c₂, R.findTract FloatArith.exact (Rings.skyMapOps FloatArith.exact R env ops mk) ⟨1, 1⟩
      (Rings.init FloatArith.exact R env ops mk Ex.legacy) = (.ok r, s') ∧ r.info.getInnerSkyRegion = .inl (c₁, c₂) ∧
      boxContains c₁ c₂ ⟨1, 1⟩ := by
  obtain ⟨R, hR⟩ := Rings.new_ok ⟨120, 0, 1 / 60⟩ (.inr rfl)
  refine ⟨R, ⟨id, fun x => x + 1, ⟨0, 0⟩⟩, ⟨fun c b r => ⟨c.lon + b / 1000 * r, c.lat + r⟩, fun a b => |a.lon - b.lon|⟩,
    fun _ => ⟨fun c => .pix ⟨100 * c.lon, 100 * c.lat⟩, fun q => ⟨q.x / 100, q.y / 100⟩⟩, hR, ?_⟩
  have := Real.pi_gt_three
  exact Rings.C55_total hR (by decide) (by decide) (fun _ _ _ => ⟨_, rfl⟩) (SkyMapOps.After.refl _)
    ⟨by norm_num, by dsimp only; linarith⟩ (by dsimp only; rw [abs_one]; linarith)

end Skymap
