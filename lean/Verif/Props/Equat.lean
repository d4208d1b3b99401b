import Verif.Model.Equat
import Verif.Spec.Sphere
import Verif.Props.RegisterMaps
import Verif.Lemmas.RingsExact
import Verif.Lemmas.Eager

/-! # C35: the equatorial sky map -/

set_option linter.unusedSectionVars false

namespace Skymap

/-! ## Specification vocabulary -/

/-- The corners of the region between right ascensions `b` and `e` and declinations `d0` and `d1`. -/
def quad {K : Type} (b e d0 d1 : K) : List (SpherePoint K) := [⟨b, d0⟩, ⟨e, d0⟩, ⟨e, d1⟩, ⟨b, d1⟩]

/-- The inner region of the tract, given by its vertices, is a right ascension interval containing `x`, without its eastern end. -/
def TractRef.CoversRA (t : TractRef (SpherePoint ℝ) ℝ) (x : ℝ) : Prop :=
  ∃ b e d0 d1, t.info.vertexCoordList = quad b e d0 d1 ∧ InArc b e x

/-- The same, with the eastern end. -/
def TractRef.TouchesRA (t : TractRef (SpherePoint ℝ) ℝ) (x : ℝ) : Prop :=
  ∃ b e d0 d1, t.info.vertexCoordList = quad b e d0 d1 ∧ (InArc b e x ∨ x = e)

namespace Equat
open FloatArith (exact)

variable {mk : SpherePoint ℝ → Wcs (SpherePoint ℝ) ℝ} {env : FloatEnv ℝ} {ops : SkyOps (SpherePoint ℝ) ℝ}
  {n : Nat} {d0 d1 ov : ℝ} {ts : List (TractRef (SpherePoint ℝ) ℝ)} {b₀ b : TractBuilder}

/-- Degrees to radians. -/
noncomputable def rad (x : ℝ) : ℝ := x * (Real.pi / 180)

theorem rad_range {x : ℝ} (h : |x| ≤ 90) : |rad x| ≤ Real.pi / 2 := by
  have hp := Real.pi_pos
  unfold rad
  rw [abs_mul, abs_of_pos (by positivity : (0 : ℝ) < Real.pi / 180)]
  nlinarith

/-- The arguments of the constructor of tract `k`. -/
noncomputable def args (mk : SpherePoint ℝ → Wcs (SpherePoint ℝ) ℝ) (n : Nat) (d0 d1 ov : ℝ) (k : Nat) : TractArgs (SpherePoint ℝ) ℝ where
  id := k
  ctrCoord := ⟨(2 * k + 1) * Real.pi / n, (rad d0 + rad d1) / 2⟩
  shape := .vertices (quad (2 * Real.pi * k / n) (if k + 1 = n then 0 else 2 * Real.pi * (k + 1) / n) (rad d0) (rad d1))
  tractOverlap := rad ov
  wcs := mk ⟨(2 * k + 1) * Real.pi / n, 0⟩

theorem wrap_small {x : ℝ} (h0 : 0 ≤ x) (h1 : x < 2 * Real.pi) : wrapAngle Real.pi x = x := by
  have hp := Real.pi_pos
  unfold wrapAngle
  have : ⌊x / (2 * Real.pi)⌋ = 0 := by
    rw [Int.floor_eq_iff]
    constructor
    · simp only [Int.cast_zero]; positivity
    · rw [div_lt_iff₀ (by positivity)]; simpa using h1
  rw [this]; simp

theorem wrap_full : wrapAngle Real.pi (2 * Real.pi) = 0 := by
  have hp := Real.pi_pos
  unfold wrapAngle
  rw [div_self (by positivity)]; simp

theorem point_ok {lon lat : ℝ} (h : |lat| ≤ Real.pi / 2) : FloatArith.exact.point lon lat = .ok ⟨wrapAngle Real.pi lon, lat⟩ := by
  unfold FloatArith.point
  rw [if_neg (by simpa using h), FloatArith.exact_wrap]

/-- All tracts of the sky map. -/
theorem tracts_exact (hn : 1 ≤ n) (h0 : |d0| ≤ 90) (h1 : |d1| ≤ 90) :
    tracts exact mk ⟨n, [d0, d1], ov⟩ = .ok ((List.range n).map (args mk n d0 d1 ov)) := by
  have hp := Real.pi_pos
  have hn' : (0 : ℝ) < n := by exact_mod_cast hn
  have r0 := rad_range h0
  have r1 := rad_range h1
  have rm : |(rad d0 + rad d1) / 2| ≤ Real.pi / 2 := by
    rw [abs_le] at *; constructor <;> linarith
  have key : ∀ k : Nat, k < n → tract exact mk (rad d0) (rad d1) ((rad d0 + rad d1) / 2) (2 * Real.pi / n) (rad ov) (k : Int) =
      .ok (args mk n d0 d1 ov k) := by
    intro k hk
    have hk' : (k : ℝ) + 1 ≤ n := by exact_mod_cast hk
    have hk0 : (0 : ℝ) ≤ k := by positivity
    have w1 : wrapAngle Real.pi (2 * Real.pi / n * k) = 2 * Real.pi * k / n := by
      rw [wrap_small (by positivity) (by rw [div_mul_eq_mul_div, div_lt_iff₀ hn']; nlinarith)]; ring
    have w2 : wrapAngle Real.pi (2 * Real.pi / n * k + 2 * Real.pi / n) =
        if k + 1 = n then 0 else 2 * Real.pi * (k + 1) / n := by
      have e : 2 * Real.pi / n * k + 2 * Real.pi / n = 2 * Real.pi * (k + 1) / n := by ring
      rw [e]
      split
      · next hh =>
        have : (k : ℝ) + 1 = n := by exact_mod_cast hh
        rw [this, mul_div_assoc, div_self hn'.ne', mul_one, wrap_full]
      · next hh =>
        have : (k : ℝ) + 1 < n := by exact_mod_cast (by omega : k + 1 < n)
        rw [wrap_small (by positivity) (by rw [div_lt_iff₀ hn']; nlinarith)]
    have w3 : wrapAngle Real.pi (2 * Real.pi / n * k + 2 * Real.pi / n / 2) = (2 * k + 1) * Real.pi / n := by
      have e : 2 * Real.pi / n * k + 2 * Real.pi / n / 2 = (2 * k + 1) * Real.pi / n := by field_simp
      rw [e, wrap_small (by positivity) (by rw [div_lt_iff₀ hn']; nlinarith)]
    unfold tract
    simp only [FloatArith.exact_mul, FloatArith.exact_add, FloatArith.exact_div, Int.cast_natCast]
    rw [point_ok r0, point_ok r0, point_ok r1, point_ok r1, point_ok rm,
      point_ok (show |(0 : ℝ)| ≤ Real.pi / 2 by rw [abs_zero]; positivity), w1, w2, w3]
    rfl
  unfold tracts
  have g0 : pyGetItem ([d0, d1].map FloatArith.exact.deg2rad) 0 = .ok (rad d0) := rfl
  have g1 : pyGetItem ([d0, d1].map FloatArith.exact.deg2rad) 1 = .ok (rad d1) := rfl
  have e : FloatArith.exact.deg2rad (FloatArith.exact.div 360 ((n : Int) : ℝ)) = 2 * Real.pi / n := by
    simp only [FloatArith.deg2rad, FloatArith.exact_mul, FloatArith.exact_div, FloatArith.exact_pi, Int.cast_natCast]
    field_simp; norm_num
  dsimp only
  rw [g0, g1, e]
  simp only [bind, Except.bind, FloatArith.exact_add, FloatArith.exact_div]
  rw [if_neg (by omega)]
  unfold pyRange
  rw [show ((n : Int) - 0).toNat = n by omega]
  have : ∀ L : List Nat, (∀ k ∈ L, k < n) → pyMapM (tract exact mk (rad d0) (rad d1) ((rad d0 + rad d1) / 2) (2 * Real.pi / n) (rad ov))
      (L.map fun k : Nat => 0 + (k : Int)) = .ok (L.map (args mk n d0 d1 ov)) := by
    intro L hL
    induction L with
    | nil => rfl
    | cons k L ih =>
      simp only [List.map_cons, pyMapM, zero_add]
      rw [key k (hL k (by simp))]
      simp only [zero_add] at ih
      rw [ih fun j hj => hL j (by simp [hj])]
  exact this _ fun k hk => List.mem_range.1 hk

/-- C35: an equatorial sky map has `numTracts` tracts, numbered from 0; the centre of tract `k` is in the middle of its
right ascension interval [2 pi k/n, 2 pi (k+1)/n], and its vertices are the corners of the interval at the two declinations. -/
theorem C35_tracts (hn : 1 ≤ n) (h0 : |d0| ≤ 90) (h1 : |d1| ≤ 90) {l : List (TractArgs (SpherePoint ℝ) ℝ)}
    (hl : tracts exact mk ⟨n, [d0, d1], ov⟩ = .ok l) (hx : 0 < b₀.patchInnerDimensions.x) (hy : 0 < b₀.patchInnerDimensions.y)
    (hb : EagerSkyMap.buildAll env ops l 0 b₀ = .ok (ts, b)) :
    ts.length = n ∧ ∀ k : Nat, k < n → ∃ t, ts[k]? = some t ∧ t.info.id = k ∧
      t.info.ctrCoord = ⟨(2 * k + 1) * Real.pi / n, (d0 + d1) / 2 * (Real.pi / 180)⟩ ∧
      t.info.vertexCoordList = quad (2 * Real.pi * k / n) (if k + 1 = n then 0 else 2 * Real.pi * (k + 1) / n)
        (d0 * (Real.pi / 180)) (d1 * (Real.pi / 180)) := by
  rw [tracts_exact hn h0 h1, Except.ok.injEq] at hl
  subst hl
  obtain ⟨e1, e2, -⟩ := EagerSkyMap.buildAll_ok hb hx hy
  simp only [List.length_map, List.length_range] at e1
  refine ⟨e1, fun k hk => ?_⟩
  have hk' : ts[k]? = some (ts[k]'(by omega)) := List.getElem?_eq_getElem _
  obtain ⟨a, g1, g2, b', b'', g3, -⟩ := e2 k _ hk'
  rw [List.getElem?_map, List.getElem?_range hk, Option.map_some, Option.some.injEq] at g1
  subst g1
  refine ⟨_, hk', g2, ?_⟩
  generalize ts[k]'(by omega) = t at *
  unfold TractInfo.new at g3
  obtain ⟨mb, -, g3⟩ := bindOk g3
  obtain ⟨r, -, g3⟩ := bindOk g3
  simp only [pure, Except.pure, Except.ok.injEq, Prod.mk.injEq] at g3
  rw [← g3.1]
  refine ⟨?_, rfl⟩
  simp only [args, rad, SpherePoint.mk.injEq, true_and]
  ring

/-- Where the right ascension intervals of the tracts are. -/
theorem onArc_iff {n k : Nat} (hk : k < n) {x : ℝ} (hx : 0 ≤ x ∧ x < 2 * Real.pi) :
    InArc (2 * Real.pi * k / n) (if k + 1 = n then 0 else 2 * Real.pi * (k + 1) / n) x ↔
      2 * Real.pi * k / n ≤ x ∧ x < 2 * Real.pi * (k + 1) / n := by
  have hp := Real.pi_pos
  have hn' : (0 : ℝ) < n := by exact_mod_cast (by omega : 0 < n)
  unfold InArc
  by_cases hh : k + 1 = n
  · have e : (k : ℝ) + 1 = n := by exact_mod_cast hh
    have h0 : 0 ≤ 2 * Real.pi * k / n := by positivity
    rw [if_pos hh, if_neg (by linarith), e, mul_div_assoc _ (n : ℝ), div_self hn'.ne', mul_one]
    constructor
    · rintro (h | h)
      · exact ⟨h, hx.2⟩
      · linarith [hx.1]
    · rintro ⟨h, -⟩; exact .inl h
  · rw [if_neg hh, if_pos]
    rw [div_lt_div_iff_of_pos_right hn']
    nlinarith

/-- C35: the right ascension intervals of the tracts partition the circle. -/
theorem C35_partition (hn : 1 ≤ n) (h0 : |d0| ≤ 90) (h1 : |d1| ≤ 90) {l : List (TractArgs (SpherePoint ℝ) ℝ)}
    (hl : tracts exact mk ⟨n, [d0, d1], ov⟩ = .ok l) (hx : 0 < b₀.patchInnerDimensions.x) (hy : 0 < b₀.patchInnerDimensions.y)
    (hb : EagerSkyMap.buildAll env ops l 0 b₀ = .ok (ts, b)) (x : ℝ) (hx0 : 0 ≤ x) (hx1 : x < 2 * Real.pi) :
    ∃! k : Nat, ∃ t, ts[k]? = some t ∧ t.CoversRA x := by
  have hp := Real.pi_pos
  have hn' : (0 : ℝ) < n := by exact_mod_cast hn
  obtain ⟨e1, e2⟩ := C35_tracts hn h0 h1 hl hx hy hb
  have iff : ∀ (k : Nat), (∃ t, ts[k]? = some t ∧ t.CoversRA x) ↔ k < n ∧ k = ⌊x * n / (2 * Real.pi)⌋ := by
    intro k
    have q : (k : ℤ) = ⌊x * n / (2 * Real.pi)⌋ ↔ 2 * Real.pi * k / n ≤ x ∧ x < 2 * Real.pi * (k + 1) / n := by
      rw [eq_comm, Int.floor_eq_iff, div_lt_iff₀ (by positivity), le_div_iff₀ (by positivity), div_le_iff₀ hn', lt_div_iff₀ hn']
      constructor
      · rintro ⟨a, b⟩; simp only [Int.cast_natCast] at a b; constructor <;> linarith
      · rintro ⟨a, b⟩; simp only [Int.cast_natCast]; constructor <;> linarith
    rw [q]
    constructor
    · rintro ⟨t, ht, b1, c1, d, d', hv, ha⟩
      have hk : k < n := by rw [← e1]; exact (List.getElem?_eq_some_iff.1 ht).1
      obtain ⟨t', ht', -, -, hv'⟩ := e2 k hk
      rw [ht, Option.some.injEq] at ht'
      subst ht'
      rw [hv] at hv'
      simp only [quad, List.cons.injEq, SpherePoint.mk.injEq] at hv'
      obtain ⟨⟨rfl, -⟩, ⟨rfl, -⟩, -⟩ := hv'
      exact ⟨hk, (onArc_iff hk ⟨hx0, hx1⟩).1 ha⟩
    · rintro ⟨hk, ha⟩
      obtain ⟨t, ht, -, -, hv⟩ := e2 k hk
      exact ⟨t, ht, _, _, _, _, hv, (onArc_iff hk ⟨hx0, hx1⟩).2 ha⟩
  have f0 : 0 ≤ ⌊x * n / (2 * Real.pi)⌋ := Int.floor_nonneg.2 (by positivity)
  have f1 : ⌊x * n / (2 * Real.pi)⌋ < n := by
    rw [Int.floor_lt, div_lt_iff₀ (by positivity)]
    simp only [Int.cast_natCast]
    nlinarith
  refine ⟨⌊x * n / (2 * Real.pi)⌋.toNat, (iff _).2 ⟨by omega, by omega⟩, ?_⟩
  intro j hj
  have := (iff j).1 hj
  omega

/-- The closed intervals in terms of the cosine of the distance to the middle. -/
theorem touch_iff {n k : Nat} (hk : k < n) {x : ℝ} (hx : 0 ≤ x ∧ x < 2 * Real.pi) :
    (InArc (2 * Real.pi * k / n) (if k + 1 = n then 0 else 2 * Real.pi * (k + 1) / n) x ∨
      x = (if k + 1 = n then 0 else 2 * Real.pi * (k + 1) / n)) ↔
      Real.cos (Real.pi / n) ≤ Real.cos (x - (2 * k + 1) * Real.pi / n) := by
  have hp := Real.pi_pos
  have hn' : (0 : ℝ) < n := by exact_mod_cast (by omega : 0 < n)
  have hn1 : (1 : ℝ) ≤ n := by exact_mod_cast (by omega : 1 ≤ n)
  have hk' : (k : ℝ) + 1 ≤ n := by exact_mod_cast hk
  have hk0 : (0 : ℝ) ≤ k := by positivity
  set w := Real.pi / n with hw
  have hw0 : 0 < w := by positivity
  have hwn : w * n = Real.pi := by rw [hw]; field_simp
  have hw1 : w ≤ Real.pi := by nlinarith
  have e0 : 2 * Real.pi * k / n = 2 * k * w := by rw [hw]; ring
  have e1 : 2 * Real.pi * (k + 1) / n = 2 * k * w + 2 * w := by rw [hw]; ring
  have e2 : (2 * k + 1) * Real.pi / n = 2 * k * w + w := by rw [hw]; ring
  have hend : 2 * k * w + 2 * w ≤ 2 * Real.pi := by nlinarith
  rw [onArc_iff hk hx, e0, e1, e2]
  have lhs : ((2 * k * w ≤ x ∧ x < 2 * k * w + 2 * w) ∨ x = (if k + 1 = n then 0 else 2 * k * w + 2 * w)) ↔
      ((2 * k * w ≤ x ∧ x ≤ 2 * k * w + 2 * w) ∨ (k + 1 = n ∧ x = 0)) := by
    by_cases hh : k + 1 = n
    · have e : (k : ℝ) + 1 = n := by exact_mod_cast hh
      have : 2 * k * w + 2 * w = 2 * Real.pi := by nlinarith
      simp only [hh, if_true, true_and]
      constructor
      · rintro (⟨a, b⟩ | a)
        · exact .inl ⟨a, b.le⟩
        · exact .inr a
      · rintro (⟨a, b⟩ | a)
        · exact .inl ⟨a, by linarith [hx.2]⟩
        · exact .inr a
    · simp only [hh, if_false, false_and, or_false]
      constructor
      · rintro (⟨a, b⟩ | a)
        · exact ⟨a, b.le⟩
        · rw [a]; constructor <;> nlinarith
      · rintro ⟨a, b⟩
        rcases b.lt_or_eq with h | h
        · exact .inl ⟨a, h⟩
        · exact .inr h
  rw [lhs]
  set d := x - (2 * k * w + w) with hd
  have d1 : -(2 * Real.pi) + w ≤ d := by rw [hd]; linarith [hx.1]
  have d2 : d < 2 * Real.pi - w := by
    have : 0 ≤ 2 * k * w := by positivity
    rw [hd]; linarith [hx.2]
  rw [← Real.cos_abs d]
  constructor
  · rintro (⟨a, b⟩ | ⟨a, b⟩)
    · apply Real.cos_le_cos_of_nonneg_of_le_pi (abs_nonneg _) hw1
      rw [abs_le]; constructor <;> rw [hd] <;> linarith
    · have e : (k : ℝ) + 1 = n := by exact_mod_cast a
      have : d = -(2 * Real.pi) + w := by rw [hd, b]; nlinarith
      rw [this, abs_of_nonpos (by linarith), neg_add, neg_neg, Real.cos_add, Real.cos_two_pi, Real.sin_two_pi]
      simp
  · intro h
    by_cases hh : |d| ≤ w
    · left
      rw [abs_le] at hh
      constructor <;> linarith
    · right
      push Not at hh
      by_cases hpi : |d| ≤ Real.pi
      · exact absurd h (not_le.2 (Real.cos_lt_cos_of_nonneg_of_le_pi hw0.le hpi hh))
      · push Not at hpi
        have h3 : Real.cos (2 * Real.pi - |d|) = Real.cos |d| := Real.cos_two_pi_sub _
        rw [← h3] at h
        have h4 : 2 * Real.pi - |d| ≤ w := by
          by_contra hc
          push Not at hc
          exact absurd h (not_le.2 (Real.cos_lt_cos_of_nonneg_of_le_pi hw0.le (by linarith) hc))
        have hneg : d < 0 := by
          by_contra hc
          push Not at hc
          rw [abs_of_nonneg hc] at h4
          linarith
        rw [abs_of_neg hneg] at h4
        have h5 : x ≤ 2 * k * w + 2 * w - 2 * Real.pi := by rw [hd] at h4; linarith
        have h6 : x = 0 := by linarith [hx.1]
        refine ⟨?_, h6⟩
        have h7 : 2 * Real.pi ≤ 2 * k * w + 2 * w := by linarith [hx.1]
        have h8 : (n : ℝ) ≤ k + 1 := by
          by_contra hc
          push Not at hc
          nlinarith
        have : n ≤ k + 1 := by exact_mod_cast h8
        omega

/-- On two closed intervals at once: at their common end. -/
theorem touch_two {n j k : Nat} (hjk : j < k) (hk : k < n) {x : ℝ} (hx : 0 ≤ x ∧ x < 2 * Real.pi)
    (h1 : Real.cos (Real.pi / n) ≤ Real.cos (x - (2 * j + 1) * Real.pi / n))
    (h2 : Real.cos (Real.pi / n) ≤ Real.cos (x - (2 * k + 1) * Real.pi / n)) :
    Real.cos (x - (2 * j + 1) * Real.pi / n) = Real.cos (x - (2 * k + 1) * Real.pi / n) := by
  have hp := Real.pi_pos
  have hn' : (0 : ℝ) < n := by exact_mod_cast (by omega : 0 < n)
  have hjk' : (j : ℝ) + 1 ≤ k := by exact_mod_cast hjk
  have hk1 : (k : ℝ) + 1 ≤ n := by exact_mod_cast hk
  have hj0 : (0 : ℝ) ≤ j := by positivity
  rw [← touch_iff (by omega) hx, onArc_iff (by omega) hx, if_neg (by omega)] at h1
  rw [← touch_iff hk hx, onArc_iff hk hx] at h2
  set w := Real.pi / n with hw
  have hw0 : 0 < w := by positivity
  have hwn : w * n = Real.pi := by rw [hw]; field_simp
  have e0 : ∀ i : Nat, 2 * Real.pi * i / n = 2 * i * w := by intro i; rw [hw]; ring
  have e1 : ∀ i : Nat, 2 * Real.pi * (i + 1) / n = 2 * i * w + 2 * w := by intro i; rw [hw]; ring
  have e2 : ∀ i : Nat, (2 * i + 1) * Real.pi / n = 2 * i * w + w := by intro i; rw [hw]; ring
  simp only [e0, e1] at h1 h2
  rw [e2, e2]
  have a1 : 2 * j * w ≤ x ∧ x ≤ 2 * j * w + 2 * w := by
    rcases h1 with h | h
    · exact ⟨h.1, h.2.le⟩
    · rw [h]; constructor <;> linarith
  by_cases hxk : 2 * k * w ≤ x
  · have : x = 2 * j * w + 2 * w := by nlinarith
    have h5 : (k : ℝ) = j + 1 := by
      by_contra hc
      have : (j : ℝ) + 1 < k := lt_of_le_of_ne hjk' (Ne.symm hc)
      nlinarith
    rw [h5, this, ← Real.cos_neg]
    congr 1; ring
  · by_cases hh : k + 1 = n
    · rw [if_pos hh] at h2
      have hx0 : x = 0 := by
        rcases h2 with h | h
        · exact absurd h.1 hxk
        · exact h
      have hj : (j : ℝ) = 0 := by nlinarith [a1.1]
      have e : (k : ℝ) = n - 1 := by rw [← hh]; push_cast; ring
      rw [hx0, hj, e]
      have : (0 : ℝ) - (2 * (n - 1) * w + w) = -(2 * (0 : ℝ) * w + w) + (2 * w - 2 * (w * n)) + 0 := by ring
      rw [← Real.cos_neg (0 - (2 * (n - 1) * w + w))]
      have : -(0 - (2 * ((n : ℝ) - 1) * w + w)) = 2 * Real.pi + (0 - (2 * 0 * w + w)) := by rw [← hwn]; ring
      rw [this, Real.cos_add, Real.cos_two_pi, Real.sin_two_pi]; simp
    · rw [if_neg hh] at h2
      exfalso
      rcases h2 with h | h
      · exact hxk h.1
      · apply hxk; rw [h]; linarith

/-- C35: for every position that is not a pole, `findTract` returns the tract whose right ascension interval contains the position;
where two intervals meet, the one with the lower index. -/
theorem C35_findTract (hops : ∀ p q, ops.separation p q = greatCircle p q) (hn : 1 ≤ n) (h0 : |d0| < 90) (h1 : |d1| < 90)
    {l : List (TractArgs (SpherePoint ℝ) ℝ)} (hl : tracts exact mk ⟨n, [d0, d1], ov⟩ = .ok l)
    (hx : 0 < b₀.patchInnerDimensions.x) (hy : 0 < b₀.patchInnerDimensions.y)
    (hb : EagerSkyMap.buildAll env ops l 0 b₀ = .ok (ts, b)) (p : SpherePoint ℝ) (hp0 : 0 ≤ p.lon) (hp1 : p.lon < 2 * Real.pi)
    (hlat : |p.lat| < Real.pi / 2) :
    ∃ (k : Nat) (t : TractRef (SpherePoint ℝ) ℝ), BaseSkyMap.findTract ops (EagerSkyMap.skyMapOps ts) p b = (.ok t, b) ∧
      ts[k]? = some t ∧ t.TouchesRA p.lon ∧
      ∀ (j : Nat) t', ts[j]? = some t' → t'.TouchesRA p.lon → k ≤ j := by
  have hp := Real.pi_pos
  have hn' : (0 : ℝ) < n := by exact_mod_cast hn
  obtain ⟨e1, e2⟩ := C35_tracts hn h0.le h1.le hl hx hy hb
  obtain ⟨k, r, hr, hk, hmin⟩ := eager_findTract ops ts env b p (by omega)
  have hcm : 0 < Real.cos ((d0 + d1) / 2 * (Real.pi / 180)) := by
    rw [abs_lt] at h0 h1
    apply Real.cos_pos_of_mem_Ioo
    constructor <;> nlinarith
  have hcp : 0 < Real.cos p.lat := by
    rw [abs_lt] at hlat
    exact Real.cos_pos_of_mem_Ioo ⟨by linarith, hlat.2⟩
  have hsep : ∀ (i j : Nat) t t', i < n → j < n → ts[i]? = some t → ts[j]? = some t' →
      (ops.separation p t.info.ctrCoord ≤ ops.separation p t'.info.ctrCoord ↔
        Real.cos (p.lon - (2 * j + 1) * Real.pi / n) ≤ Real.cos (p.lon - (2 * i + 1) * Real.pi / n)) := by
    intro i j t t' hi hj ht ht'
    obtain ⟨u, hu, -, hc, -⟩ := e2 i hi
    obtain ⟨u', hu', -, hc', -⟩ := e2 j hj
    rw [ht, Option.some.injEq] at hu
    rw [ht', Option.some.injEq] at hu'
    subst hu hu'
    rw [hops, hops, greatCircle_le, hc, hc']
    unfold cosSep
    simp only
    have := mul_pos hcp hcm
    constructor
    · intro h; exact le_of_mul_le_mul_left (by linarith) this
    · intro h; have := mul_le_mul_of_nonneg_left h this.le; linarith
  have htouch : ∀ (i : Nat) t, i < n → ts[i]? = some t → (t.TouchesRA p.lon ↔
      Real.cos (Real.pi / n) ≤ Real.cos (p.lon - (2 * i + 1) * Real.pi / n)) := by
    intro i t hi ht
    obtain ⟨u, hu, -, -, hv⟩ := e2 i hi
    rw [ht, Option.some.injEq] at hu
    subst hu
    rw [← touch_iff hi ⟨hp0, hp1⟩]
    constructor
    · rintro ⟨b1, c1, d, d', hv', ha⟩
      rw [hv] at hv'
      simp only [quad, List.cons.injEq, SpherePoint.mk.injEq] at hv'
      obtain ⟨⟨rfl, -⟩, ⟨rfl, -⟩, -⟩ := hv'
      exact ha
    · intro ha; exact ⟨_, _, _, _, hv, ha⟩
  have hlt : ∀ (i : Nat) t, ts[i]? = some t → i < n := by
    intro i t ht; rw [← e1]; exact (List.getElem?_eq_some_iff.1 ht).1
  have hkn := hlt k r hk
  have hrt : r.TouchesRA p.lon := by
    obtain ⟨j, ⟨t', ht', hcov⟩, -⟩ := C35_partition hn h0.le h1.le hl hx hy hb p.lon hp0 hp1
    have hj := hlt j t' ht'
    have h3 : t'.TouchesRA p.lon := by
      obtain ⟨a1, a2, a3, a4, a5, a6⟩ := hcov
      exact ⟨a1, a2, a3, a4, a5, .inl a6⟩
    rw [htouch j t' hj ht'] at h3
    rw [htouch k r hkn hk]
    have h4 : ops.separation p r.info.ctrCoord ≤ ops.separation p t'.info.ctrCoord := by
      rcases hmin j t' ht' with h | h
      · exact h.le
      · exact h.1.le
    rw [hsep k j r t' hkn hj hk ht'] at h4
    linarith
  refine ⟨k, r, hr, hk, hrt, ?_⟩
  intro j t' ht' htt
  by_contra hc
  push Not at hc
  have hj := hlt j t' ht'
  rw [htouch j t' hj ht'] at htt
  rw [htouch k r hkn hk] at hrt
  have heq := touch_two hc hkn ⟨hp0, hp1⟩ htt hrt
  have h5 := (hsep j k t' r hj hkn ht' hk).2 heq.ge
  rcases hmin j t' ht' with h | h
  · linarith
  · omega

/-- C35: at the poles all tracts are equally near, and `findTract` returns the first. -/
theorem C35_poles (hops : ∀ p q, ops.separation p q = greatCircle p q) (hn : 1 ≤ n) (h0 : |d0| ≤ 90) (h1 : |d1| ≤ 90)
    {l : List (TractArgs (SpherePoint ℝ) ℝ)} (hl : tracts exact mk ⟨n, [d0, d1], ov⟩ = .ok l)
    (hx : 0 < b₀.patchInnerDimensions.x) (hy : 0 < b₀.patchInnerDimensions.y)
    (hb : EagerSkyMap.buildAll env ops l 0 b₀ = .ok (ts, b)) (p : SpherePoint ℝ) (hlat : |p.lat| = Real.pi / 2) :
    ∃ t, BaseSkyMap.findTract ops (EagerSkyMap.skyMapOps ts) p b = (.ok t, b) ∧ ts[0]? = some t := by
  obtain ⟨e1, e2⟩ := C35_tracts hn h0 h1 hl hx hy hb
  obtain ⟨k, r, hr, hk, hmin⟩ := eager_findTract ops ts env b p (by omega)
  have hcp : Real.cos p.lat = 0 := by rw [← Real.cos_abs, hlat, Real.cos_pi_div_two]
  have hkn : k < n := by rw [← e1]; exact (List.getElem?_eq_some_iff.1 hk).1
  obtain ⟨u, hu, -, hc, -⟩ := e2 k hkn
  obtain ⟨u', hu', -, hc', -⟩ := e2 0 (by omega)
  rw [hk, Option.some.injEq] at hu
  subst hu
  have h3 : ops.separation p r.info.ctrCoord = ops.separation p u'.info.ctrCoord := by
    rw [hops, hops, hc, hc']
    unfold greatCircle cosSep
    simp only [hcp, zero_mul, add_zero]
  have h4 : k = 0 := by
    rcases hmin 0 u' hu' with h | h
    · exact absurd h3 h.ne
    · omega
  subst h4
  exact ⟨r, hr, hk⟩

/-- C35 is not vacuous: with a projection that is defined everywhere the sky map is built, whatever the number of tracts, the
declinations, the overlap and the tract builder. -/
theorem C35_builds (hn : 1 ≤ n) (h0 : |d0| ≤ 90) (h1 : |d1| ≤ 90) (hx : 0 < b₀.patchInnerDimensions.x)
    (hy : 0 < b₀.patchInnerDimensions.y) (hw : ∀ ctr c, ∃ q, (mk ctr).skyToPixel c = .pix q) :
    ∃ l ts b, tracts exact mk ⟨n, [d0, d1], ov⟩ = .ok l ∧ EagerSkyMap.buildAll env ops l 0 b₀ = .ok (ts, b) := by
  rw [tracts_exact hn h0 h1]
  obtain ⟨ts, b, h3⟩ := EagerSkyMap.buildAll_total env ops ((List.range n).map (args mk n d0 d1 ov)) 0 b₀ hx hy (by
    intro a ha c _
    obtain ⟨k, -, rfl⟩ := List.mem_map.1 ha
    exact hw _ _)
  exact ⟨_, ts, b, rfl, h3⟩

example : ∃ (env : FloatEnv ℝ) (ops : SkyOps (SpherePoint ℝ) ℝ) (mk : SpherePoint ℝ → Wcs (SpherePoint ℝ) ℝ)
    (l : List (TractArgs (SpherePoint ℝ) ℝ)) (ts : List (TractRef (SpherePoint ℝ) ℝ)) (b : TractBuilder),
    (∀ p q, ops.separation p q = greatCircle p q) ∧ tracts exact mk ⟨4, [-(5 / 4), 5 / 4], 0⟩ = .ok l ∧
    EagerSkyMap.buildAll env ops l 0 Ex.legacy = .ok (ts, b) ∧ ts.length = 4 := by
  obtain ⟨l, ts, b, h1, h2⟩ := C35_builds (n := 4) (d0 := -(5 / 4)) (d1 := 5 / 4) (ov := 0) (b₀ := Ex.legacy)
    (env := ⟨id, fun x => x + 1, ⟨0, 0⟩⟩) (ops := ⟨fun c b r => ⟨c.lon + b / 1000 * r, c.lat + r⟩, greatCircle⟩)
    (mk := fun _ => ⟨fun c => .pix ⟨100 * c.lon, 100 * c.lat⟩, fun q => ⟨q.x / 100, q.y / 100⟩⟩)
    (by norm_num) (by rw [abs_le]; norm_num) (by rw [abs_le]; norm_num) (by decide) (by decide) (fun _ _ => ⟨_, rfl⟩)
  refine ⟨_, _, _, l, ts, b, fun _ _ => rfl, by simpa using h1, h2, ?_⟩
  exact (C35_tracts (n := 4) (by norm_num) (by rw [abs_le]; norm_num) (by rw [abs_le]; norm_num) h1 (by decide) (by decide) h2).1

end Equat
end Skymap
