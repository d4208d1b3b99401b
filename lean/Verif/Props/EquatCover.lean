import Verif.Props.Equat
import Verif.Props.ExplicitCover

/-! # C59: what the tracts of the equatorial sky map contain, with its cylindrical projection -/

set_option linter.unusedSectionVars false

namespace Skymap
open Real

/-- Every tract of an eagerly built sky map is what the constructor makes of its arguments and the builder's configuration. -/
theorem EagerSkyMap.buildAll_fresh {Sky K : Type} [Field K] [LinearOrder K] [FloorRing K] {env : FloatEnv K} {ops : SkyOps Sky K}
    {l : List (TractArgs Sky K)} {n : Nat} {b₀ b : TractBuilder} {ts : List (TractRef Sky K)}
    (h : EagerSkyMap.buildAll env ops l n b₀ = .ok (ts, b)) {k : Nat} {t : TractRef Sky K} (hk : ts[k]? = some t) :
    ∃ a b', l[k]? = some a ∧ TractInfo.new env ops b₀ a = .ok (t.info, b') := by
  induction l generalizing n b₀ ts k with
  | nil =>
    simp only [EagerSkyMap.buildAll, Except.ok.injEq, Prod.mk.injEq] at h
    obtain ⟨rfl, rfl⟩ := h
    simp at hk
  | cons a l ih =>
    unfold EagerSkyMap.buildAll at h
    obtain ⟨⟨t1, b1⟩, h1, h⟩ := bindOk h
    obtain ⟨⟨ts', b2⟩, h2, h⟩ := bindOk h
    simp only [pure, Except.pure, Except.ok.injEq, Prod.mk.injEq] at h
    obtain ⟨rfl, rfl⟩ := h
    cases k with
    | zero =>
      simp only [List.getElem?_cons_zero, Option.some.injEq] at hk
      subst hk
      exact ⟨a, b1, rfl, h1⟩
    | succ k =>
      simp only [List.getElem?_cons_succ] at hk
      obtain ⟨a', b', g1, g2⟩ := ih h2 hk
      refine ⟨a', b', by simpa using g1, ?_⟩
      have hst : ∃ st, b1 = { b₀ with state := st } := by
        obtain ⟨mb, bbox, n, -, e, -⟩ := TractInfo.new_inv h1
        unfold TractBuilder.setupPatches at e
        obtain ⟨ax, -, e⟩ := bindOk e
        obtain ⟨ay, -, e⟩ := bindOk e
        simp only [pure, Except.pure, Except.ok.injEq, Prod.mk.injEq] at e
        exact ⟨_, e.2.2.symm⟩
      obtain ⟨st, rfl⟩ := hst
      rwa [TractInfo.new_state] at g2

variable {scale : ℝ} {f : WcsFactory} {flipX : Bool} {other : P2 ℝ → SpherePoint ℝ → CdMatrix → String → Wcs (SpherePoint ℝ) ℝ}

theorem arg_cos_sin {y : ℝ} (h1 : -π < y) (h2 : y ≤ π) : Complex.arg ⟨cos y, sin y⟩ = y := by
  have e : (⟨cos y, sin y⟩ : ℂ) = Complex.cos y + Complex.sin y * Complex.I := by
    apply Complex.ext <;> simp [← Complex.ofReal_cos, ← Complex.ofReal_sin]
  rw [e, Complex.arg_cos_add_sin_mul_I ⟨h1, h2⟩]

theorem arg_eq_arctan {X : ℝ} (hX : 0 < X) (y : ℝ) : Complex.arg ⟨X, y⟩ = arctan (y / X) := by
  have hc := cos_arctan_pos (y / X)
  have e : (⟨X, y⟩ : ℂ) = ((X / cos (arctan (y / X)) : ℝ) : ℂ) * (Complex.cos (arctan (y / X)) + Complex.sin (arctan (y / X)) * Complex.I) := by
    rw [← Complex.ofReal_cos, ← Complex.ofReal_sin]
    apply Complex.ext
    · simp only [Complex.mul_re, Complex.ofReal_re, Complex.add_re, Complex.I_re, Complex.ofReal_im, Complex.I_im, Complex.add_im, Complex.mul_im]
      field_simp; ring
    · simp only [Complex.mul_re, Complex.ofReal_re, Complex.add_re, Complex.I_re, Complex.ofReal_im, Complex.I_im, Complex.add_im, Complex.mul_im]
      have : sin (arctan (y / X)) = tan (arctan (y / X)) * cos (arctan (y / X)) := by
        rw [tan_eq_sin_div_cos]; field_simp
      rw [this, tan_arctan]
      field_simp; ring
  rw [e, Complex.arg_mul_cos_add_sin_mul_I (by positivity) ⟨?_, ?_⟩]
  · have := neg_pi_div_two_lt_arctan (y / X); have := pi_pos; linarith
  · have := arctan_lt_pi_div_two (y / X); have := pi_pos; linarith

/-- The pixel of a position in the cylindrical projection. -/
theorem cea_pixel (hf : WcsFactory.new scale "CEA" 0 flipX = .ok f) (hs : 0 < scale) {m : ℝ} {p : SpherePoint ℝ} {y : ℝ}
    (h1 : -π < y) (h2 : y ≤ π) (hc : cos (p.lon - m) = cos y) (hn : sin (p.lon - m) = sin y) :
    (f.makeWcs other ⟨0, 0⟩ ⟨m, 0⟩).skyToPixel p = .pix ⟨(if flipX then 1 else -1) * y / scale, sin p.lat / scale⟩ := by
  rw [WcsFactory.makeWcs_eq hf (P := .CEA) rfl]
  unfold makeSkyWcs Projection.toPlane
  dsimp only
  rw [if_pos rfl]
  dsimp only
  rw [hc, hn, arg_cos_sin h1 h2, makeCdMatrix_solve hs.ne']
  simp

/-- Every position has a pixel in the cylindrical projection; its height is the sine of the latitude. -/
theorem cea_total (hf : WcsFactory.new scale "CEA" 0 flipX = .ok f) (hs : 0 < scale) (m : ℝ) (p : SpherePoint ℝ) :
    ∃ x, (f.makeWcs other ⟨0, 0⟩ ⟨m, 0⟩).skyToPixel p = .pix ⟨x, sin p.lat / scale⟩ := by
  rw [WcsFactory.makeWcs_eq hf (P := .CEA) rfl]
  unfold makeSkyWcs Projection.toPlane
  dsimp only
  rw [if_pos rfl]
  dsimp only
  rw [makeCdMatrix_solve hs.ne']
  simp only [cos_zero, sin_zero, zero_add, one_mul, zero_mul, sub_zero]
  exact ⟨_, rfl⟩

/-- How far in longitude the eastern neighbour at distance `δ` of a position at latitude `d` is. -/
noncomputable def lonReach (δ d : ℝ) : ℝ := arctan (tan δ / cos d)

theorem arg_eq_lonReach {δ d : ℝ} (h0 : 0 ≤ δ) (h1 : δ < π / 2) (hd : 0 < cos d) :
    Complex.arg ⟨cos d * cos δ, sin δ⟩ = lonReach δ d ∧ Complex.arg ⟨cos d * cos δ, -sin δ⟩ = -lonReach δ d := by
  have hp := pi_pos
  have hc : 0 < cos δ := cos_pos_of_mem_Ioo ⟨by linarith, h1⟩
  unfold lonReach
  rw [arg_eq_arctan (by positivity), arg_eq_arctan (by positivity), tan_eq_sin_div_cos, neg_div, arctan_neg, div_div, mul_comm (cos d)]
  exact ⟨rfl, rfl⟩

/-- The positions that size a tract given by vertices, with the overlap in each direction. -/
theorem vertex_samples {a : TractArgs (SpherePoint ℝ) ℝ} {l : List (SpherePoint ℝ)} (hl : a.shape = .vertices l) {v : SpherePoint ℝ}
    (hv : v ∈ l) (h0 : 0 ≤ a.tractOverlap) (h1 : a.tractOverlap < π) (hd : 0 < cos v.lat) :
    (∃ s ∈ samplePoints sphereOps a, ∀ x, cos (s.lon - x) = cos (v.lon + lonReach (a.tractOverlap / 2) v.lat - x) ∧
      sin (s.lon - x) = sin (v.lon + lonReach (a.tractOverlap / 2) v.lat - x)) ∧
    (∃ s ∈ samplePoints sphereOps a, ∀ x, cos (s.lon - x) = cos (v.lon - lonReach (a.tractOverlap / 2) v.lat - x) ∧
      sin (s.lon - x) = sin (v.lon - lonReach (a.tractOverlap / 2) v.lat - x)) ∧
    (∃ s ∈ samplePoints sphereOps a, sin s.lat = sin (v.lat + a.tractOverlap / 2)) ∧
    (∃ s ∈ samplePoints sphereOps a, sin s.lat = sin (v.lat - a.tractOverlap / 2)) := by
  rcases eq_or_ne a.tractOverlap 0 with hz | hz
  · have hm : v ∈ samplePoints sphereOps a := (C12_sample_points _ _ _).2 (.inl ⟨l, hl, hz, hv⟩)
    have hr : lonReach (a.tractOverlap / 2) v.lat = 0 := by unfold lonReach; rw [hz]; simp
    refine ⟨⟨v, hm, ?_⟩, ⟨v, hm, ?_⟩, ⟨v, hm, ?_⟩, ⟨v, hm, ?_⟩⟩
    · intro x; rw [hr, add_zero]; exact ⟨rfl, rfl⟩
    · intro x; rw [hr, sub_zero]; exact ⟨rfl, rfl⟩
    · rw [hz]; simp
    · rw [hz]; simp
  · have hm : ∀ i : Nat, i < 24 → v.offset (15 * (i : ℝ)) (a.tractOverlap / 2) ∈ samplePoints sphereOps a := fun i hi =>
      (C12_sample_points _ _ _).2 (.inr (.inl ⟨l, hl, hz, v, hv, i, hi, rfl⟩))
    obtain ⟨r1, r2⟩ := arg_eq_lonReach (δ := a.tractOverlap / 2) (by linarith) (by linarith) hd
    refine ⟨⟨_, hm 0 (by norm_num), ?_⟩, ⟨_, hm 12 (by norm_num), ?_⟩, ⟨_, hm 6 (by norm_num), ?_⟩, ⟨_, hm 18 (by norm_num), ?_⟩⟩
    · intro x
      unfold SpherePoint.offset fromLocal
      dsimp only
      rw [cos_wrap_sub, sin_wrap_sub]
      simp [r1]
    · intro x
      unfold SpherePoint.offset fromLocal
      dsimp only
      rw [cos_wrap_sub, sin_wrap_sub, show (15 : ℝ) * (12 : ℕ) * (π / 180) = π by push_cast; ring]
      simp [r2, sub_eq_add_neg]
    · unfold SpherePoint.offset fromLocal
      dsimp only
      rw [show (15 : ℝ) * (6 : ℕ) * (π / 180) = π / 2 by push_cast; ring, sin_pi_div_two, mul_one,
        show cos v.lat * sin (a.tractOverlap / 2) + sin v.lat * cos (a.tractOverlap / 2) = sin (v.lat + a.tractOverlap / 2) by
          rw [sin_add]; ring, sin_arcsin (neg_one_le_sin _) (sin_le_one _)]
    · unfold SpherePoint.offset fromLocal
      dsimp only
      rw [show (15 : ℝ) * (18 : ℕ) * (π / 180) = π / 2 + π by push_cast; ring, sin_add_pi, sin_pi_div_two, mul_neg_one, mul_neg,
        show -(cos v.lat * sin (a.tractOverlap / 2)) + sin v.lat * cos (a.tractOverlap / 2) = sin (v.lat - a.tractOverlap / 2) by
          rw [sin_sub]; ring, sin_arcsin (neg_one_le_sin _) (sin_le_one _)]

theorem lonReach_range (d : ℝ) {δ : ℝ} (h0 : 0 ≤ δ) (h1 : δ < π / 2) (hd : 0 < cos d) : 0 ≤ lonReach δ d ∧ lonReach δ d < π / 2 := by
  unfold lonReach
  refine ⟨?_, arctan_lt_pi_div_two _⟩
  rw [arctan_nonneg]
  have := tan_nonneg_of_nonneg_of_le_pi_div_two h0 h1.le
  positivity

namespace Equat
open FloatArith (exact)
variable {env : FloatEnv ℝ} {n : Nat} {d0 d1 ov : ℝ} {ts : List (TractRef (SpherePoint ℝ) ℝ)} {b₀ b : TractBuilder}

theorem cos_rad_pos {x : ℝ} (h : |x| < 90) : 0 < cos (rad x) := by
  have hp := pi_pos
  have := abs_lt.1 h
  unfold rad
  apply cos_pos_of_mem_Ioo
  constructor <;> nlinarith

/-- C59: with two tracts or more, the cylindrical projection and no rotation, tract `k` of an equatorial sky map contains every position
whose declination is in the configured range, half the overlap added on both sides, and whose right ascension is within half the width
of the tract from its middle, the reach in right ascension of half the overlap at one of the two declinations added. -/
theorem C59_contains (hn : 2 ≤ n) (h0 : |d0| < 90) (h1 : |d1| < 90) (hov : 0 ≤ ov) (hov1 : ov < 180) (k0 : -90 ≤ d0 - ov / 2) (k1 : d1 + ov / 2 ≤ 90)
    (he : env.Ok) (hx : 0 < b₀.patchInnerDimensions.x) (hy : 0 < b₀.patchInnerDimensions.y)
    (hf : WcsFactory.new scale "CEA" 0 flipX = .ok f) (hs : 0 < scale) {l : List (TractArgs (SpherePoint ℝ) ℝ)}
    (hl : tracts exact (f.makeWcs other ⟨0, 0⟩) ⟨n, [d0, d1], ov⟩ = .ok l)
    (hb : EagerSkyMap.buildAll env sphereOps l 0 b₀ = .ok (ts, b)) {k : Nat} {t : TractRef (SpherePoint ℝ) ℝ} (hk : ts[k]? = some t)
    {p : SpherePoint ℝ} (hp0 : rad (d0 - ov / 2) ≤ p.lat) (hp1 : p.lat ≤ rad (d1 + ov / 2)) {d : ℝ} (hd : d = d0 ∨ d = d1) (j : Int)
    (hra : |p.lon - (2 * k + 1) * π / n + j * (2 * π)| ≤ π / n + lonReach (rad ov / 2) (rad d)) : t.info.contains p = true := by
  have hp := pi_pos
  have hn' : (2 : ℝ) ≤ n := by exact_mod_cast hn
  have hn0 : (0 : ℝ) < n := by linarith
  obtain ⟨a, b', ha, hnew⟩ := EagerSkyMap.buildAll_fresh hb hk
  rw [tracts_exact (by omega) h0.le h1.le, Except.ok.injEq] at hl
  subst hl
  have hkn : k < n := by
    have := (List.getElem?_eq_some_iff.1 ha).1
    simpa using this
  rw [List.getElem?_map, List.getElem?_range hkn, Option.map_some, Option.some.injEq] at ha
  subst ha
  have a0 := abs_lt.1 h0
  have a1 := abs_lt.1 h1
  have ov180 := hov1
  set ρ := lonReach (rad ov / 2) (rad d) with hρ
  have hrov : 0 ≤ rad ov := by unfold rad; positivity
  have hrov1 : rad ov < π := by unfold rad; nlinarith
  have hcd : 0 < cos (rad d) := by rcases hd with rfl | rfl; exacts [cos_rad_pos h0, cos_rad_pos h1]
  obtain ⟨ρ0, ρ1⟩ := lonReach_range (rad d) (δ := rad ov / 2) (by linarith) (by linarith) hcd
  rw [← hρ] at ρ0 ρ1
  have hpn : π / n ≤ π / 2 := by gcongr
  have hpn0 : 0 < π / n := by positivity
  -- the position
  set m : ℝ := (2 * k + 1) * π / n with hm
  set y := p.lon - m + j * (2 * π) with hy'
  have hyy := abs_le.1 hra
  have hpix := cea_pixel (other := other) hf hs (m := m) (p := p) (y := y) (by linarith) (by linarith)
    (by rw [hy', cos_add_int_mul_two_pi]) (by rw [hy', sin_add_int_mul_two_pi])
  -- the vertices
  set e : ℝ := if k + 1 = n then 0 else 2 * π * (k + 1) / n with hee
  have hbm : 2 * π * k / n - m = -(π / n) := by rw [hm]; field_simp; ring
  have hem : ∃ i : Int, e - m = π / n - i * (2 * π) := by
    rw [hee]
    split
    · next hh =>
      refine ⟨1, ?_⟩
      have : (k : ℝ) = n - 1 := by rw [← hh]; push_cast; ring
      rw [hm, this]; field_simp; push_cast; ring
    · exact ⟨0, by rw [hm]; field_simp; push_cast; ring⟩
  have hshape : (args (f.makeWcs other ⟨0, 0⟩) n d0 d1 ov k).shape = .vertices (quad (2 * π * k / n) e (rad d0) (rad d1)) := rfl
  have hwcs : (args (f.makeWcs other ⟨0, 0⟩) n d0 d1 ov k).wcs = f.makeWcs other ⟨0, 0⟩ ⟨m, 0⟩ := rfl
  have mw : (⟨2 * π * k / n, rad d⟩ : SpherePoint ℝ) ∈ quad (2 * π * k / n) e (rad d0) (rad d1) := by
    unfold quad; rcases hd with rfl | rfl <;> simp
  have me : (⟨e, rad d⟩ : SpherePoint ℝ) ∈ quad (2 * π * k / n) e (rad d0) (rad d1) := by
    unfold quad; rcases hd with rfl | rfl <;> simp
  have mb : (⟨e, rad d0⟩ : SpherePoint ℝ) ∈ quad (2 * π * k / n) e (rad d0) (rad d1) := by unfold quad; simp
  have mt : (⟨e, rad d1⟩ : SpherePoint ℝ) ∈ quad (2 * π * k / n) e (rad d0) (rad d1) := by unfold quad; simp
  obtain ⟨-, ⟨sw, sw1, sw2⟩, -⟩ := vertex_samples hshape mw hrov hrov1 hcd
  obtain ⟨⟨se, se1, se2⟩, -⟩ := vertex_samples hshape me hrov hrov1 hcd
  obtain ⟨-, -, -, ⟨sb, sb1, sb2⟩⟩ := vertex_samples hshape mb hrov hrov1 (cos_rad_pos h0)
  obtain ⟨-, -, ⟨st, st1, st2⟩, -⟩ := vertex_samples hshape mt hrov hrov1 (cos_rad_pos h1)
  have htov : (args (f.makeWcs other ⟨0, 0⟩) n d0 d1 ov k).tractOverlap = rad ov := rfl
  rw [htov] at sw2 se2 sb2 st2
  dsimp only at sw2 se2 sb2 st2
  rw [← hρ] at sw2 se2
  have pw := cea_pixel (other := other) hf hs (m := m) (p := sw) (y := -(π / n) - ρ) (by linarith) (by linarith)
    (by rw [(sw2 m).1]; congr 1; linarith) (by rw [(sw2 m).2]; congr 1; linarith)
  obtain ⟨i, hi⟩ := hem
  have pe := cea_pixel (other := other) hf hs (m := m) (p := se) (y := π / n + ρ) (by linarith) (by linarith)
    (by rw [(se2 m).1, show e + ρ - m = π / n + ρ - i * (2 * π) by linarith, cos_sub_int_mul_two_pi])
    (by rw [(se2 m).2, show e + ρ - m = π / n + ρ - i * (2 * π) by linarith, sin_sub_int_mul_two_pi])
  obtain ⟨xb, pb⟩ := cea_total (other := other) hf hs m sb
  obtain ⟨xt, pt⟩ := cea_total (other := other) hf hs m st
  have r0 : rad (d0 - ov / 2) = rad d0 - rad ov / 2 := by unfold rad; ring
  have r1 : rad (d1 + ov / 2) = rad d1 + rad ov / 2 := by unfold rad; ring
  have q0 : -(π / 2) ≤ rad (d0 - ov / 2) := by unfold rad; nlinarith
  have q1 : rad (d1 + ov / 2) ≤ π / 2 := by unfold rad; nlinarith
  have lo : sin sb.lat / scale ≤ sin p.lat / scale := by
    gcongr
    rw [sb2, ← r0]
    exact sin_le_sin_of_le_of_le_pi_div_two q0 (by linarith) hp0
  have hi' : sin p.lat / scale ≤ sin st.lat / scale := by
    gcongr
    rw [st2, ← r1]
    exact sin_le_sin_of_le_of_le_pi_div_two (by linarith) q1 hp1
  have w1 : (-(π / n) - ρ) / scale ≤ y / scale := by gcongr; linarith
  have w2 : y / scale ≤ (π / n + ρ) / scale := by gcongr; linarith
  cases hflip : flipX with
  | true =>
    rw [hflip] at hpix pw pe
    refine TractInfo.contains_between he hnew hx hy (by rw [hwcs]; exact hpix) ⟨sw, sw1, _, by rw [hwcs]; exact pw, ?_⟩
      ⟨se, se1, _, by rw [hwcs]; exact pe, ?_⟩ ⟨sb, sb1, _, by rw [hwcs]; exact pb, lo⟩ ⟨st, st1, _, by rw [hwcs]; exact pt, hi'⟩
    · simp only [if_true, one_mul]; exact w1
    · simp only [if_true, one_mul]; exact w2
  | false =>
    rw [hflip] at hpix pw pe
    refine TractInfo.contains_between he hnew hx hy (by rw [hwcs]; exact hpix) ⟨se, se1, _, by rw [hwcs]; exact pe, ?_⟩
      ⟨sw, sw1, _, by rw [hwcs]; exact pw, ?_⟩ ⟨sb, sb1, _, by rw [hwcs]; exact pb, lo⟩ ⟨st, st1, _, by rw [hwcs]; exact pt, hi'⟩
    · simp only [Bool.false_eq_true, if_false, neg_mul, one_mul, neg_div] at *; linarith
    · simp only [Bool.false_eq_true, if_false, neg_mul, one_mul, neg_div] at *; linarith

/-- The right ascension interval of a tract, as a distance from its middle. -/
theorem near_middle {k : Nat} (hk : k < n) {x : ℝ} (hx : 0 ≤ x ∧ x < 2 * π) (h : cos (π / n) ≤ cos (x - (2 * k + 1) * π / n)) :
    ∃ j : Int, |x - (2 * k + 1) * π / n + j * (2 * π)| ≤ π / n := by
  have hp := pi_pos
  have hn0 : (0 : ℝ) < n := by exact_mod_cast (by omega : 0 < n)
  have hk0 : (0 : ℝ) ≤ k := by positivity
  have hkn : (k : ℝ) + 1 ≤ n := by exact_mod_cast hk
  have hn1 : π / n ≤ π := div_le_self hp.le (by linarith)
  have m0 : 0 < (2 * k + 1) * π / n := by positivity
  have m1 : (2 * k + 1) * π / n < 2 * π := by
    rw [div_lt_iff₀ hn0]; nlinarith
  generalize (2 * k + 1) * π / n = m at *
  have key : ∀ y : ℝ, |y| ≤ π → cos (π / n) ≤ cos y → |y| ≤ π / n := by
    intro y h1 h2
    by_contra hc
    rw [← cos_abs y] at h2
    have := cos_lt_cos_of_nonneg_of_le_pi (by positivity) h1 (not_le.1 hc)
    linarith
  rcases le_total |x - m| π with h1 | h1
  · exact ⟨0, by simpa using key _ h1 h⟩
  · rcases abs_cases (x - m) with ⟨h2, h3⟩ | ⟨h2, h3⟩
    · refine ⟨-1, key _ (by rw [abs_le]; constructor <;> push_cast <;> linarith) ?_⟩
      rwa [cos_add_int_mul_two_pi]
    · refine ⟨1, key _ (by rw [abs_le]; constructor <;> push_cast <;> linarith) ?_⟩
      rwa [cos_add_int_mul_two_pi]

/-- C59: the tract that `findTract` returns for a position whose declination is in the configured range, half the overlap added,
contains the position. -/
theorem C59_findTract (hn : 2 ≤ n) (h0 : |d0| < 90) (h1 : |d1| < 90) (hov : 0 ≤ ov) (hov1 : ov < 180) (k0 : -90 ≤ d0 - ov / 2)
    (k1 : d1 + ov / 2 ≤ 90) (he : env.Ok) (hx : 0 < b₀.patchInnerDimensions.x) (hy : 0 < b₀.patchInnerDimensions.y)
    (hf : WcsFactory.new scale "CEA" 0 flipX = .ok f) (hs : 0 < scale) {l : List (TractArgs (SpherePoint ℝ) ℝ)}
    (hl : tracts exact (f.makeWcs other ⟨0, 0⟩) ⟨n, [d0, d1], ov⟩ = .ok l)
    (hb : EagerSkyMap.buildAll env sphereOps l 0 b₀ = .ok (ts, b))
    {p : SpherePoint ℝ} (hlon : 0 ≤ p.lon ∧ p.lon < 2 * π) (hlat : |p.lat| < π / 2) (hp0 : rad (d0 - ov / 2) ≤ p.lat)
    (hp1 : p.lat ≤ rad (d1 + ov / 2)) :
    ∃ t, BaseSkyMap.findTract sphereOps (EagerSkyMap.skyMapOps ts) p b = (.ok t, b) ∧ t.info.contains p = true := by
  have hp := pi_pos
  obtain ⟨k, t, e1, e2, ⟨vb, ve, w0, w1, e3, e3'⟩, -⟩ := C35_findTract (ops := sphereOps) (fun _ _ => rfl) (by omega) h0 h1 hl hx hy hb p
    hlon.1 hlon.2 hlat
  obtain ⟨t1, t2⟩ := C35_tracts (by omega) h0.le h1.le hl hx hy hb
  have hkn : k < n := by rw [← t1]; exact (List.getElem?_eq_some_iff.1 e2).1
  obtain ⟨t', e4, -, -, e5⟩ := t2 k hkn
  rw [e2, Option.some.injEq] at e4
  subst e4
  rw [e5] at e3
  unfold quad at e3
  simp only [List.cons.injEq, SpherePoint.mk.injEq] at e3
  obtain ⟨⟨rfl, -⟩, ⟨rfl, -⟩, -⟩ := e3
  rw [touch_iff hkn hlon] at e3'
  obtain ⟨j, hj⟩ := near_middle hkn hlon e3'
  refine ⟨t, e1, C59_contains hn h0 h1 hov hov1 k0 k1 he hx hy hf hs hl hb e2 hp0 hp1 (.inl rfl) j (hj.trans ?_)⟩
  have hrov : 0 ≤ rad ov := by unfold rad; positivity
  have hrov1 : rad ov < π := by unfold rad; nlinarith
  have := (lonReach_range (rad d0) (δ := rad ov / 2) (by linarith) (by linarith) (cos_rad_pos h0)).1
  linarith

/-- The tracts of an equatorial sky map with the cylindrical projection can be built. -/
theorem C59_builds (hn : 1 ≤ n) (h0 : |d0| ≤ 90) (h1 : |d1| ≤ 90) (hx : 0 < b₀.patchInnerDimensions.x)
    (hy : 0 < b₀.patchInnerDimensions.y) (hf : WcsFactory.new scale "CEA" 0 flipX = .ok f) (hs : 0 < scale) :
    ∃ l ts b, tracts exact (f.makeWcs other ⟨0, 0⟩) ⟨n, [d0, d1], ov⟩ = .ok l ∧
      EagerSkyMap.buildAll env sphereOps l 0 b₀ = .ok (ts, b) := by
  rw [tracts_exact hn h0 h1]
  obtain ⟨ts, b, h3⟩ := EagerSkyMap.buildAll_total env sphereOps ((List.range n).map (args (f.makeWcs other ⟨0, 0⟩) n d0 d1 ov)) 0 b₀ hx hy (by
    intro a ha c _
    obtain ⟨k, -, rfl⟩ := List.mem_map.1 ha
    obtain ⟨x, e⟩ := cea_total (other := other) hf hs ((2 * k + 1) * π / n) c
    exact ⟨_, e⟩)
  exact ⟨_, ts, b, rfl, h3⟩

/-- C59 needs two tracts: the only tract of a sky map with one tract and no overlap does not contain its own centre, unless a patch is
larger than the whole sky (both ends of its right ascension interval are at 0, since 360 degrees are 0). -/
theorem C59_single (h0 : |d0| < 90) (h1 : |d1| < 90) (he : env.Ok) (hx : 0 < b₀.patchInnerDimensions.x)
    (hy : 0 < b₀.patchInnerDimensions.y) (hf : WcsFactory.new scale "CEA" 0 flipX = .ok f) (hs : 0 < scale)
    (hpatch : (b₀.patchInnerDimensions.x : ℝ) / 2 + 2 ≤ π / scale) {l : List (TractArgs (SpherePoint ℝ) ℝ)}
    (hl : tracts exact (f.makeWcs other ⟨0, 0⟩) ⟨1, [d0, d1], 0⟩ = .ok l)
    (hb : EagerSkyMap.buildAll env sphereOps l 0 b₀ = .ok (ts, b)) {t : TractRef (SpherePoint ℝ) ℝ} (hk : ts[0]? = some t) :
    t.info.contains t.info.ctrCoord = false := by
  have hp := pi_pos
  obtain ⟨a, b', ha, hnew⟩ := EagerSkyMap.buildAll_fresh hb hk
  have := tracts_exact (mk := f.makeWcs other ⟨0, 0⟩) (n := 1) (ov := 0) (by omega) h0.le h1.le
  rw [Nat.cast_one] at this
  rw [this, Except.ok.injEq] at hl
  subst hl
  simp only [List.range_one, List.map_cons, List.map_nil, List.getElem?_cons_zero, Option.some.injEq] at ha
  subst ha
  have hctr : t.info.ctrCoord = ⟨π, (rad d0 + rad d1) / 2⟩ := by
    obtain ⟨mb, bbox, n, -, -, e⟩ := TractInfo.new_inv hnew
    rw [e]; simp [args]
  have hwcs : (args (f.makeWcs other ⟨0, 0⟩) 1 d0 d1 0 0).wcs = f.makeWcs other ⟨0, 0⟩ ⟨π, 0⟩ := by simp [args]
  have hpix : (args (f.makeWcs other ⟨0, 0⟩) 1 d0 d1 0 0).wcs.skyToPixel t.info.ctrCoord =
      .pix ⟨(if flipX then 1 else -1) * 0 / scale, sin ((rad d0 + rad d1) / 2) / scale⟩ := by
    rw [hwcs, hctr]
    exact cea_pixel hf hs (by linarith) (by linarith) (by simp) (by simp)
  rw [Bool.eq_false_iff]
  intro hc
  obtain ⟨⟨s1, m1, r1, p1, g1⟩, ⟨s2, m2, r2, p2, g2⟩, -⟩ := TractInfo.contains_bound he hnew hx hy hpix hc
  have key : ∀ s ∈ samplePoints sphereOps (args (f.makeWcs other ⟨0, 0⟩) 1 d0 d1 0 0), ∀ r,
      (args (f.makeWcs other ⟨0, 0⟩) 1 d0 d1 0 0).wcs.skyToPixel s = .pix r → r.x = (if flipX then 1 else -1) * π / scale := by
    intro s hs' r hr
    have hz : (args (f.makeWcs other ⟨0, 0⟩) 1 d0 d1 0 0).tractOverlap = 0 := by simp [args, rad]
    have hl0 : s.lon = 0 := by
      rw [C12_sample_points] at hs'
      rcases hs' with ⟨l, e, -, hsl⟩ | ⟨l, -, hne, -⟩ | ⟨r, e, -⟩
      · simp only [args, quad, TractShape.vertices.injEq] at e
        subst e
        simp only [List.mem_cons, List.not_mem_nil, or_false] at hsl
        rcases hsl with rfl | rfl | rfl | rfl <;> simp
      · exact absurd hz hne
      · simp [args] at e
    rw [hwcs, cea_pixel hf hs (y := π) (by linarith) le_rfl (by rw [hl0]; simp) (by rw [hl0]; simp)] at hr
    cases hr
    rfl
  have e1 := key s1 m1 r1 p1
  have e2 := key s2 m2 r2 p2
  cases hflip : flipX with
  | true => rw [hflip] at g1 e1; simp at g1 e1; linarith
  | false => rw [hflip] at g2 e2; simp [neg_div] at g2 e2; linarith

/-- C59 is not vacuous: the default configuration (four tracts, -1.25 to 1.25 degrees, an overlap of one degree), and one tract. -/
example : (∃ (f : WcsFactory) (l : List (TractArgs (SpherePoint ℝ) ℝ)) (ts : List (TractRef (SpherePoint ℝ) ℝ)) (b : TractBuilder)
      (t : TractRef (SpherePoint ℝ) ℝ), WcsFactory.new (1 / 1000) "CEA" 0 false = .ok f ∧
      tracts exact (f.makeWcs other ⟨0, 0⟩) ⟨4, [-(5 / 4), 5 / 4], 1⟩ = .ok l ∧
      EagerSkyMap.buildAll Ex.realEnv sphereOps l 0 Ex.smallBuilder = .ok (ts, b) ∧
      BaseSkyMap.findTract sphereOps (EagerSkyMap.skyMapOps ts) ⟨2, 1 / 100⟩ b = (.ok t, b) ∧ t.info.contains ⟨2, 1 / 100⟩ = true) ∧
    (∃ (f : WcsFactory) (l : List (TractArgs (SpherePoint ℝ) ℝ)) (ts : List (TractRef (SpherePoint ℝ) ℝ)) (b : TractBuilder)
      (t : TractRef (SpherePoint ℝ) ℝ), WcsFactory.new (1 / 1000) "CEA" 0 false = .ok f ∧
      tracts exact (f.makeWcs other ⟨0, 0⟩) ⟨1, [-(5 / 4), 5 / 4], 0⟩ = .ok l ∧
      EagerSkyMap.buildAll Ex.realEnv sphereOps l 0 Ex.smallBuilder = .ok (ts, b) ∧ ts[0]? = some t ∧
      t.info.contains t.info.ctrCoord = false) := by
  have hp := pi_gt_three
  have hp4 := pi_lt_d4
  have hd : |(-(5 / 4) : ℝ)| < 90 ∧ |(5 / 4 : ℝ)| < 90 := by constructor <;> norm_num [abs_lt]
  obtain ⟨f, hf⟩ := (WcsFactory.C56_projection_length (1 / 1000) "CEA" 0 false).2 rfl
  constructor
  · obtain ⟨l, ts, b, h1, h2⟩ := C59_builds (env := Ex.realEnv) (b₀ := Ex.smallBuilder) (other := other) (n := 4) (ov := 1) (by norm_num)
      hd.1.le hd.2.le (by decide) (by decide) hf (by norm_num)
    obtain ⟨t, h3, h4⟩ := C59_findTract (p := ⟨2, 1 / 100⟩) (by norm_num) hd.1 hd.2 (by norm_num) (by norm_num) (by norm_num) (by norm_num)
      Ex.realEnv_ok (by decide) (by decide) hf (by norm_num) h1 h2 ⟨by norm_num, by dsimp only; linarith⟩
      (by dsimp only; rw [abs_of_pos (by norm_num)]; linarith) (by unfold rad; dsimp only; linarith) (by unfold rad; dsimp only; linarith)
    exact ⟨f, l, ts, b, t, hf, by exact_mod_cast h1, h2, h3, h4⟩
  · obtain ⟨l, ts, b, h1, h2⟩ := C59_builds (env := Ex.realEnv) (b₀ := Ex.smallBuilder) (other := other) (n := 1) (ov := 0) (by norm_num)
      hd.1.le hd.2.le (by decide) (by decide) hf (by norm_num)
    have hlen := (C35_tracts (by norm_num) hd.1.le hd.2.le h1 (by decide) (by decide) h2).1
    have h3 : ts[0]? = some (ts[0]'(by omega)) := List.getElem?_eq_getElem _
    rw [Nat.cast_one] at h1
    refine ⟨f, l, ts, b, _, hf, h1, h2, h3, C59_single hd.1 hd.2 Ex.realEnv_ok (by decide) (by decide) hf (by norm_num) ?_ h1 h2 h3⟩
    have e : (Ex.smallBuilder.patchInnerDimensions.x : ℝ) = 20 := by norm_num [Ex.smallBuilder]
    rw [e]; norm_num; linarith

end Equat
end Skymap
