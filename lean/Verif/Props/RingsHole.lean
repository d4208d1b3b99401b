import Verif.Props.RingsUnion
import Verif.Props.RingsAll
import Verif.Props.RingsAllRounding

/-!
# C78, the other side: with small patches a position can be in no tract at all
-/

set_option linter.unusedSectionVars false

namespace Skymap
open Real

/-- A position whose latitude differs by more than 1/28 radians is not in the square of half size 0.0133 of the tangent plane. -/
theorem far_square {ctr p : SpherePoint ℝ} {z : P2 ℝ} (c1 : 0 ≤ cos ctr.lat) (c2 : 0 ≤ cos p.lat) (hd : 0.0359 ≤ p.lat - ctr.lat)
    (hd' : p.lat - ctr.lat ≤ π) (hz : Projection.TAN.toPlane ctr p = some z) (z1 : |z.x| ≤ 0.0133) (z2 : |z.y| ≤ 0.0133) : False := by
  have hD : 0 < cosSep ctr p := by
    by_contra hc
    simp [Projection.toPlane, hc] at hz
  have hz' : z = ⟨eastOf ctr p / cosSep ctr p, northOf ctr p / cosSep ctr p⟩ := by
    unfold Projection.toPlane at hz
    dsimp only at hz
    rw [if_pos hD] at hz
    exact (Option.some.inj hz).symm
  have hle : cosSep ctr p ≤ cos (p.lat - ctr.lat) := by
    unfold cosSep
    have e := cos_sub p.lat ctr.lat
    have : cos ctr.lat * cos p.lat * cos (ctr.lon - p.lon) ≤ cos ctr.lat * cos p.lat :=
      mul_le_of_le_one_right (by positivity) (cos_le_one _)
    linarith
  have hc : cos (p.lat - ctr.lat) ≤ cos 0.0359 := cos_le_cos_of_nonneg_of_le_pi (by norm_num) hd' hd
  have hs := sin_gt_sub_cube (x := 0.0359) (by norm_num)
  have hs2 : (0.03587 : ℝ) ^ 2 ≤ sin 0.0359 ^ 2 := by gcongr; norm_num at hs ⊢; linarith
  have hsc := sin_sq_add_cos_sq (0.0359 : ℝ)
  have hD2 : cosSep ctr p ^ 2 ≤ cos 0.0359 ^ 2 := by gcongr; linarith
  have key : ∀ E : ℝ, |E / cosSep ctr p| ≤ 0.0133 → E ^ 2 ≤ 0.0133 ^ 2 * cosSep ctr p ^ 2 := by
    intro E hE
    rw [abs_div, abs_of_pos hD, div_le_iff₀ hD] at hE
    rw [← sq_abs E, ← mul_pow]
    gcongr
  have hD3 : cosSep ctr p ^ 2 ≤ 1 - 0.03587 ^ 2 := by linarith
  clear hs2 hsc hD2 hs
  rw [hz'] at z1 z2
  have k1 := key _ z1
  have k2 := key _ z2
  have hl := local_sq ctr p
  norm_num at k1 k2 hD3 ⊢
  linarith

namespace Rings
open FloatArith (exact)
variable {R : Rings ℝ}
variable {env : FloatEnv ℝ} {b₀ : TractBuilder}
variable {f : WcsFactory} {flipX : Bool} {other : P2 ℝ → SpherePoint ℝ → CdMatrix → String → Wcs (SpherePoint ℝ) ℝ}

/-- Bounds for the position below, s = π/121. -/
theorem hole_bounds {s : ℝ} (hs : s = π / 121) : 0.0132 < 41 / 80 * s ∧ 41 / 80 * s < 0.01331 ∧ 0.0133003 ≤ sin (41 / 80 * s) ∧ 0.012656 ≤ sin (39 / 80 * s) ∧
    0.9996 ≤ cos s ∧ 0.0488 ≤ 1 - cos (π / 10) ∧ tan (s / 2 + π / 10800) ≤ 0.013274 := by
  have h1 := pi_gt_d6
  have h2 := pi_lt_d6
  have a1 : 0.0259635 < s := by rw [hs]; linarith
  have a2 : s < 0.0259636 := by rw [hs]; linarith
  refine ⟨by linarith, by linarith, ?_, ?_, ?_, ?_, ?_⟩
  · have := sin_gt_sub_cube (x := 41 / 80 * s) (by linarith)
    have k : (41 / 80 * s) ^ 3 ≤ 0.01331 ^ 3 := by gcongr; linarith
    linarith
  · have := sin_gt_sub_cube (x := 39 / 80 * s) (by linarith)
    have k : (39 / 80 * s) ^ 3 ≤ 0.0127 ^ 3 := by gcongr; linarith
    linarith
  · have := one_sub_sq_div_two_le_cos (x := s)
    nlinarith
  · have e1 : cos (π / 5) = 2 * cos (π / 10) ^ 2 - 1 := by rw [← cos_two_mul]; ring_nf
    rw [cos_pi_div_five] at e1
    have h5 : √5 < 2.23607 := by rw [sqrt_lt' (by norm_num)]; norm_num
    have : cos (π / 10) ≤ 0.9512 := by
      by_contra hc
      nlinarith
    linarith
  · have c0 : 0 < cos (s / 2 + π / 10800) := cos_pos_of_mem_Ioo ⟨by linarith, by linarith⟩
    rw [tan_eq_sin_div_cos, div_le_iff₀ c0]
    have k1 := sin_lt (x := s / 2 + π / 10800) (by linarith)
    have k2 := one_sub_sq_div_two_le_cos (x := s / 2 + π / 10800)
    have k3 : (s / 2 + π / 10800) ^ 2 ≤ 0.013274 ^ 2 := by gcongr; linarith
    nlinarith

/-- The centres of ten tracts are at least 18 degrees from the right ascension of 90 degrees. -/
theorem hole_lon {u : Int} (h0 : 0 ≤ u) (h1 : u < 10) : cos (π / 2 - 2 * π * u / 10) ≤ cos (π / 10) := by
  have hp := pi_pos
  have key : ∀ x : ℝ, π / 10 ≤ x → x ≤ π → cos x ≤ cos (π / 10) := fun x x1 x2 =>
    cos_le_cos_of_nonneg_of_le_pi (by linarith) x2 x1
  have key2 : ∀ x : ℝ, π / 10 ≤ x → x ≤ 2 * π - π / 10 → cos x ≤ cos (π / 10) := by
    intro x x1 x2
    rcases le_total x π with h | h
    · exact key x x1 h
    · rw [← cos_two_pi_sub]; exact key _ (by linarith) (by linarith)
  rcases le_or_gt u 2 with h | h
  · have : (u : ℝ) ≤ 2 := by exact_mod_cast h
    have u0 : (0 : ℝ) ≤ u := by exact_mod_cast h0
    have e : 2 * π * (u : ℝ) / 10 = π / 5 * u := by ring
    have g1 : π / 5 * u ≤ π / 5 * 2 := by gcongr
    have g2 : 0 ≤ π / 5 * u := by positivity
    refine key2 _ ?_ ?_ <;> rw [e] <;> linarith
  · have u3 : (3 : ℝ) ≤ u := by exact_mod_cast h
    have u9 : (u : ℝ) ≤ 9 := by exact_mod_cast (by omega : u ≤ 9)
    have e : 2 * π * (u : ℝ) / 10 = π / 5 * u := by ring
    have g1 : π / 5 * 3 ≤ π / 5 * u := by gcongr
    have g2 : π / 5 * u ≤ π / 5 * 9 := by gcongr
    rw [← cos_neg, neg_sub]
    refine key2 _ ?_ ?_ <;> rw [e] <;> linarith

/-- C78 cannot do without the overlap or the growth to whole patches: with 120 rings, an overlap of an arc minute and pixels of 0.2 arc
seconds, as for the Rubin Observatory, but patches such that a tract is at most 27430 pixels wide, there is a position that no
tract of the sky map ever contains. -/
theorem C78_hole (h : Rings.new exact ⟨120, 0, 1 / 60⟩ 1 = .ok R) (he : env.Ok)
    (hx : 0 < b₀.patchInnerDimensions.x) (hy : 0 < b₀.patchInnerDimensions.y)
    {k l : Int} (hk : 27384 ≤ k * b₀.patchInnerDimensions.x) (hk' : k * b₀.patchInnerDimensions.x ≤ 27430)
    (hl : 27384 ≤ l * b₀.patchInnerDimensions.y) (hl' : l * b₀.patchInnerDimensions.y ≤ 27430)
    (hf : WcsFactory.new (π / 3240000) "TAN" 0 flipX = .ok f) :
    ∃ p : SpherePoint ℝ, (0 ≤ p.lon ∧ p.lon < 2 * π) ∧ |p.lat| ≤ π / 2 ∧
      ∀ s i r s', (skyMapOps exact R env sphereOps (f.makeWcs other ⟨0, 0⟩)).After
          (init exact R env sphereOps (f.makeWcs other ⟨0, 0⟩) b₀) s → 0 ≤ i ∧ i < R.numTracts →
        (skyMapOps exact R env sphereOps (f.makeWcs other ⟨0, 0⟩)).getItem i s = (.ok r, s') → r.info.contains p = false := by
  have hp := pi_pos
  obtain ⟨wf, w3⟩ := new_wf h
  obtain ⟨h1, hv, -, -, -, hra⟩ := new_exact h
  obtain ⟨s0, s1⟩ := size_pos h
  have hra0 : R.raStart = 0 := by rw [hra]; simp
  norm_num at s1
  have hS : R.ringSize = π / 121 := by linarith
  obtain ⟨b1, b2, b3, b4, b5, b6, b7⟩ := hole_bounds hS
  have p4 := pi_lt_d6
  have p3 := pi_gt_d6
  refine ⟨⟨π / 2, π / 2 - 41 / 80 * R.ringSize⟩, ⟨by dsimp only; positivity, by dsimp only; linarith⟩,
    by dsimp only; rw [abs_le]; constructor <;> linarith, ?_⟩
  intro s i r s' hs hi hg
  set p : SpherePoint ℝ := ⟨π / 2, π / 2 - 41 / 80 * R.ringSize⟩ with hpd
  have cp : cos p.lat = sin (41 / 80 * R.ringSize) := by rw [hpd]; exact cos_pi_div_two_sub _
  have sp : sin p.lat = cos (41 / 80 * R.ringSize) := by rw [hpd]; exact sin_pi_div_two_sub _
  obtain ⟨ctr, inner, b, hctr, hnew⟩ := built_of_getItem hs hg
  rw [Bool.eq_false_iff]
  intro hc
  have er : exact.mul (1 / 2) R.ringSize = R.ringSize / 2 := by simp; ring
  have eo : exact.deg2rad R.config.tractOverlap = π / 10800 := by
    rw [h1]; change (1 / 60 : ℝ) * (π / 180) = _; ring
  rw [er, eo] at hnew
  have hlim : R.ringSize / 2 + π / 10800 < Projection.TAN.limit := by simp only [Projection.limit]; linarith
  have hB : 2 * (tan (R.ringSize / 2 + π / 10800) / (π / 3240000)) + 3 ≤ 27384 := by
    have : tan (R.ringSize / 2 + π / 10800) / (π / 3240000) ≤ 13690 := by
      rw [div_le_iff₀ (by positivity)]; nlinarith
    linarith
  obtain ⟨q, hq, qx, qy⟩ := explicit_reach (other := other) (P := .TAN) he hnew hx hy hf (by positivity) rfl rfl rfl
    (by positivity : 0 ≤ R.ringSize / 2 + π / 10800) hlim (k := k) (l := l)
    (hB.trans (by exact_mod_cast hk)) (hB.trans (by exact_mod_cast hl)) hc
  dsimp only at hq
  have hk2 : ((k : ℝ) * b₀.patchInnerDimensions.x) ≤ 27430 := by exact_mod_cast hk'
  have hl2 : ((l : ℝ) * b₀.patchInnerDimensions.y) ≤ 27430 := by exact_mod_cast hl'
  have z1 : |q.x| ≤ 0.0133 := by
    refine qx.trans ?_
    have : π / 3240000 * (k * b₀.patchInnerDimensions.x + 3) ≤ π / 3240000 * 27433 := by gcongr; linarith
    linarith
  have z2 : |q.y| ≤ 0.0133 := by
    refine qy.trans ?_
    have : π / 3240000 * (l * b₀.patchInnerDimensions.y + 3) ≤ π / 3240000 * 27433 := by gcongr; linarith
    linarith
  have hD : 0 < cosSep ctr p := by
    by_contra hc
    simp [Projection.toPlane, hc] at hq
  have hD1 := (cosSep_range ctr p).2
  have hq' : q = ⟨eastOf ctr p / cosSep ctr p, northOf ctr p / cosSep ctr p⟩ := by
    unfold Projection.toPlane at hq
    dsimp only at hq
    rw [if_pos hD] at hq
    exact (Option.some.inj hq).symm
  have out : ∀ E : ℝ, 0.0133 < |E| → ¬ |E / cosSep ctr p| ≤ 0.0133 := by
    intro E hE hE'
    rw [abs_div, abs_of_pos hD, div_le_iff₀ hD] at hE'
    linarith
  have cpp : 0 ≤ cos p.lat := by rw [cp]; linarith
  rcases wf.index_cases hi with rfl | rfl | ⟨j, n, u, hj, h3, h4, rfl⟩
  · rw [center_south] at hctr
    cases hctr
    refine far_square (by simp) cpp ?_ ?_ hq z1 z2 <;> rw [hpd] <;> dsimp only <;> linarith
  · rw [center_north h] at hctr
    cases hctr
    rw [hq'] at z1
    refine out _ ?_ z1
    unfold eastOf
    rw [cp, show p.lon - (⟨0, π / 2⟩ : SpherePoint ℝ).lon = π / 2 by rw [hpd]; simp, sin_pi_div_two, mul_one, abs_of_pos (by linarith)]
    linarith
  · have hi' := wf.getRingIndices_ring hv hj h3 h4
    rw [center_ring h hi' hj] at hctr
    cases hctr
    have hj1 := wf.lt_numRings hj
    rw [h1] at hj1
    dsimp only at hj1
    have hj0 : (0 : ℝ) ≤ j := by positivity
    have hj2 : (j : ℝ) ≤ 119 := by exact_mod_cast (by omega : j ≤ 119)
    rcases Nat.lt_or_ge j 119 with hlt | hge
    · have hj3 : (j : ℝ) ≤ 118 := by exact_mod_cast (by omega : j ≤ 118)
      have a1 : R.ringSize * (j + 1) ≤ R.ringSize * 119 := by gcongr; linarith
      have a2 : 0 ≤ R.ringSize * ((j : ℝ) + 1) := by positivity
      refine far_square ?_ cpp ?_ ?_ hq z1 z2
      · exact cos_nonneg_of_mem_Icc ⟨by dsimp only; linarith, by dsimp only; linarith⟩
      · rw [hpd]; dsimp only; linarith
      · rw [hpd]; dsimp only; linarith
    · obtain rfl : j = 119 := by omega
      obtain rfl := gap_count h hj
      rw [hq'] at z2
      refine out _ ?_ z2
      have ecos : cos (p.lon - wrapAngle π (2 * π * u / (10 : Int) + R.raStart)) ≤ cos (π / 10) := by
        rw [← cos_neg, neg_sub, cos_wrap_sub, ← cos_neg, neg_sub, hra0, hpd]
        dsimp only
        push_cast
        rw [add_zero]
        exact hole_lon h3 h4
      have hlatc : R.ringSize * (((119 : ℕ) : ℝ) + 1) - π / 2 = π / 2 - R.ringSize := by push_cast; linarith
      have hN : 0.01330003 ≤ northOf (⟨wrapAngle π (2 * π * u / (10 : Int) + R.raStart), R.ringSize * (((119 : ℕ) : ℝ) + 1) - π / 2⟩ : SpherePoint ℝ) p := by
        unfold northOf
        dsimp only
        rw [hlatc, cp, sp, cos_pi_div_two_sub, sin_pi_div_two_sub]
        have e : sin (39 / 80 * R.ringSize) = sin R.ringSize * cos (41 / 80 * R.ringSize) -
            cos R.ringSize * sin (41 / 80 * R.ringSize) := by
          rw [← sin_sub]; congr 1; ring
        have k : 0.9996 * 0.0133003 * 0.0488 ≤ cos R.ringSize * sin (41 / 80 * R.ringSize) *
            (1 - cos (p.lon - wrapAngle π (2 * π * u / (10 : Int) + R.raStart))) := by
          gcongr
          linarith
        nlinarith
      rw [abs_of_pos (by linarith)]
      linarith

/-- A position in a hole: `findAllTracts` returns no tract. -/
theorem C78_hole_find (h : Rings.new exact ⟨120, 0, 1 / 60⟩ 1 = .ok R) (he : env.Ok)
    (hx : 0 < b₀.patchInnerDimensions.x) (hy : 0 < b₀.patchInnerDimensions.y)
    {k l : Int} (hk : 27384 ≤ k * b₀.patchInnerDimensions.x) (hk' : k * b₀.patchInnerDimensions.x ≤ 27430)
    (hl : 27384 ≤ l * b₀.patchInnerDimensions.y) (hl' : l * b₀.patchInnerDimensions.y ≤ 27430)
    (hf : WcsFactory.new (π / 3240000) "TAN" 0 flipX = .ok f) :
    ∃ p : SpherePoint ℝ, (0 ≤ p.lon ∧ p.lon < 2 * π) ∧ |p.lat| ≤ π / 2 ∧
      ∀ s, (skyMapOps exact R env sphereOps (f.makeWcs other ⟨0, 0⟩)).After
          (init exact R env sphereOps (f.makeWcs other ⟨0, 0⟩) b₀) s →
        ∃ s', R.findAllTracts exact (skyMapOps exact R env sphereOps (f.makeWcs other ⟨0, 0⟩)) p s = (.ok [], s') := by
  have hp := pi_pos
  obtain ⟨p, l1, l2, hh⟩ := C78_hole (other := other) h he hx hy hk hk' hl hl' hf
  refine ⟨p, l1, l2, fun s hs => ?_⟩
  have er : (90 / (((120 : ℕ) : ℝ) + 1) + 1 / 60) * (π / 180) = π / 121 / 2 + π / 10800 := by push_cast; ring
  obtain ⟨L, s', hL⟩ := C72_total (other := other) (env := env) (P := .TAN) h (by norm_num) (by norm_num) hx hy hf (by positivity) rfl
    (by norm_num) er.symm (by simp only [Projection.limit]; linarith) rfl hs p
  refine ⟨s', ?_⟩
  rw [hL]
  congr 2
  rw [List.eq_nil_iff_forall_not_mem]
  intro r hr
  obtain ⟨hc, i, i0, -, hi⟩ := C31_sound FloatArith.exact_ieee h (by norm_num) (by norm_num) hs hL r hr
  obtain ⟨ha, -⟩ := findAll_spec FloatArith.exact_ieee h (by norm_num) (by norm_num) (Search_permanent_caching _ b₀ s hs) hL
  have := hh s' i r s' (hs.trans ha) i0 hi
  rw [hc] at this
  cases this

/-- C78 for the Rubin Observatory's sky map, with exact arithmetic or any that rounds as double precision does: `findAllTracts` always returns at
least one tract, and what it returns are exactly the tracts that contain the position. -/
theorem C78_lsst_find {A : FloatArith ℝ} (hA : A.Ieee) (hh : A.HalfPi) (h : Rings.new A ⟨120, 0, 1 / 60⟩ 1 = .ok R) (he : env.Ok)
    (hb : b₀.patchInnerDimensions = ⟨4000, 4000⟩) (hf : WcsFactory.new (π / 3240000) "TAN" 0 flipX = .ok f)
    {s : MapState (SpherePoint ℝ) ℝ} (hs : (skyMapOps A R env sphereOps (f.makeWcs other ⟨0, 0⟩)).After
      (init A R env sphereOps (f.makeWcs other ⟨0, 0⟩) b₀) s)
    {p : SpherePoint ℝ} (hlon : 0 ≤ p.lon ∧ p.lon < A.twoPi) (hlat : |p.lat| ≤ A.pi / 2) (hlat' : |p.lat| ≤ π / 2) :
    ∃ L s', R.findAllTracts A (skyMapOps A R env sphereOps (f.makeWcs other ⟨0, 0⟩)) p s = (.ok L, s') ∧ L ≠ [] ∧
      ∀ r, r ∈ L ↔ (∃ i s'', (skyMapOps A R env sphereOps (f.makeWcs other ⟨0, 0⟩)).getItem i s' = (.ok r, s'')) ∧ r.info.contains p = true := by
  have hp := pi_gt_three
  have hp2 := pi_pos
  have hp4 := pi_lt_d4
  have hp5 := pi_gt_d4
  have hx : 0 < b₀.patchInnerDimensions.x := by rw [hb]; norm_num
  have hy : 0 < b₀.patchInnerDimensions.y := by rw [hb]; norm_num
  have er : (90 / (((120 : ℕ) : ℝ) + 1) + 1 / 60 + 1 / 10 ^ 9) * (π / 180) = π / 121 / 2 + π / 10800 + π / 180 / 10 ^ 9 := by push_cast; ring
  have htan : tan (π / 121 / 2 + π / 10800 + π / 180 / 10 ^ 9) ≤ 13998 * (π / 3240000) := by
    set y := π / 121 / 2 + π / 10800 + π / 180 / 10 ^ 9 with hy
    have y0 : 0 < y := by positivity
    have y1 : y ≤ 0.0133 := by rw [hy]; norm_num at hp4 ⊢; linarith
    have c0 := one_sub_sq_div_two_le_cos (x := y)
    have c1 : 0.9999 ≤ cos y := by nlinarith
    have s1 := sin_le y0.le
    rw [tan_eq_sin_div_cos, div_le_iff₀ (by linarith)]
    have : 13998 * (π / 3240000) * 0.9999 ≤ 13998 * (π / 3240000) * cos y := by gcongr
    refine le_trans ?_ this
    rw [hy] at s1
    refine s1.trans ?_
    norm_num
    linarith
  have hB : 2 * (tan (π / 121 / 2 + π / 10800 + π / 180 / 10 ^ 9) / (π / 3240000)) + 3 ≤ 28000 := by
    have : tan (π / 121 / 2 + π / 10800 + π / 180 / 10 ^ 9) / (π / 3240000) ≤ 13998 := by
      rw [div_le_iff₀ (by positivity)]; exact htan
    linarith
  have hlim : π / 121 / 2 + π / 10800 + π / 180 / 10 ^ 9 < π / 2 := by norm_num; linarith
  obtain ⟨L, s', hL⟩ := C72_total_rounding (other := other) (env := env) (P := .TAN) hA hh h (by norm_num) (by norm_num) (by simp) hx hy hf
    (by positivity) rfl (by decide) (by norm_num) er.symm hlim.le rfl hs p
  have key := C72_complete_rounding (other := other) (kx := 7) (ky := 7) (T := π / 3240000 * 28003 / 2) (P := .TAN)
    hA hh h (by norm_num) (by norm_num) (by simp) he hx hy hf (by positivity) rfl (by norm_num) er.symm hlim
    (by rw [hb]; simp only [Projection.radius]; push_cast; linarith) (by rw [hb]; simp only [Projection.radius]; push_cast; linarith)
    (by rw [hb]; push_cast; linarith) (by rw [hb]; push_cast; linarith) (by
      simp only [SmallReach]
      push_cast
      rw [show (120 : ℝ) + 1 = 121 by norm_num]
      refine le_trans ?_ (le_tan (x := 579 / 1000 * (578 / 579 * (π / 121))) (by positivity) (by linarith))
      linarith) rfl hs hlon hlat' hL
  refine ⟨L, s', hL, ?_, key⟩
  obtain ⟨ha, -⟩ := findAll_spec hA h (by norm_num) (by norm_num) (Search_permanent_caching _ b₀ s hs) hL
  obtain ⟨i, r, s'', -, hi, hc⟩ := C78_lsst (other := other) (p := p) hA hh h he hb hf (hs.trans ha) hlon hlat
  exact List.ne_nil_of_mem ((key r).2 ⟨⟨i, s'', hi⟩, hc⟩)

/-- `C78_lsst_find` in double precision, for a position close to the south pole. -/
example : ∃ (R : Rings ℝ) (f : WcsFactory), Rings.new FloatArith.double ⟨120, 0, 1 / 60⟩ 1 = .ok R ∧
    WcsFactory.new (π / 3240000) "TAN" 0 false = .ok f ∧
    ∃ L s', R.findAllTracts FloatArith.double (skyMapOps FloatArith.double R Ex.realEnv sphereOps (f.makeWcs other ⟨0, 0⟩)) ⟨1, -3 / 2⟩
      (init FloatArith.double R Ex.realEnv sphereOps (f.makeWcs other ⟨0, 0⟩) ⟨.legacy, ⟨4000, 4000⟩, 100, none⟩) = (.ok L, s') ∧ L ≠ [] := by
  obtain ⟨R, hR⟩ : ∃ R, Rings.new FloatArith.double ⟨120, 0, 1 / 60⟩ 1 = .ok R := ⟨_, rfl⟩
  obtain ⟨f, hf⟩ := (WcsFactory.C56_projection_length (π / 3240000) "TAN" 0 false).2 rfl
  have hp := pi_gt_three
  have hpi : (3 : ℝ) < FloatArith.double.pi := by
    have := (abs_le.1 FloatArith.double_ieee.pi_err).1
    have := pi_gt_d4
    norm_num at *
    linarith
  have h2pi : (1 : ℝ) < FloatArith.double.twoPi := by
    have h := (abs_le.1 (FloatArith.double_ieee.err' (2 * FloatArith.double.pi))).1
    rw [abs_of_pos (by linarith)] at h
    change (1 : ℝ) < FloatArith.double.rnd (2 * FloatArith.double.pi)
    norm_num at h
    linarith
  obtain ⟨L, s', hL, hne, -⟩ := C78_lsst_find (other := other) (p := ⟨1, -3 / 2⟩) FloatArith.double_ieee FloatArith.double_halfPi hR Ex.realEnv_ok
    (b₀ := ⟨.legacy, ⟨4000, 4000⟩, 100, none⟩) rfl hf (SkyMapOps.After.refl _) ⟨by norm_num, h2pi⟩
    (by dsimp only; rw [abs_of_neg (by norm_num)]; linarith) (by dsimp only; rw [abs_of_neg (by norm_num)]; linarith)
  exact ⟨R, f, hR, hf, L, s', hL, hne⟩

/-- `C78_hole` is not vacuous: patches of 200 pixels, a tract is 137 of them wide, and all tracts can be accessed. -/
example : ∃ (R : Rings ℝ) (f : WcsFactory) (p : SpherePoint ℝ), Rings.new exact ⟨120, 0, 1 / 60⟩ 1 = .ok R ∧
    WcsFactory.new (π / 3240000) "TAN" 0 false = .ok f ∧ (0 ≤ p.lon ∧ p.lon < 2 * π) ∧ |p.lat| ≤ π / 2 ∧
    ∀ i, 0 ≤ i ∧ i < R.numTracts → ∃ r s', (skyMapOps exact R Ex.realEnv sphereOps (f.makeWcs other ⟨0, 0⟩)).getItem i
      (init exact R Ex.realEnv sphereOps (f.makeWcs other ⟨0, 0⟩) ⟨.legacy, ⟨200, 200⟩, 100, none⟩) = (.ok r, s') ∧ r.info.contains p = false := by
  have hp := pi_pos
  obtain ⟨R, hR⟩ := new_ok ⟨120, 0, 1 / 60⟩ (.inr rfl)
  obtain ⟨f, hf⟩ := (WcsFactory.C56_projection_length (π / 3240000) "TAN" 0 false).2 rfl
  obtain ⟨p, l1, l2, hg⟩ := C78_hole (other := other) (b₀ := ⟨.legacy, ⟨200, 200⟩, 100, none⟩) (k := 137) (l := 137) hR Ex.realEnv_ok
    (by norm_num) (by norm_num) (by norm_num) (by norm_num) (by norm_num) (by norm_num) hf
  refine ⟨R, f, p, hR, hf, l1, l2, fun i hi => ?_⟩
  obtain ⟨s0, s1⟩ := size_pos hR
  norm_num at s1
  have er : exact.mul (1 / 2) R.ringSize = R.ringSize / 2 := by simp; ring
  have eo : exact.deg2rad R.config.tractOverlap = π / 10800 := by
    rw [(new_exact hR).1]; change (1 / 60 : ℝ) * (π / 180) = _; ring
  obtain ⟨r, s', h'⟩ := generate_at (env := Ex.realEnv) (ops := sphereOps) (mk := f.makeWcs other ⟨0, 0⟩) (b₀ := ⟨.legacy, ⟨200, 200⟩, 100, none⟩) hR
    (by norm_num) (by norm_num) (fun ctr b => by
      rw [er, eo]
      exact ⟨_, WcsFactory.C56_bearing (other := other) (P := .TAN) hf (by positivity) rfl ⟨0, 0⟩ ctr b (by positivity)
        (by simp only [Projection.limit]; linarith)⟩) hi (SkyMapOps.After.refl _)
  exact ⟨r, s', h', hg _ i r s' (SkyMapOps.After.refl _) hi h'⟩

end Rings
end Skymap
