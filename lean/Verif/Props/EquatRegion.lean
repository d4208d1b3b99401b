import Verif.Props.SkyPolygonCea
import Verif.Props.RegisterConcrete

/-! # C66: the polygons of the tracts and patches of an equatorial sky map cover its strip -/

set_option linter.unusedSectionVars false

namespace Skymap
open Real Matrix Dodeca SpherePoint

section tract
variable {env : FloatEnv ℝ} {b₀ b : TractBuilder} {a : TractArgs (SpherePoint ℝ) ℝ}
  {t : TractInfo (SpherePoint ℝ) ℝ} {ops : SkyOps (SpherePoint ℝ) ℝ} {crval : SpherePoint ℝ}

/-- How far the pixels of a tract are from the reference pixel, from the positions that size it. -/
theorem TractInfo.extent (he : env.Ok) (h : TractInfo.new env ops b₀ a = .ok (t, b)) (hx : 0 < b₀.patchInnerDimensions.x)
    (hy : 0 < b₀.patchInnerDimensions.y) {cd : CdMatrix} {P : Projection} (hw : a.wcs = makeSkyWcs ⟨0, 0⟩ crval cd P) {X Y Y0 Y1 : ℝ}
    (hX : ∀ s ∈ samplePoints ops a, ∀ r, a.wcs.skyToPixel s = .pix r → |r.x| ≤ X ∧ |r.y| ≤ Y ∧ Y0 ≤ r.y ∧ r.y ≤ Y1) :
    ∃ crpix', t.wcs = makeSkyWcs crpix' crval cd P ∧ ∀ px, t.bbox.contains px = true →
      |(px.x : ℝ) - crpix'.x| ≤ X + ((b₀.patchInnerDimensions.x : ℝ) / 2 + 2) ∧
      |(px.y : ℝ) - crpix'.y| ≤ Y + ((b₀.patchInnerDimensions.y : ℝ) / 2 + 2) ∧
      Y0 - ((b₀.patchInnerDimensions.y : ℝ) / 2 + 2) ≤ (px.y : ℝ) - crpix'.y ∧
      (px.y : ℝ) - crpix'.y ≤ Y1 + ((b₀.patchInnerDimensions.y : ℝ) / 2 + 2) := by
  obtain ⟨mb, bbox, n, hmb, h5, rfl⟩ := TractInfo.new_inv h
  unfold minimumBoundingBox at hmb
  obtain ⟨i1, -⟩ := includeAll_boxOf he.tweak_gt a.wcs (samplePoints ops a) .empty mb [] rfl hmb
  rw [List.nil_append] at i1
  obtain ⟨bb, nn, bb', e1, e2, -, e4, e5, e6⟩ := C01_setupPatches b₀ mb.toBox2I (toBox2I_wf mb) hx hy
  rw [e1] at h5
  simp only [Except.ok.injEq, Prod.mk.injEq] at h5
  obtain ⟨rfl, rfl, rfl⟩ := h5
  have hd : bb.dim = ⟨nn.x * b₀.patchInnerDimensions.x, nn.y * b₀.patchInnerDimensions.y⟩ := e2
  have dx : bb.dim.x = nn.x * b₀.patchInnerDimensions.x := by rw [hd]
  have dy : bb.dim.y = nn.y * b₀.patchInnerDimensions.y := by rw [hd]
  have nx : nn.x * b₀.patchInnerDimensions.x < mb.toBox2I.dim.x + b₀.patchInnerDimensions.x := by
    by_contra hn
    have := e4 (nn.x - 1) (by nlinarith)
    omega
  have ny : nn.y * b₀.patchInnerDimensions.y < mb.toBox2I.dim.y + b₀.patchInnerDimensions.y := by
    by_contra hn
    have := e5 (nn.y - 1) (by nlinarith)
    omega
  have bwf : bb.WF := by
    obtain ⟨bb₂, nn₂, f1, -, f3, -⟩ := TractBuilder.setupPatches_pos b₀ _ (toBox2I_wf mb) hx hy
    rw [e1] at f1
    simp only [Except.ok.injEq, Prod.mk.injEq] at f1
    rw [f1.1, f3]
    exact Box2I.mk'_wf _ _
  have hfm : (Box2I.mk' ⟨0, 0⟩ bb.dim).min = ⟨0, 0⟩ ∧ (Box2I.mk' ⟨0, 0⟩ bb.dim).dim = bb.dim := by
    rcases bwf with ⟨w1, w2⟩ | ⟨w1, w2⟩
    · rw [Box2I.mk'_zero _ _ (Or.inl w1)]
      refine ⟨rfl, ?_⟩
      apply I2.ext'
      · rw [w1]; rfl
      · rw [w2]; rfl
    · rw [Box2I.mk'_pos _ _ w1 w2]; exact ⟨rfl, rfl⟩
  have hpos0 : ∀ px, (Box2I.mk' ⟨0, 0⟩ bb.dim).contains px = true → 0 < bb.dim.x ∧ 0 < bb.dim.y := by
    intro px hpx
    have := Box2I.contains_dim hpx
    rwa [hfm.2] at this
  refine ⟨⟨-(bb.min.x : ℝ), -(bb.min.y : ℝ)⟩, ?_, fun px hpx => ?_⟩
  · dsimp only [finalOrientation]
    rw [hw, makeSkyWcs_shift]
    dsimp only [Box2I.getMin, Box2I.getDimensions]
    rw [hfm.1]
    simp
  change (Box2I.mk' ⟨0, 0⟩ bb.dim).contains px = true at hpx
  have hpos := hpos0 px hpx
  rw [Box2I.contains_iff, hfm.1, hfm.2] at hpx
  dsimp only at hpx ⊢
  have hne : mb.toBox2I.isEmpty = false := by
    rcases toBox2I_wf mb with ⟨w1, w2⟩ | ⟨w1, w2⟩
    · exfalso
      have := e4 0 (by rw [w1]; omega)
      nlinarith
    · unfold Box2I.isEmpty; simp; omega
  obtain ⟨cx, cy⟩ := e6 hne
  rw [abs_le] at cx cy
  have wf : 1 ≤ mb.toBox2I.dim.x ∧ 1 ≤ mb.toBox2I.dim.y := by
    rcases toBox2I_wf mb with ⟨w1, w2⟩ | ⟨w1, w2⟩
    · rw [Box2I.isEmpty, decide_eq_false_iff_not] at hne; exact absurd w1 hne
    · omega
  set m := mb.toBox2I with hm
  obtain ⟨⟨l1, a1, b1⟩, -, ⟨l3, a3, b3⟩, -⟩ := i1.pixel_bound he.tweak_le (p := m.min) (by rw [← hm, Box2I.contains_iff]; omega)
  obtain ⟨-, ⟨l2, a2, b2⟩, -, ⟨l4, a4, b4⟩⟩ := i1.pixel_bound he.tweak_le (p := m.getMax)
    (by rw [← hm, Box2I.contains_iff]; unfold Box2I.getMax; dsimp only; omega)
  unfold Box2I.getMax at b2 b4
  dsimp only at b2 b4
  obtain ⟨c1, c2, c3, c4⟩ := hpx
  obtain ⟨s1, m1, p1⟩ := mem_posList.1 a1
  obtain ⟨s2, m2, p2⟩ := mem_posList.1 a2
  obtain ⟨s3, m3, p3⟩ := mem_posList.1 a3
  obtain ⟨s4, m4, p4⟩ := mem_posList.1 a4
  have g1 := (abs_le.1 (hX s1 m1 l1 p1).1).1
  have g2 := (abs_le.1 (hX s2 m2 l2 p2).1).2
  have g3 := (abs_le.1 (hX s3 m3 l3 p3).2.1).1
  have g3' := (hX s3 m3 l3 p3).2.2.1
  have g4' := (hX s4 m4 l4 p4).2.2.2
  have g4 := (abs_le.1 (hX s4 m4 l4 p4).2.1).2
  have fl : ∀ x : ℝ, ((⌊x + 1 / 2⌋ : Int) : ℝ) ≤ x + 1 / 2 := fun x => Int.floor_le _
  have fu : ∀ x : ℝ, x - 1 / 2 < ((⌊x + 1 / 2⌋ : Int) : ℝ) := fun x => by have := Int.lt_floor_add_one (x + 1 / 2); linarith
  have q1 : l1.x - 1 / 2 < ((toPoint2I l1).x : ℝ) := fu l1.x
  have q2 : ((toPoint2I l2).x : ℝ) ≤ l2.x + 1 / 2 := fl l2.x
  have q3 : l3.y - 1 / 2 < ((toPoint2I l3).y : ℝ) := fu l3.y
  have q4 : ((toPoint2I l4).y : ℝ) ≤ l4.y + 1 / 2 := fl l4.y
  have k1 : 2 * (toPoint2I l1).x ≤ 2 * (px.x + bb.min.x) + b₀.patchInnerDimensions.x := by omega
  have k2 : 2 * (px.x + bb.min.x) ≤ 2 * (toPoint2I l2).x + 2 + b₀.patchInnerDimensions.x := by omega
  have k3 : 2 * (toPoint2I l3).y ≤ 2 * (px.y + bb.min.y) + b₀.patchInnerDimensions.y := by omega
  have k4 : 2 * (px.y + bb.min.y) ≤ 2 * (toPoint2I l4).y + 2 + b₀.patchInnerDimensions.y := by omega
  have r1 : (2 : ℝ) * (toPoint2I l1).x ≤ 2 * (px.x + bb.min.x) + b₀.patchInnerDimensions.x := by exact_mod_cast k1
  have r2 : (2 : ℝ) * (px.x + bb.min.x) ≤ 2 * (toPoint2I l2).x + 2 + b₀.patchInnerDimensions.x := by exact_mod_cast k2
  have r3 : (2 : ℝ) * (toPoint2I l3).y ≤ 2 * (px.y + bb.min.y) + b₀.patchInnerDimensions.y := by exact_mod_cast k3
  have r4 : (2 : ℝ) * (px.y + bb.min.y) ≤ 2 * (toPoint2I l4).y + 2 + b₀.patchInnerDimensions.y := by exact_mod_cast k4
  refine ⟨abs_le.2 ⟨?_, ?_⟩, abs_le.2 ⟨?_, ?_⟩, ?_, ?_⟩ <;> linarith

end tract

namespace Equat
open FloatArith (exact)
variable {env : FloatEnv ℝ} {n : Nat} {d0 d1 ov : ℝ} {ts : List (TractRef (SpherePoint ℝ) ℝ)} {b₀ b : TractBuilder}
  {scale : ℝ} {f : WcsFactory} {flipX : Bool} {other : P2 ℝ → SpherePoint ℝ → CdMatrix → String → Wcs (SpherePoint ℝ) ℝ}

theorem arctan_le_self {x : ℝ} (h : 0 ≤ x) : arctan x ≤ x := by
  have := le_tan (arctan_nonneg.2 h) (arctan_lt_pi_div_two x)
  rwa [tan_arctan] at this

/-- A position at distance `δ` from one at latitude `d`: how far it is in latitude and longitude. -/
theorem offset_reach {v : SpherePoint ℝ} {δ β : ℝ} (hδ : 0 ≤ δ) (hδ1 : δ ≤ π / 12) (hd : |v.lat| + δ ≤ π / 3) :
    |sin (v.offset β δ).lat| ≤ sin (π / 3) ∧ sin (v.lat - δ) ≤ sin (v.offset β δ).lat ∧
      sin (v.offset β δ).lat ≤ sin (v.lat + δ) ∧ ∃ y, |y| ≤ π / 6 ∧ ∀ x, cos ((v.offset β δ).lon - x) = cos (v.lon + y - x) ∧
      sin ((v.offset β δ).lon - x) = sin (v.lon + y - x) := by
  have hp := pi_pos
  have hd0 := abs_nonneg v.lat
  have sδ : 0 ≤ sin δ := sin_nonneg_of_nonneg_of_le_pi hδ (by linarith)
  have cδ : 0 ≤ cos δ := cos_nonneg_of_mem_Icc ⟨by linarith, by linarith⟩
  have cd : 0 ≤ cos v.lat := by rw [← cos_abs]; exact cos_nonneg_of_mem_Icc ⟨by linarith, by linarith⟩
  have sd : |sin v.lat| = sin |v.lat| := by
    rcases le_total 0 v.lat with h | h
    · rw [abs_of_nonneg h] at *
      exact abs_of_nonneg (sin_nonneg_of_nonneg_of_le_pi h (by linarith))
    · rw [abs_of_nonpos h] at *
      rw [sin_neg]
      exact abs_of_nonpos (by have := sin_nonneg_of_nonneg_of_le_pi (x := -v.lat) (by linarith) (by linarith); rw [sin_neg] at this; linarith)
  have hsum : sin (|v.lat| + δ) = |sin v.lat| * cos δ + cos v.lat * sin δ := by rw [sin_add, sd, cos_abs]
  have hcsum : cos (|v.lat| + δ) = cos v.lat * cos δ - |sin v.lat| * sin δ := by rw [cos_add, sd, cos_abs]
  have hs3 : sin (|v.lat| + δ) ≤ sin (π / 3) := sin_le_sin_of_le_of_le_pi_div_two (by linarith) (by linarith) hd
  have hc3 : 1 / 2 ≤ cos (|v.lat| + δ) := by
    rw [← cos_pi_div_three]
    exact cos_le_cos_of_nonneg_of_le_pi (by linarith) (by linarith) hd
  set γ := β * (π / 180) with hγ
  have hsβ := abs_le.1 (abs_sin_le_one γ)
  have hcβ := abs_le.1 (abs_cos_le_one γ)
  have pq : |cos v.lat * (sin δ * sin γ)| ≤ cos v.lat * sin δ := by
    rw [abs_mul, abs_mul, abs_of_nonneg cd, abs_of_nonneg sδ]
    exact mul_le_mul_of_nonneg_left (mul_le_of_le_one_right sδ (abs_sin_le_one _)) cd
  have pq2 : |sin v.lat * (sin δ * sin γ)| ≤ |sin v.lat| * sin δ := by
    rw [abs_mul, abs_mul, abs_of_nonneg sδ]
    exact mul_le_mul_of_nonneg_left (mul_le_of_le_one_right sδ (abs_sin_le_one _)) (abs_nonneg _)
  have pq3 : |sin v.lat * cos δ| ≤ |sin v.lat| * cos δ := by rw [abs_mul, abs_of_nonneg cδ]
  have pe : |sin δ * cos γ| ≤ sin δ := by
    rw [abs_mul, abs_of_nonneg sδ]
    exact mul_le_of_le_one_right sδ (abs_cos_le_one _)
  have hlat : |cos v.lat * (sin δ * sin γ) + sin v.lat * cos δ| ≤ sin (π / 3) := by
    refine (abs_add_le _ _).trans ?_
    linarith
  have hX : 1 / 2 ≤ cos v.lat * cos δ - sin v.lat * (sin δ * sin γ) := by
    have := (abs_le.1 pq2).2
    linarith
  unfold SpherePoint.offset fromLocal
  dsimp only
  rw [← hγ]
  rw [sin_arcsin (by have := (abs_le.1 hlat).1; linarith [sin_le_one (π / 3)]) (by have := (abs_le.1 hlat).2; linarith [sin_le_one (π / 3)])]
  refine ⟨hlat, ?_, ?_, ?_⟩
  · rw [sin_sub]
    have := (abs_le.1 pq).1
    linarith
  · rw [sin_add]
    have := (abs_le.1 pq).2
    linarith
  · refine ⟨_, ?_, fun x => ⟨cos_wrap_sub _ _, sin_wrap_sub _ _⟩⟩
    rw [arg_eq_arctan (by linarith)]
    have h1 : |sin δ * cos γ / (cos v.lat * cos δ - sin v.lat * (sin δ * sin γ))| ≤ π / 6 := by
      rw [abs_div, abs_of_pos (by linarith : 0 < cos v.lat * cos δ - sin v.lat * (sin δ * sin γ)), div_le_iff₀ (by linarith)]
      have := sin_le hδ
      nlinarith
    refine le_trans ?_ h1
    rcases le_total 0 (sin δ * cos γ / (cos v.lat * cos δ - sin v.lat * (sin δ * sin γ))) with h | h
    · rw [abs_of_nonneg h, abs_of_nonneg (arctan_nonneg.2 h)]
      exact arctan_le_self h
    · rw [abs_of_nonpos h, abs_of_nonpos (arctan_le_zero.2 h), ← arctan_neg]
      exact arctan_le_self (by linarith)

/-- The positions that size a tract of an equatorial sky map that stays within 60 degrees from the equator. -/
theorem sample_near (hn : 4 ≤ n) {low high : ℝ} (hl0 : low ≤ d0 - ov / 2) (hl1 : low ≤ d1 - ov / 2) (hl2 : -90 ≤ low)
    (hh0 : d0 + ov / 2 ≤ high) (hh1 : d1 + ov / 2 ≤ high) (hh2 : high ≤ 90) (hov : 0 ≤ ov) (hov1 : ov ≤ 30) (k0 : |d0| + ov / 2 ≤ 60) (k1 : |d1| + ov / 2 ≤ 60)
    (hf : WcsFactory.new scale "CEA" 0 flipX = .ok f) (hs : 0 < scale) {k : Nat} :
    ∀ s ∈ samplePoints sphereOps (args (f.makeWcs other ⟨0, 0⟩) n d0 d1 ov k), ∀ r,
      (args (f.makeWcs other ⟨0, 0⟩) n d0 d1 ov k).wcs.skyToPixel s = .pix r → |r.x| ≤ (5 * π / 12) / scale ∧ |r.y| ≤ sin (π / 3) / scale ∧
        sin (rad low) / scale ≤ r.y ∧ r.y ≤ sin (rad high) / scale := by
  have hp := pi_pos
  have hn' : (4 : ℝ) ≤ n := by exact_mod_cast hn
  have hn0 : (0 : ℝ) < n := by linarith
  have hpn : π / n ≤ π / 4 := by gcongr
  have hpn0 : 0 < π / n := by positivity
  have absrad : ∀ x : ℝ, |rad x| = rad |x| := by
    intro x
    unfold rad
    rw [abs_mul, abs_of_pos (by positivity : (0 : ℝ) < π / 180)]
  intro s hm r hr
  have hwcs : (args (f.makeWcs other ⟨0, 0⟩) n d0 d1 ov k).wcs = f.makeWcs other ⟨0, 0⟩ ⟨(2 * k + 1) * π / n, 0⟩ := rfl
  set m : ℝ := (2 * k + 1) * π / n with hmd
  set e : ℝ := if k + 1 = n then 0 else 2 * π * (k + 1) / n with hee
  have hbm : 2 * π * k / n - m = -(π / n) := by rw [hmd]; field_simp; ring
  have hem : ∃ i : Int, e - m = π / n - i * (2 * π) := by
    rw [hee]
    split
    · next hh =>
      refine ⟨1, ?_⟩
      have : (k : ℝ) = n - 1 := by rw [← hh]; push_cast; ring
      rw [hmd, this]; field_simp; push_cast; ring
    · exact ⟨0, by rw [hmd]; field_simp; push_cast; ring⟩
  -- every vertex
  have vert : ∀ v ∈ quad (2 * π * k / n) e (rad d0) (rad d1), |v.lat| + rad ov / 2 ≤ π / 3 ∧ (rad low ≤ v.lat - rad ov / 2 ∧ v.lat + rad ov / 2 ≤ rad high) ∧
      ∃ z, |z| = π / n ∧ ∃ i : Int, v.lon - m = z - i * (2 * π) := by
    have l0 : |rad d0| + rad ov / 2 ≤ π / 3 := by rw [absrad]; unfold rad; nlinarith
    have l1 : |rad d1| + rad ov / 2 ≤ π / 3 := by rw [absrad]; unfold rad; nlinarith
    have m0 : rad low ≤ rad d0 - rad ov / 2 ∧ rad d0 + rad ov / 2 ≤ rad high := by unfold rad; constructor <;> nlinarith
    have m1 : rad low ≤ rad d1 - rad ov / 2 ∧ rad d1 + rad ov / 2 ≤ rad high := by unfold rad; constructor <;> nlinarith
    obtain ⟨i, hi⟩ := hem
    have z1 : |-(π / n)| = π / n := by rw [abs_neg, abs_of_pos hpn0]
    intro v hv
    unfold quad at hv
    simp only [List.mem_cons, List.not_mem_nil, or_false] at hv
    rcases hv with rfl | rfl | rfl | rfl
    · exact ⟨l0, m0, _, z1, 0, by simp [hbm]⟩
    · exact ⟨l0, m0, _, abs_of_pos hpn0, i, hi⟩
    · exact ⟨l1, m1, _, abs_of_pos hpn0, i, hi⟩
    · exact ⟨l1, m1, _, z1, 0, by simp [hbm]⟩
  have hlow : -(π / 2) ≤ rad low := by unfold rad; nlinarith
  have hhigh : rad high ≤ π / 2 := by unfold rad; nlinarith
  have key : |sin s.lat| ≤ sin (π / 3) ∧ (sin (rad low) ≤ sin s.lat ∧ sin s.lat ≤ sin (rad high)) ∧ ∃ y, |y| ≤ 5 * π / 12 ∧ cos (s.lon - m) = cos y ∧ sin (s.lon - m) = sin y := by
    have hro : 0 ≤ rad ov := by unfold rad; positivity
    have hro1 : rad ov / 2 ≤ π / 12 := by unfold rad; nlinarith
    rw [C12_sample_points] at hm
    rcases hm with ⟨l, e1, -, hsl⟩ | ⟨l, e1, -, v, hv, i, -, rfl⟩ | ⟨r, e1, -⟩
    · simp only [args, TractShape.vertices.injEq] at e1
      subst e1
      obtain ⟨h1, ⟨h1', h1u⟩, z, h2, i, h3⟩ := vert s hsl
      have h1'' := abs_le.1 (show |s.lat| ≤ π / 3 by linarith)
      refine ⟨?_, ⟨sin_le_sin_of_le_of_le_pi_div_two hlow (by linarith) (by linarith),
        sin_le_sin_of_le_of_le_pi_div_two (by linarith) hhigh (by linarith)⟩, ?_⟩
      · rcases le_total 0 s.lat with h | h
        · rw [abs_of_nonneg h] at h1
          rw [abs_of_nonneg (sin_nonneg_of_nonneg_of_le_pi h (by linarith))]
          exact sin_le_sin_of_le_of_le_pi_div_two (by linarith) (by linarith) (by linarith)
        · rw [abs_of_nonpos h] at h1
          rw [abs_of_nonpos (by have := sin_nonneg_of_nonneg_of_le_pi (x := -s.lat) (by linarith) (by linarith); rw [sin_neg] at this; linarith),
            ← sin_neg]
          exact sin_le_sin_of_le_of_le_pi_div_two (by linarith) (by linarith) (by linarith)
      · exact ⟨z, by rw [h2]; linarith, by rw [h3, cos_sub_int_mul_two_pi], by rw [h3, sin_sub_int_mul_two_pi]⟩
    · simp only [args, TractShape.vertices.injEq] at e1
      subst e1
      obtain ⟨h1, ⟨h1', h1u⟩, z, h2, j, h3⟩ := vert v hv
      have h1'' := abs_le.1 (show |v.lat| ≤ π / 3 by linarith)
      obtain ⟨g1, g1', g1u, y, g2, g3⟩ := offset_reach (v := v) (δ := rad ov / 2) (β := 15 * (i : ℝ)) (by linarith) hro1 h1
      refine ⟨g1, ⟨le_trans (sin_le_sin_of_le_of_le_pi_div_two hlow (by linarith) h1') g1',
        g1u.trans (sin_le_sin_of_le_of_le_pi_div_two (by linarith) hhigh h1u)⟩, z + y, ?_, ?_, ?_⟩
      · refine (abs_add_le _ _).trans ?_
        rw [h2]; linarith
      · refine ((g3 m).1).trans ?_
        rw [show v.lon + y - m = z + y - j * (2 * π) by linarith, cos_sub_int_mul_two_pi]
      · refine ((g3 m).2).trans ?_
        rw [show v.lon + y - m = z + y - j * (2 * π) by linarith, sin_sub_int_mul_two_pi]
    · simp [args] at e1
  obtain ⟨q1, ⟨q1', q1u⟩, y, q2, q3, q4⟩ := key
  have hy := abs_le.1 q2
  rw [hwcs, cea_pixel hf hs (y := y) (by linarith) (by linarith) q3 q4, PixRes.pix.injEq] at hr
  subst hr
  dsimp only
  refine ⟨?_, ?_, by gcongr, by gcongr⟩
  · rw [abs_div, abs_mul, abs_of_pos hs]
    have : |(if flipX then (1 : ℝ) else -1)| = 1 := by split <;> simp
    rw [this, one_mul]
    gcongr
  · rw [abs_div, abs_of_pos hs]
    gcongr

/-- C66: on an equatorial sky map with at least four tracts that reaches the equator and stays within 60 degrees from it, and whose pixels and patches are
not too large, every position in the configured strip (half the overlap added) is in the outer polygon of the tract that `findTract` finds for it; if the
patch border is not too small for the width of a patch, it is also in the outer polygon of one of the patches of that tract. -/
theorem C66_covers (hn : 4 ≤ n) (hov : 0 ≤ ov) (hov1 : ov ≤ 30) (k0 : |d0| + ov / 2 ≤ 60) (k1 : |d1| + ov / 2 ≤ 60)
    (hd0 : d0 - ov / 2 ≤ 0) (hd1 : 0 ≤ d1 + ov / 2) (he : env.Ok) (hx : 0 < b₀.patchInnerDimensions.x) (hy : 0 < b₀.patchInnerDimensions.y)
    (hbd : 0 ≤ b₀.patchBorder) (hf : WcsFactory.new scale "CEA" 0 flipX = .ok f) (hs : 0 < scale)
    (lx : scale * ((b₀.patchInnerDimensions.x : ℝ) / 2 + 3 + b₀.patchBorder) ≤ 1 / 8)
    (ly : scale * ((b₀.patchInnerDimensions.y : ℝ) / 2 + 3 + b₀.patchBorder) ≤ 1 / 8) {l : List (TractArgs (SpherePoint ℝ) ℝ)}
    (hl : tracts exact (f.makeWcs other ⟨0, 0⟩) ⟨n, [d0, d1], ov⟩ = .ok l)
    (hb : EagerSkyMap.buildAll env sphereOps l 0 b₀ = .ok (ts, b))
    {p : SpherePoint ℝ} (hlon : 0 ≤ p.lon ∧ p.lon < 2 * π) (hp0 : rad (d0 - ov / 2) ≤ p.lat) (hp1 : p.lat ≤ rad (d1 + ov / 2)) :
    ∃ t, BaseSkyMap.findTract sphereOps (EagerSkyMap.skyMapOps ts) p b = (.ok t, b) ∧ t ∈ ts ∧ InPolygon t.info.getOuterSkyPolygon p ∧
      (scale * ((b₀.patchInnerDimensions.x : ℝ) + 2 * b₀.patchBorder) ^ 2 ≤ 8 * b₀.patchBorder →
        ∃ i pi, InRange t.info.numPatches i ∧ t.info.getPatchInfo b (.index2D i) = .ok pi ∧
          (∃ px, t.info.wcs.PixelOf p px ∧ pi.innerBBox.contains px = true) ∧
          InPolygon (pi.getOuterSkyPolygon none) p ∧ InPolygon (pi.getOuterSkyPolygon (some t.info.wcs)) p) := by
  have hp := pi_pos
  have a0 := abs_nonneg d0
  have a1 := abs_nonneg d1
  have h0 : |d0| < 90 := by linarith
  have h1 : |d1| < 90 := by linarith
  have b0 := abs_le.1 (le_refl |d0|)
  have b1 := abs_le.1 (le_refl |d1|)
  have hlat : |p.lat| < π / 2 := by
    unfold rad at hp0 hp1
    rw [abs_lt]
    constructor <;> nlinarith
  obtain ⟨t, g1, g2⟩ := C59_findTract (by omega) h0 h1 hov (by linarith) (by linarith) (by linarith) he hx hy hf hs hl hb hlon hlat hp0 hp1
  have hmem : t ∈ ts := by
    obtain ⟨k, t', e1, e2, -⟩ := C35_findTract (ops := sphereOps) (fun _ _ => rfl) (by omega) h0 h1 hl hx hy hb p hlon.1 hlon.2 hlat
    rw [g1] at e1
    simp only [Prod.mk.injEq, Except.ok.injEq, and_true] at e1
    subst e1
    exact List.mem_of_getElem? e2
  obtain ⟨k, hk⟩ := List.getElem?_of_mem hmem
  obtain ⟨-, hnew⟩ := C62_same_size (P := .CEA) (by omega) h0.le h1.le hf rfl hl hb
  obtain ⟨a, hak, hnew⟩ := hnew k t hk
  have hcontr : t.info.contains ⟨(2 * k + 1) * π / n, 0⟩ = true := by
    refine C59_contains (by omega) h0 h1 hov (by linarith) (by linarith) (by linarith) he hx hy hf hs hl hb hk ?_ ?_ (.inl rfl) 0 ?_
    · unfold rad; dsimp only
      exact mul_nonpos_of_nonpos_of_nonneg hd0 (by positivity)
    · unfold rad; dsimp only; positivity
    · have hrov : 0 ≤ rad ov := by unfold rad; positivity
      have hrov1 : rad ov < π := by unfold rad; nlinarith
      have := (lonReach_range (rad d0) (δ := rad ov / 2) (by linarith) (by linarith) (cos_rad_pos h0)).1
      simp only [sub_self, Int.cast_zero, zero_mul, add_zero, abs_zero]
      positivity
  rw [tracts_exact (by omega) h0.le h1.le, Except.ok.injEq] at hl
  subst hl
  have hkn : k < n := by
    have := (List.getElem?_eq_some_iff.1 hak).1
    simpa using this
  rw [List.getElem?_map, List.getElem?_range hkn, Option.map_some, Option.some.injEq] at hak
  subst hak
  have hw : (args (f.makeWcs other ⟨0, 0⟩) n d0 d1 ov k).wcs = f.makeWcs other ⟨0, 0⟩ ⟨(2 * k + 1) * π / n, 0⟩ := rfl
  have hw' := hw
  rw [WcsFactory.makeWcs_eq (P := .CEA) hf rfl] at hw'
  obtain ⟨crpix', e, hext⟩ := TractInfo.extent he hnew hx hy hw' (sample_near (low := -90) (high := 90) hn (by linarith) (by linarith) le_rfl (by linarith)
    (by linarith) le_rfl hov hov1 k0 k1 hf hs)
  -- sizes
  have hpc : ∃ px, t.info.wcs.PixelOf p px ∧ t.info.getBBox.contains px = true := by
    unfold TractInfo.contains at g2
    cases hq : t.info.wcs.skyToPixel p with
    | raises => rw [hq] at g2; simp at g2
    | nonfinite => rw [hq] at g2; simp at g2
    | pix q =>
      rw [hq] at g2
      exact ⟨_, ⟨q, hq, rfl⟩, g2⟩
  obtain ⟨px, hpx, hpxc⟩ := hpc
  have hd := Box2I.contains_dim hpxc
  change 0 < t.info.bbox.dim.x ∧ 0 < t.info.bbox.dim.y at hd
  have c1 := hext t.info.bbox.min (by rw [Box2I.contains_iff]; omega)
  have c2 := hext ⟨t.info.bbox.min.x + t.info.bbox.dim.x - 1, t.info.bbox.min.y + t.info.bbox.dim.y - 1⟩
    (by rw [Box2I.contains_iff]; dsimp only; omega)
  push_cast at c2
  rw [abs_le, abs_le] at c1 c2
  obtain ⟨⟨c11, c12⟩, ⟨c13, c14⟩, -⟩ := c1
  obtain ⟨⟨c21, c22⟩, ⟨c23, c24⟩, -⟩ := c2
  have hs3 : sin (π / 3) < 7 / 8 := by
    rw [sin_pi_div_three, div_lt_iff₀ (by norm_num)]
    have : √3 < 1.75 := by rw [sqrt_lt' (by norm_num)]; norm_num
    linarith
  have hp4 := pi_gt_d2
  have eX : scale * ((5 * π / 12) / scale) = 5 * π / 12 := by field_simp
  have eY : scale * (sin (π / 3) / scale) = sin (π / 3) := by field_simp
  have hbr : (0 : ℝ) ≤ b₀.patchBorder := by exact_mod_cast hbd
  have sb : 0 ≤ scale * b₀.patchBorder := mul_nonneg hs.le hbr
  have sY : ∀ y : ℝ, |y - crpix'.y| ≤ sin (π / 3) / scale + ((b₀.patchInnerDimensions.y : ℝ) / 2 + 2) + 1 / 2 + b₀.patchBorder →
      |arcsin (scale * (y - crpix'.y))| < π / 2 := by
    intro y h
    have h2 := mul_le_mul_of_nonneg_left h hs.le
    rw [← abs_of_pos hs, ← abs_mul, abs_of_pos hs] at h2
    have h3 : |scale * (y - crpix'.y)| < 1 := by linarith
    rw [abs_lt] at h3 ⊢
    exact ⟨neg_pi_div_two_lt_arcsin.2 h3.1, arcsin_lt_pi_div_two.2 h3.2⟩
  have hwidth : scale * (t.info.getBBox.dim.x : ℝ) < π := by
    change scale * (t.info.bbox.dim.x : ℝ) < π
    have : (t.info.bbox.dim.x : ℝ) ≤ 2 * ((5 * π / 12) / scale + ((b₀.patchInnerDimensions.x : ℝ) / 2 + 2)) + 1 := by linarith
    have := mul_le_mul_of_nonneg_left this hs.le
    linarith
  refine ⟨t, g1, hmem, ?_, fun hbx => ?_⟩
  · refine C66_tract hnew hf hs hw rfl hcontr hwidth ?_ hlat.le g2
    change ∀ v ∈ makeSkyPolygonFromBBox t.info.bbox t.info.wcs, _
    rw [e, cea_corner_lats hd]
    constructor
    · exact sY _ (by rw [abs_le]; constructor <;> linarith)
    · exact sY _ (by rw [abs_le]; constructor <;> linarith)
  · obtain ⟨ix, ⟨pi, hpi, hpin⟩, -⟩ := C02_tiling hnew hx hy hbd px hpxc
    have B := TractInfo.new_built hnew hx hy
    obtain ⟨hrange, -⟩ := (B.ready.getPatchInfo_iff (by rw [B.border]; exact hbd) ix t.info.wcs pi).1 hpi
    obtain ⟨S, e2, e3⟩ := B.patchSides hbd hpi
    have hsides : (t.info.bbox.min.y : ℝ) - b₀.patchBorder ≤ pi.outerBBox.min.y ∧
        (pi.outerBBox.min.y : ℝ) + pi.outerBBox.dim.y ≤ t.info.bbox.min.y + t.info.bbox.dim.y + b₀.patchBorder := by
      have i1 : t.info.bbox.min.y ≤ pi.innerBBox.min.y ∧ pi.innerBBox.min.y + pi.innerBBox.dim.y ≤ t.info.bbox.min.y + t.info.bbox.dim.y := by
        have hin : ∀ q, pi.innerBBox.contains q = true → t.info.bbox.contains q = true := by
          intro q hq
          obtain ⟨hr, hv⟩ := (B.ready.getPatchInfo_iff (by rw [B.border]; exact hbd) ix t.info.wcs pi).1 hpi
          rw [B.box]
          refine B.ready.inner_sub hr ?_
          rw [← TractBuilder.patchVal_inner b t.info.numPatches ix t.info.wcs, ← hv]
          exact hq
        have dd := Box2I.contains_dim hpin
        have q1 := hin pi.innerBBox.min (by rw [Box2I.contains_iff]; omega)
        have q2 := hin ⟨pi.innerBBox.min.x + pi.innerBBox.dim.x - 1, pi.innerBBox.min.y + pi.innerBBox.dim.y - 1⟩
          (by rw [Box2I.contains_iff]; dsimp only; omega)
        rw [Box2I.contains_iff] at q1 q2
        dsimp only at q2
        omega
      have := S.by0
      have := S.by1
      constructor
      · have : t.info.bbox.min.y - b₀.patchBorder ≤ pi.outerBBox.min.y := by omega
        exact_mod_cast this
      · have : pi.outerBBox.min.y + pi.outerBBox.dim.y ≤ t.info.bbox.min.y + t.info.bbox.dim.y + b₀.patchBorder := by omega
        exact_mod_cast this
    have hody : (0 : ℝ) < pi.outerBBox.dim.y := by exact_mod_cast S.dy
    have hpole : ∀ v ∈ makeSkyPolygonFromBBox pi.outerBBox t.info.wcs, |v.lat| < π / 2 := by
      rw [e, cea_corner_lats ⟨S.dx, S.dy⟩]
      constructor
      · exact sY _ (by rw [abs_le]; constructor <;> linarith [hsides.1, hsides.2])
      · exact sY _ (by rw [abs_le]; constructor <;> linarith [hsides.1, hsides.2])
    have hwd : scale * ((b₀.patchInnerDimensions.x : ℝ) + 2 * b₀.patchBorder) < π := by linarith
    have poly : ∀ w : Option (Wcs (SpherePoint ℝ) ℝ), (w = none ∨ w = some t.info.wcs) → InPolygon (pi.getOuterSkyPolygon w) p := by
      intro w hw2
      refine C66_patch hnew hx hy hbd hf hs hw rfl hcontr hpi hwd hbx hw2 ?_ hlat.le hpx hpin
      unfold PatchInfo.getOuterSkyPolygon getSkyPolygon
      have ew : w.getD pi.wcs = t.info.wcs := by
        rw [e2]
        rcases hw2 with rfl | rfl <;> rfl
      rw [ew]
      exact hpole
    exact ⟨ix, pi, hrange, hpi, ⟨px, hpx, hpin⟩, poly _ (.inl rfl), poly _ (.inr rfl)⟩

/-- C66: on an equatorial sky map that lies north or south of the equator, every tract has positions that are not in its outer polygon. -/
theorem C66_gap (hn : 4 ≤ n) (hov : 0 ≤ ov) (hov1 : ov ≤ 30) (k0 : |d0| + ov / 2 ≤ 60) (k1 : |d1| + ov / 2 ≤ 60) (hd : d0 ≤ d1)
    (he : env.Ok) (hx : 0 < b₀.patchInnerDimensions.x) (hy : 0 < b₀.patchInnerDimensions.y)
    (hf : WcsFactory.new scale "CEA" 0 flipX = .ok f) (hs : 0 < scale)
    (lx : scale * ((b₀.patchInnerDimensions.x : ℝ) / 2 + 3) ≤ 1 / 8) (ly : scale * ((b₀.patchInnerDimensions.y : ℝ) / 2 + 3) ≤ 1 / 8)
    (hside : scale * ((b₀.patchInnerDimensions.y : ℝ) / 2 + 3) ≤ sin (rad (d0 - ov / 2)) ∨
      sin (rad (d1 + ov / 2)) ≤ -(scale * ((b₀.patchInnerDimensions.y : ℝ) / 2 + 3))) {l : List (TractArgs (SpherePoint ℝ) ℝ)}
    (hl : tracts exact (f.makeWcs other ⟨0, 0⟩) ⟨n, [d0, d1], ov⟩ = .ok l)
    (hb : EagerSkyMap.buildAll env sphereOps l 0 b₀ = .ok (ts, b)) {t : TractRef (SpherePoint ℝ) ℝ} (ht : t ∈ ts) :
    ∃ p, t.info.contains p = true ∧ ¬ InPolygon t.info.getOuterSkyPolygon p := by
  have hp := pi_pos
  have a0 := abs_nonneg d0
  have a1 := abs_nonneg d1
  have h0 : |d0| < 90 := by linarith
  have h1 : |d1| < 90 := by linarith
  have b0 := abs_le.1 (le_refl |d0|)
  have b1 := abs_le.1 (le_refl |d1|)
  obtain ⟨k, hk⟩ := List.getElem?_of_mem ht
  obtain ⟨-, hnew⟩ := C62_same_size (P := .CEA) (by omega) h0.le h1.le hf rfl hl hb
  obtain ⟨a, hak, hnew⟩ := hnew k t hk
  have hdim : 0 < t.info.bbox.dim.x ∧ 0 < t.info.bbox.dim.y := by
    have hcc : t.info.contains ⟨(2 * k + 1) * π / n, rad d0⟩ = true := by
      refine C59_contains (by omega) h0 h1 hov (by linarith) (by linarith) (by linarith) he hx hy hf hs hl hb hk ?_ ?_ (.inl rfl) 0 ?_
      · unfold rad; dsimp only; nlinarith
      · unfold rad; dsimp only; nlinarith
      · have hrov : 0 ≤ rad ov := by unfold rad; positivity
        have hrov1 : rad ov < π := by unfold rad; nlinarith
        have := (lonReach_range (rad d0) (δ := rad ov / 2) (by linarith) (by linarith) (cos_rad_pos h0)).1
        simp only [sub_self, Int.cast_zero, zero_mul, add_zero, abs_zero]
        positivity
    unfold TractInfo.contains at hcc
    cases hq : t.info.wcs.skyToPixel ⟨(2 * k + 1) * π / n, rad d0⟩ with
    | raises => rw [hq] at hcc; simp at hcc
    | nonfinite => rw [hq] at hcc; simp at hcc
    | pix q => rw [hq] at hcc; exact Box2I.contains_dim hcc
  rw [tracts_exact (by omega) h0.le h1.le, Except.ok.injEq] at hl
  subst hl
  have hkn : k < n := by
    have := (List.getElem?_eq_some_iff.1 hak).1
    simpa using this
  rw [List.getElem?_map, List.getElem?_range hkn, Option.map_some, Option.some.injEq] at hak
  subst hak
  have hw : (args (f.makeWcs other ⟨0, 0⟩) n d0 d1 ov k).wcs = f.makeWcs other ⟨0, 0⟩ ⟨(2 * k + 1) * π / n, 0⟩ := rfl
  have hw' := hw
  rw [WcsFactory.makeWcs_eq (P := .CEA) hf rfl] at hw'
  obtain ⟨crpix', e, hext⟩ := TractInfo.extent he hnew hx hy hw'
    (sample_near (low := d0 - ov / 2) (high := d1 + ov / 2) hn le_rfl (by linarith) (by linarith) (by linarith) le_rfl (by linarith) hov hov1 k0 k1 hf hs)
  have c1 := hext t.info.bbox.min (by rw [Box2I.contains_iff]; omega)
  have c2 := hext ⟨t.info.bbox.min.x + t.info.bbox.dim.x - 1, t.info.bbox.min.y + t.info.bbox.dim.y - 1⟩
    (by rw [Box2I.contains_iff]; dsimp only; omega)
  push_cast at c2
  rw [abs_le, abs_le] at c1 c2
  obtain ⟨⟨c11, c12⟩, ⟨c13, c14⟩, c15, -⟩ := c1
  obtain ⟨⟨c21, c22⟩, ⟨c23, c24⟩, -, c26⟩ := c2
  have hs3 : sin (π / 3) < 7 / 8 := by
    rw [sin_pi_div_three, div_lt_iff₀ (by norm_num)]
    have : √3 < 1.75 := by rw [sqrt_lt' (by norm_num)]; norm_num
    linarith
  have hp4 := pi_gt_d2
  have eX : scale * ((5 * π / 12) / scale) = 5 * π / 12 := by field_simp
  have eY : scale * (sin (π / 3) / scale) = sin (π / 3) := by field_simp
  have eZ : scale * (sin (rad (d0 - ov / 2)) / scale) = sin (rad (d0 - ov / 2)) := by field_simp
  have hdx : (0 : ℝ) < t.info.bbox.dim.x := by exact_mod_cast hdim.1
  have hdy : (0 : ℝ) < t.info.bbox.dim.y := by exact_mod_cast hdim.2
  have sY : ∀ y : ℝ, |y - crpix'.y| ≤ sin (π / 3) / scale + ((b₀.patchInnerDimensions.y : ℝ) / 2 + 2) + 1 / 2 →
      |arcsin (scale * (y - crpix'.y))| < π / 2 := by
    intro y h
    have h2 := mul_le_mul_of_nonneg_left h hs.le
    rw [← abs_of_pos hs, ← abs_mul, abs_of_pos hs] at h2
    have h3 : |scale * (y - crpix'.y)| < 1 := by linarith
    rw [abs_lt] at h3 ⊢
    exact ⟨neg_pi_div_two_lt_arcsin.2 h3.1, arcsin_lt_pi_div_two.2 h3.2⟩
  have eZ' : scale * (sin (rad (d1 + ov / 2)) / scale) = sin (rad (d1 + ov / 2)) := by field_simp
  have W1 : scale * (t.info.getBBox.dim.x : ℝ) < π := by
    change scale * (t.info.bbox.dim.x : ℝ) < π
    have : (t.info.bbox.dim.x : ℝ) ≤ 2 * ((5 * π / 12) / scale + ((b₀.patchInnerDimensions.x : ℝ) / 2 + 2)) + 1 := by linarith
    have := mul_le_mul_of_nonneg_left this hs.le
    linarith
  have W2 : ∀ v ∈ t.info.getOuterSkyPolygon, |v.lat| < π / 2 := by
    change ∀ v ∈ makeSkyPolygonFromBBox t.info.bbox t.info.wcs, _
    rw [e, cea_corner_lats hdim]
    constructor
    · exact sY _ (by rw [abs_le]; constructor <;> linarith)
    · exact sY _ (by rw [abs_le]; constructor <;> linarith)
  have W3 : |scale * ((t.info.getBBox.min.x : ℝ) + t.info.getBBox.dim.x / 2 - 1 / 2 - crpix'.x)| < π := by
    change |scale * ((t.info.bbox.min.x : ℝ) + t.info.bbox.dim.x / 2 - 1 / 2 - crpix'.x)| < π
    have : |(t.info.bbox.min.x : ℝ) + t.info.bbox.dim.x / 2 - 1 / 2 - crpix'.x| ≤ (5 * π / 12) / scale + ((b₀.patchInnerDimensions.x : ℝ) / 2 + 2) := by
      rw [abs_le]; constructor <;> linarith
    have h2 := mul_le_mul_of_nonneg_left this hs.le
    rw [abs_mul, abs_of_pos hs]
    linarith
  rcases hside with hside | hside
  · refine C66_tract_gap hnew hf hs hw rfl hdim W1 W2 (r := crpix') (by rw [e]; exact cea_crval rfl hs) ?_ W3
    change crpix'.y < (t.info.bbox.min.y : ℝ) - 1 / 2
    have h2 := mul_le_mul_of_nonneg_left c15 hs.le
    have h3 : 0 < scale * ((t.info.bbox.min.y : ℝ) - crpix'.y - 1 / 2) := by linarith
    have := pos_of_mul_pos_right h3 hs.le
    linarith
  · refine C66_tract_gap_south hnew hf hs hw rfl hdim W1 W2 (r := crpix') (by rw [e]; exact cea_crval rfl hs) ?_ W3
    change (t.info.bbox.min.y : ℝ) + t.info.bbox.dim.y - 1 / 2 < crpix'.y
    have h2 := mul_le_mul_of_nonneg_left c26 hs.le
    have h3 : 0 < scale * (crpix'.y - ((t.info.bbox.min.y : ℝ) + t.info.bbox.dim.y - 1 / 2)) := by linarith
    have := pos_of_mul_pos_right h3 hs.le
    linarith

/-- C66: the regions that `register` stores for such a sky map cover the configured strip: every position in it is in the region of the tract that
`findTract` finds for it, and in the region of one of that tract's patches. -/
theorem C66_registered {H : Bytes → Bytes} {fault : Nat → Option PyErr} {name : String} (hn : 4 ≤ n) (hov : 0 ≤ ov) (hov1 : ov ≤ 30)
    (k0 : |d0| + ov / 2 ≤ 60) (k1 : |d1| + ov / 2 ≤ 60)
    (hd0 : d0 - ov / 2 ≤ 0) (hd1 : 0 ≤ d1 + ov / 2) (he : env.Ok) (hx : 0 < b₀.patchInnerDimensions.x) (hy : 0 < b₀.patchInnerDimensions.y)
    (hbd : 0 ≤ b₀.patchBorder) (hf : WcsFactory.new scale "CEA" 0 flipX = .ok f) (hs : 0 < scale)
    (lx : scale * ((b₀.patchInnerDimensions.x : ℝ) / 2 + 3 + b₀.patchBorder) ≤ 1 / 8)
    (ly : scale * ((b₀.patchInnerDimensions.y : ℝ) / 2 + 3 + b₀.patchBorder) ≤ 1 / 8)
    (hbx : scale * ((b₀.patchInnerDimensions.x : ℝ) + 2 * b₀.patchBorder) ^ 2 ≤ 8 * b₀.patchBorder)
    (hfault : ∀ n, fault n = none) {reg : Registry (SpherePoint ℝ)} (hsound : reg.Sound) {hm : HashedMap} {calls : Nat} {h : Bytes}
    (hb : (hm.getSha1 H).1 = .ok h) (hnew : ∀ x ∈ reg.skymaps, x.skymap ≠ name ∧ x.hash ≠ h) :
    ∃ l ts b', tracts .exact (f.makeWcs other ⟨0, 0⟩) ⟨n, [d0, d1], ov⟩ = .ok l ∧
      EagerSkyMap.buildAll env sphereOps l 0 b₀ = .ok (ts, b') ∧
      ∃ w', BaseSkyMap.register H fault (EagerSkyMap.skyMapOps ts) name ⟨b', hm, reg, calls⟩ = (.ok (), w') ∧
        ∀ p : SpherePoint ℝ, 0 ≤ p.lon → p.lon < 2 * π → rad (d0 - ov / 2) ≤ p.lat → p.lat ≤ rad (d1 + ov / 2) →
          ∃ r, BaseSkyMap.findTract sphereOps (EagerSkyMap.skyMapOps ts) p w'.map = (.ok r, w'.map) ∧
            (∃ x ∈ w'.reg.tracts, x.skymap = name ∧ x.tract = r.info.id ∧ InPolygon x.region p) ∧
            ∃ y ∈ w'.reg.patches, y.skymap = name ∧ y.tract = r.info.id ∧ InPolygon y.region p := by
  obtain ⟨l, ts, b', e1, e2, w', e3, ts', ht, hids, hx1, hx2, hy1, hy2, -⟩ :=
    Equat.C63_registers (other := other) (env := env) (name := name) (fault := fault) (ov := ov) (n := n) (d0 := d0) (d1 := d1)
      (by omega) (by have := abs_nonneg d0; linarith) (by have := abs_nonneg d1; linarith) hx hy hbd hf hs hfault hsound (calls := calls) hb hnew
  have ha : w'.map = b' := by
    have := acc_register (M := EagerSkyMap.skyMapOps ts) H fault name ⟨b', hm, reg, calls⟩
    rw [e3] at this
    exact EagerSkyMap.after_eq this
  refine ⟨l, ts, b', e1, e2, w', e3, fun p l0 l1 p0 p1 => ?_⟩
  obtain ⟨r, g1, g2, g3, g4⟩ := C66_covers hn hov hov1 k0 k1 hd0 hd1 he hx hy hbd hf hs lx ly e1 e2 ⟨l0, l1⟩ p0 p1
  obtain ⟨ix, pi, hrange, hpi, -, -, g5⟩ := g4 hbx
  have ets : ts' = ts := by
    apply List.ext_getElem?
    intro i
    by_cases hi : i < ts'.length
    · have h1 := ht.2 i _ (List.getElem?_eq_getElem hi)
      have hi' : i < ts.length := by rw [ht.1] at hi; exact hi
      simp only [EagerSkyMap.skyMapOps, PyS.lift, Prod.mk.injEq] at h1
      rw [CachingSkyMap.pyGetItem_nat (List.getElem?_eq_getElem hi'), Except.ok.injEq] at h1
      rw [List.getElem?_eq_getElem hi, List.getElem?_eq_getElem hi', h1.1]
    · have hi' : ¬ i < ts.length := by rw [ht.1] at hi; exact hi
      rw [List.getElem?_eq_none (by omega), List.getElem?_eq_none (by omega)]
  subst ets
  have uniq : ∀ t ∈ ts', t.info.id = r.info.id → t = r := by
    intro t htm hid
    obtain ⟨j, hj⟩ := List.getElem?_of_mem htm
    obtain ⟨k, hk⟩ := List.getElem?_of_mem g2
    have i1 := hids j t hj
    have i2 := hids k r hk
    have : j = k := by rw [hid, i2] at i1; omega
    rw [this, hk, Option.some.injEq] at hj
    exact hj.symm
  have hpos : ∀ {α : Type} {l : List α} {q : α → Prop} [DecidablePred q], l.countP (fun x => decide (q x)) = 1 → ∃ x ∈ l, q x := by
    intro α l q _ hcount
    obtain ⟨x, h1, h2⟩ := List.countP_pos_iff.1 (by rw [hcount]; exact Nat.one_pos)
    exact ⟨x, h1, by simpa using h2⟩
  refine ⟨r, by rw [ha]; exact g1, ?_, ?_⟩
  · obtain ⟨x, h1, h2⟩ := hpos (hx2 r g2)
    simp only [Prod.mk.injEq] at h2
    obtain ⟨t, ht1, rfl⟩ := hx1 x h1 h2.1
    obtain rfl := uniq t ht1 h2.2
    exact ⟨_, h1, rfl, rfl, g3⟩
  · obtain ⟨y, h1, h2⟩ := hpos (hy2 r g2 ix hrange)
    simp only [Prod.mk.injEq] at h2
    obtain ⟨t, ht1, f1, -, -, q, f2, -, f3⟩ := hy1 y h1 h2.1
    obtain rfl := uniq t ht1 (by rw [← f1, h2.2.1])
    have : q = pi := by
      rw [h2.2.2.1, h2.2.2.2, ha] at f2
      exact Except.ok.inj (f2.symm.trans hpi)
    subst this
    refine ⟨y, h1, h2.1, h2.2.1, ?_⟩
    rw [f3]
    exact g5

/-! ## Hypotheses met -/

/-- Four tracts between -5/4 and 5/4 degrees, overlap 1 degree, pixels of 10 microradians, patches of 1000 pixels with a border of 50: the registered
regions cover the strip (`C66_registered`, hence `C66_covers`, `C66_tract` and `C66_patch`). -/
example (other) : ∃ f, WcsFactory.new (1 / 100000) "CEA" 0 false = .ok f ∧
    ∃ l ts b', tracts .exact (f.makeWcs other ⟨0, 0⟩) ⟨(4 : Nat), [-5 / 4, 5 / 4], 1⟩ = .ok l ∧
      EagerSkyMap.buildAll Ex.realEnv sphereOps l 0 ⟨.legacy, ⟨1000, 1000⟩, 50, none⟩ = .ok (ts, b') ∧
      ∃ w', BaseSkyMap.register id (fun _ => none) (EagerSkyMap.skyMapOps ts) "m" ⟨b', ⟨.rings 120 0, Ex.hashConfig, .int 1, none⟩, {}, 0⟩ = (.ok (), w') ∧
        ∃ r, BaseSkyMap.findTract sphereOps (EagerSkyMap.skyMapOps ts) ⟨1, 1 / 100⟩ w'.map = (.ok r, w'.map) ∧
          ∃ y ∈ w'.reg.patches, y.tract = r.info.id ∧ InPolygon y.region ⟨1, 1 / 100⟩ := by
  have hp := pi_gt_three
  obtain ⟨b, hb⟩ := Ex.hashed_ok
  obtain ⟨f, hf⟩ := (WcsFactory.C56_projection_length (1 / 100000) "CEA" 0 false).2 rfl
  obtain ⟨l, ts, b', e1, e2, w', e3, e4⟩ := C66_registered (H := id) (fault := fun _ => none) (name := "m") (env := Ex.realEnv) (other := other)
    (b₀ := ⟨.legacy, ⟨1000, 1000⟩, 50, none⟩) (n := 4) (d0 := -5 / 4) (d1 := 5 / 4) (ov := 1) (f := f) (le_refl 4) (by norm_num) (by norm_num)
    (by norm_num [abs_div]) (by norm_num [abs_div]) (by norm_num) (by norm_num) Ex.realEnv_ok (by decide) (by decide) (by decide) hf (by norm_num)
    (by norm_num) (by norm_num) (by norm_num) (fun _ => rfl) Registry.sound_empty (calls := 0) hb (fun x hx => by simp at hx)
  obtain ⟨r, r1, -, y, r2, -, r3, r4⟩ := e4 ⟨1, 1 / 100⟩ (by norm_num) (by dsimp only; linarith)
    (by unfold rad; dsimp only; linarith) (by unfold rad; dsimp only; linarith)
  exact ⟨f, hf, l, ts, b', e1, e2, w', e3, r, r1, y, r2, r3, r4⟩

/-- Four tracts between 30 and 40 degrees: there is a first tract, and it has positions outside of its polygon. -/
example (other) : ∃ f, WcsFactory.new (1 / 1000) "CEA" 0 false = .ok f ∧
    ∃ l ts b', tracts .exact (f.makeWcs other ⟨0, 0⟩) ⟨(4 : Nat), [30, 40], 1⟩ = .ok l ∧
      EagerSkyMap.buildAll Ex.realEnv sphereOps l 0 Ex.smallBuilder = .ok (ts, b') ∧
      ∃ t ∈ ts, ∃ p, t.info.contains p = true ∧ ¬ InPolygon t.info.getOuterSkyPolygon p := by
  have hp := pi_gt_three
  obtain ⟨f, hf⟩ := (WcsFactory.C56_projection_length (1 / 1000) "CEA" 0 false).2 rfl
  obtain ⟨l, ts, b', e1, e2⟩ := C59_builds (env := Ex.realEnv) (b₀ := Ex.smallBuilder) (ov := 1) (other := other) (n := 4) (d0 := 30) (d1 := 40)
    (by decide) (by norm_num) (by norm_num) (by decide) (by decide) hf (by norm_num)
  have hlen := (EagerSkyMap.buildAll_ok e2 (by decide) (by decide)).1
  have hl := e1
  rw [tracts_exact (by decide) (by norm_num) (by norm_num), Except.ok.injEq] at hl
  have h4 : l.length = 4 := by rw [← hl]; simp
  obtain ⟨t, ht⟩ := List.exists_mem_of_ne_nil ts (by intro h0; rw [h0] at hlen; simp [h4] at hlen)
  refine ⟨f, hf, l, ts, b', e1, e2, t, ht, C66_gap (le_refl 4) (by norm_num) (by norm_num) (by norm_num) (by norm_num) (by norm_num) Ex.realEnv_ok
    (by decide) (by decide) hf (by norm_num) (by norm_num [Ex.smallBuilder]) (by norm_num [Ex.smallBuilder]) ?_ e1 e2 ht⟩
  have : (1 / 8 : ℝ) ≤ rad (30 - 1 / 2) := by unfold rad; linarith
  have h2 : rad (30 - 1 / 2) ≤ π / 2 := by unfold rad; linarith
  have := mul_le_sin (x := rad (30 - 1 / 2)) (by linarith) h2
  refine .inl (le_trans ?_ this)
  refine le_trans (b := 1 / 16) (by norm_num [Ex.smallBuilder]) ?_
  unfold rad
  field_simp
  norm_num

/-- Four tracts between 30 and 40 degrees south: there is a first tract, and it has positions outside of its polygon. -/
example (other) : ∃ f, WcsFactory.new (1 / 1000) "CEA" 0 false = .ok f ∧
    ∃ l ts b', tracts .exact (f.makeWcs other ⟨0, 0⟩) ⟨(4 : Nat), [-40, -30], 1⟩ = .ok l ∧
      EagerSkyMap.buildAll Ex.realEnv sphereOps l 0 Ex.smallBuilder = .ok (ts, b') ∧
      ∃ t ∈ ts, ∃ p, t.info.contains p = true ∧ ¬ InPolygon t.info.getOuterSkyPolygon p := by
  have hp := pi_gt_three
  obtain ⟨f, hf⟩ := (WcsFactory.C56_projection_length (1 / 1000) "CEA" 0 false).2 rfl
  obtain ⟨l, ts, b', e1, e2⟩ := C59_builds (env := Ex.realEnv) (b₀ := Ex.smallBuilder) (ov := 1) (other := other) (n := 4) (d0 := -40) (d1 := -30)
    (by decide) (by norm_num) (by norm_num) (by decide) (by decide) hf (by norm_num)
  have hlen := (EagerSkyMap.buildAll_ok e2 (by decide) (by decide)).1
  have hl := e1
  rw [tracts_exact (by decide) (by norm_num) (by norm_num), Except.ok.injEq] at hl
  have h4 : l.length = 4 := by rw [← hl]; simp
  obtain ⟨t, ht⟩ := List.exists_mem_of_ne_nil ts (by intro h0; rw [h0] at hlen; simp [h4] at hlen)
  refine ⟨f, hf, l, ts, b', e1, e2, t, ht, C66_gap (le_refl 4) (by norm_num) (by norm_num) (by norm_num [abs_of_neg]) (by norm_num [abs_of_neg]) (by norm_num) Ex.realEnv_ok
    (by decide) (by decide) hf (by norm_num) (by norm_num [Ex.smallBuilder]) (by norm_num [Ex.smallBuilder]) ?_ e1 e2 ht⟩
  have : (1 / 8 : ℝ) ≤ rad (30 - 1 / 2) := by unfold rad; linarith
  have h2 : rad (30 - 1 / 2) ≤ π / 2 := by unfold rad; linarith
  have := mul_le_sin (x := rad (30 - 1 / 2)) (by linarith) h2
  rw [show (-30 : ℝ) + 1 / 2 = -(30 - 1 / 2) by norm_num, show rad (-(30 - 1 / 2)) = -rad (30 - 1 / 2) by unfold rad; ring, sin_neg]
  refine .inr (neg_le_neg (le_trans ?_ this))
  refine le_trans (b := 1 / 16) (by norm_num [Ex.smallBuilder]) ?_
  unfold rad
  field_simp
  norm_num

end Equat

end Skymap
