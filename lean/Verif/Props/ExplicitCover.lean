import Verif.Lemmas.Cover
import Verif.Props.Wcs
import Verif.Props.Caching
import Verif.Lemmas.Generate
import Mathlib.Tactic.IntervalCases

/-!
# C57: how much of the sky an explicit tract contains

With a zenithal projection (TAN, STG), in exact sphere geometry.  `DiscreteSkyMap` and `RingsSkyMap` have explicit tracts.
-/

namespace Skymap
open Real

variable {env : FloatEnv ℝ} {b₀ b : TractBuilder} {a : TractArgs (SpherePoint ℝ) ℝ} {t : TractInfo (SpherePoint ℝ) ℝ}
  {other : P2 ℝ → SpherePoint ℝ → CdMatrix → String → Wcs (SpherePoint ℝ) ℝ} {f : WcsFactory} {scale θ : ℝ} {code : String}
  {flipX : Bool} {P : Projection}

/-- The pixel positions of the four positions that size an explicit tract. -/
theorem explicit_samples (hf : WcsFactory.new scale code θ flipX = .ok f) (hs : 0 < scale) (hP : Projection.ofCode code = some P)
    {r ρ : ℝ} (ha : a.shape = .explicit r) (hw : a.wcs = f.makeWcs other ⟨0, 0⟩ a.ctrCoord) (hρ : ρ = r + a.tractOverlap)
    (h0 : 0 ≤ ρ) (hl : ρ < P.limit) (s : SpherePoint ℝ) (hsm : s ∈ samplePoints sphereOps a) :
    ∃ i : Nat, i < 4 ∧ a.wcs.skyToPixel s = .pix ⟨(if flipX then 1 else -1) * (P.radius ρ / scale * cos ((i : ℝ) * (π / 2) + θ)),
      P.radius ρ / scale * sin ((i : ℝ) * (π / 2) + θ)⟩ := by
  rw [C12_sample_points] at hsm
  rcases hsm with ⟨l, hl', -⟩ | ⟨l, hl', -⟩ | ⟨rr, hl', k, hk, e⟩
  · rw [ha] at hl'; simp at hl'
  · rw [ha] at hl'; simp at hl'
  · rw [ha, TractShape.explicit.injEq] at hl'
    subst hl'
    refine ⟨k, hk, ?_⟩
    rw [e, hw, ← hρ]
    change (f.makeWcs other ⟨0, 0⟩ a.ctrCoord).skyToPixel (a.ctrCoord.offset (90 * (k : ℝ)) ρ) = _
    rw [WcsFactory.C56_bearing hf hs.ne' hP _ _ _ h0 hl, show 90 * (k : ℝ) * (π / 180) = k * (π / 2) by ring]
    simp

theorem explicit_sample_mem {r : ℝ} (ha : a.shape = .explicit r) {k : Nat} (hk : k < 4) :
    a.ctrCoord.offset (90 * (k : ℝ)) (r + a.tractOverlap) ∈ samplePoints sphereOps a := by
  rw [C12_sample_points]; exact Or.inr (Or.inr ⟨r, ha, k, hk, rfl⟩)

theorem four_turns (θ : ℝ) : cos (((0 : ℕ) : ℝ) * (π / 2) + θ) = cos θ ∧ cos (((1 : ℕ) : ℝ) * (π / 2) + θ) = -sin θ ∧
    cos (((2 : ℕ) : ℝ) * (π / 2) + θ) = -cos θ ∧ cos (((3 : ℕ) : ℝ) * (π / 2) + θ) = sin θ ∧
    sin (((0 : ℕ) : ℝ) * (π / 2) + θ) = sin θ ∧ sin (((1 : ℕ) : ℝ) * (π / 2) + θ) = cos θ ∧
    sin (((2 : ℕ) : ℝ) * (π / 2) + θ) = -sin θ ∧ sin (((3 : ℕ) : ℝ) * (π / 2) + θ) = -cos θ := by
  have e0 : ((0 : ℕ) : ℝ) * (π / 2) + θ = θ := by simp
  have e1 : ((1 : ℕ) : ℝ) * (π / 2) + θ = θ + π / 2 := by push_cast; ring
  have e2 : ((2 : ℕ) : ℝ) * (π / 2) + θ = θ + π := by push_cast; ring
  have e3 : ((3 : ℕ) : ℝ) * (π / 2) + θ = θ + π + π / 2 := by push_cast; ring
  rw [e0, e1, e2, e3]
  simp only [cos_add_pi_div_two, sin_add_pi_div_two, cos_add_pi, sin_add_pi, neg_neg]
  simp

/-- Among the four directions there is one as far to each side as the larger of |cos θ| and |sin θ|. -/
theorem four_extreme (θ : ℝ) : (∃ i : Nat, i < 4 ∧ cos ((i : ℝ) * (π / 2) + θ) = max |cos θ| |sin θ|) ∧
    (∃ i : Nat, i < 4 ∧ cos ((i : ℝ) * (π / 2) + θ) = -max |cos θ| |sin θ|) ∧
    (∃ i : Nat, i < 4 ∧ sin ((i : ℝ) * (π / 2) + θ) = max |cos θ| |sin θ|) ∧
    (∃ i : Nat, i < 4 ∧ sin ((i : ℝ) * (π / 2) + θ) = -max |cos θ| |sin θ|) := by
  obtain ⟨c0, c1, c2, c3, s0, s1, s2, s3⟩ := four_turns θ
  rcases max_choice |cos θ| |sin θ| with h | h <;> rw [h]
  · rcases abs_choice (cos θ) with h' | h' <;> rw [h']
    · exact ⟨⟨0, by norm_num, c0⟩, ⟨2, by norm_num, c2⟩, ⟨1, by norm_num, s1⟩, ⟨3, by norm_num, s3⟩⟩
    · rw [neg_neg]
      exact ⟨⟨2, by norm_num, c2⟩, ⟨0, by norm_num, c0⟩, ⟨3, by norm_num, s3⟩, ⟨1, by norm_num, s1⟩⟩
  · rcases abs_choice (sin θ) with h' | h' <;> rw [h']
    · exact ⟨⟨3, by norm_num, c3⟩, ⟨1, by norm_num, c1⟩, ⟨0, by norm_num, s0⟩, ⟨2, by norm_num, s2⟩⟩
    · rw [neg_neg]
      exact ⟨⟨1, by norm_num, c1⟩, ⟨3, by norm_num, c3⟩, ⟨2, by norm_num, s2⟩, ⟨0, by norm_num, s0⟩⟩

theorem four_le (θ : ℝ) {i : Nat} (hi : i < 4) :
    |cos ((i : ℝ) * (π / 2) + θ)| ≤ max |cos θ| |sin θ| ∧ |sin ((i : ℝ) * (π / 2) + θ)| ≤ max |cos θ| |sin θ| := by
  obtain ⟨c0, c1, c2, c3, s0, s1, s2, s3⟩ := four_turns θ
  have hc : |cos θ| ≤ max |cos θ| |sin θ| := le_max_left _ _
  have hs : |sin θ| ≤ max |cos θ| |sin θ| := le_max_right _ _
  interval_cases i
  · rw [c0, s0]; exact ⟨hc, hs⟩
  · rw [c1, s1, abs_neg]; exact ⟨hs, hc⟩
  · rw [c2, s2, abs_neg, abs_neg]; exact ⟨hc, hs⟩
  · rw [c3, s3, abs_neg]; exact ⟨hs, hc⟩

/-- The pixel position of a position within the reach of the projection. -/
theorem zenithal_pixel (hf : WcsFactory.new scale code θ flipX = .ok f) (hs : 0 < scale) (hP : Projection.ofCode code = some P)
    (crval p : SpherePoint ℝ) (hd : greatCircle crval p < P.limit) :
    ∃ q : P2 ℝ, (f.makeWcs other ⟨0, 0⟩ crval).skyToPixel p = .pix q ∧
      q.x ^ 2 + q.y ^ 2 = (P.radius (greatCircle crval p) / scale) ^ 2 := by
  obtain ⟨k, -, h1, h2, h3⟩ := P.toPlane_zenithal hd
  rw [WcsFactory.makeWcs_eq hf hP]
  unfold makeSkyWcs
  dsimp only
  rw [h1]
  dsimp only
  rw [makeCdMatrix_solve hs.ne']
  refine ⟨_, rfl, ?_⟩
  have hm : ((if flipX then 1 else -1 : ℝ)) ^ 2 = 1 := by cases flipX <;> norm_num
  dsimp only
  set m : ℝ := if flipX then 1 else -1
  set e := eastOf crval p
  set n := northOf crval p
  have hsc := sin_sq_add_cos_sq θ
  rw [← h2, zero_add, zero_add, div_pow, div_pow, div_pow, ← add_div]
  congr 1
  linear_combination (cos θ * (k * e) - sin θ * (k * n)) ^ 2 * hm + k ^ 2 * (e ^ 2 + n ^ 2) * hsc + k ^ 2 * h3

/-- C57: an explicit tract with a zenithal projection contains every position whose projected distance from the centre is at most that
of radius + overlap, times the larger of |cos rotation| and |sin rotation|. -/
theorem C57_covers_rotated (he : env.Ok) (h : TractInfo.new env sphereOps b₀ a = .ok (t, b))
    (hx : 0 < b₀.patchInnerDimensions.x) (hy : 0 < b₀.patchInnerDimensions.y)
    (hf : WcsFactory.new scale code θ flipX = .ok f) (hs : 0 < scale) (hP : Projection.ofCode code = some P)
    {r : ℝ} (ha : a.shape = .explicit r) (hw : a.wcs = f.makeWcs other ⟨0, 0⟩ a.ctrCoord)
    (h0 : 0 ≤ r + a.tractOverlap) (hl : r + a.tractOverlap < P.limit) (p : SpherePoint ℝ) (hd : greatCircle a.ctrCoord p < P.limit)
    (hp : P.radius (greatCircle a.ctrCoord p) ≤ max |cos θ| |sin θ| * P.radius (r + a.tractOverlap)) : t.contains p = true := by
  obtain ⟨q, hq, hq2⟩ := zenithal_pixel (other := other) hf hs hP a.ctrCoord p hd
  have hr0 : 0 ≤ P.radius (greatCircle a.ctrCoord p) := P.radius_nonneg (arccos_nonneg _) hd
  have hρ0 := P.radius_nonneg h0 hl
  set M := max |cos θ| |sin θ|
  have hM : 0 ≤ M := (abs_nonneg _).trans (le_max_left _ _)
  set B := P.radius (r + a.tractOverlap) / scale * M with hB
  have hB0 : 0 ≤ B := by positivity
  have hle : P.radius (greatCircle a.ctrCoord p) / scale ≤ B := by
    rw [hB, div_mul_eq_mul_div, mul_comm _ M]; gcongr
  have hsq : q.x ^ 2 + q.y ^ 2 ≤ B ^ 2 := by rw [hq2]; gcongr
  have bx : |q.x| ≤ B := abs_le_of_sq_le_sq (by nlinarith [sq_nonneg q.y]) hB0
  have bY : |q.y| ≤ B := abs_le_of_sq_le_sq (by nlinarith [sq_nonneg q.x]) hB0
  rw [abs_le] at bx bY
  obtain ⟨⟨i1, l1, e1⟩, ⟨i2, l2, e2⟩, ⟨i3, l3, e3⟩, ⟨i4, l4, e4⟩⟩ := four_extreme θ
  have key : ∀ k : Nat, a.wcs.skyToPixel (a.ctrCoord.offset (90 * (k : ℝ)) (r + a.tractOverlap)) =
      .pix ⟨(if flipX then 1 else -1) * (P.radius (r + a.tractOverlap) / scale * cos ((k : ℝ) * (π / 2) + θ)),
        P.radius (r + a.tractOverlap) / scale * sin ((k : ℝ) * (π / 2) + θ)⟩ := by
    intro k
    rw [hw, WcsFactory.C56_bearing hf hs.ne' hP _ _ _ h0 hl, show 90 * (k : ℝ) * (π / 180) = k * (π / 2) by ring]
    simp
  have x1 := key i1
  have x2 := key i2
  have x3 := key i3
  have x4 := key i4
  rw [e1, ← hB] at x1
  rw [e2, mul_neg, ← hB] at x2
  rw [e3, ← hB] at x3
  rw [e4, mul_neg, ← hB] at x4
  refine TractInfo.contains_between he h hx hy (q := q) (by rw [hw]; exact hq) ?_ ?_ ⟨_, explicit_sample_mem ha l4, _, x4, bY.1⟩
    ⟨_, explicit_sample_mem ha l3, _, x3, bY.2⟩
  · cases flipX
    · exact ⟨_, explicit_sample_mem ha l1, _, x1, by simp; linarith⟩
    · exact ⟨_, explicit_sample_mem ha l2, _, x2, by simp; linarith⟩
  · cases flipX
    · exact ⟨_, explicit_sample_mem ha l2, _, x2, by simp; linarith⟩
    · exact ⟨_, explicit_sample_mem ha l1, _, x1, by simp; linarith⟩

/-- C57: without rotation, an explicit tract contains every position within radius + overlap of its centre. -/
theorem C57_covers (he : env.Ok) (h : TractInfo.new env sphereOps b₀ a = .ok (t, b))
    (hx : 0 < b₀.patchInnerDimensions.x) (hy : 0 < b₀.patchInnerDimensions.y)
    (hf : WcsFactory.new scale code 0 flipX = .ok f) (hs : 0 < scale) (hP : Projection.ofCode code = some P)
    {r : ℝ} (ha : a.shape = .explicit r) (hw : a.wcs = f.makeWcs other ⟨0, 0⟩ a.ctrCoord)
    (hl : r + a.tractOverlap < P.limit) (p : SpherePoint ℝ) (hp : greatCircle a.ctrCoord p ≤ r + a.tractOverlap) :
    t.contains p = true := by
  have hd0 : 0 ≤ greatCircle a.ctrCoord p := arccos_nonneg _
  refine C57_covers_rotated he h hx hy hf hs hP ha hw (hd0.trans hp) hl p (hp.trans_lt hl) ?_
  have : P.radius (greatCircle a.ctrCoord p) ≤ P.radius (r + a.tractOverlap) := P.radius_mono hd0 hp hl
  simpa using this

/-- C57: without rotation, an explicit tract contains the square of half size radius + overlap: every position whose plane coordinates
are both at most the projected distance of radius + overlap. -/
theorem C57_covers_square (he : env.Ok) (h : TractInfo.new env sphereOps b₀ a = .ok (t, b))
    (hx : 0 < b₀.patchInnerDimensions.x) (hy : 0 < b₀.patchInnerDimensions.y)
    (hf : WcsFactory.new scale code 0 flipX = .ok f) (hs : 0 < scale) (hP : Projection.ofCode code = some P)
    {r : ℝ} (ha : a.shape = .explicit r) (hw : a.wcs = f.makeWcs other ⟨0, 0⟩ a.ctrCoord)
    (h0 : 0 ≤ r + a.tractOverlap) (hl : r + a.tractOverlap < P.limit) (p : SpherePoint ℝ) {q : P2 ℝ}
    (hq : P.toPlane a.ctrCoord p = some q) (q1 : |q.x| ≤ P.radius (r + a.tractOverlap)) (q2 : |q.y| ≤ P.radius (r + a.tractOverlap)) :
    t.contains p = true := by
  have hpix : a.wcs.skyToPixel p = .pix ⟨(if flipX then 1 else -1) * q.x / scale, q.y / scale⟩ := by
    rw [hw, WcsFactory.makeWcs_eq hf hP]
    unfold makeSkyWcs
    dsimp only
    rw [hq]
    dsimp only
    rw [makeCdMatrix_solve hs.ne']
    simp
  have key : ∀ k : Nat, a.wcs.skyToPixel (a.ctrCoord.offset (90 * (k : ℝ)) (r + a.tractOverlap)) =
      .pix ⟨(if flipX then 1 else -1) * (P.radius (r + a.tractOverlap) / scale * cos ((k : ℝ) * (π / 2) + 0)),
        P.radius (r + a.tractOverlap) / scale * sin ((k : ℝ) * (π / 2) + 0)⟩ := by
    intro k
    rw [hw, WcsFactory.C56_bearing hf hs.ne' hP _ _ _ h0 hl, show 90 * (k : ℝ) * (π / 180) = k * (π / 2) by ring]
    simp
  obtain ⟨c0, c1, c2, c3, s0, s1, s2, s3⟩ := four_turns 0
  have x0 := key 0
  have x1 := key 1
  have x2 := key 2
  have x3 := key 3
  rw [c0, s0] at x0
  rw [c1, s1] at x1
  rw [c2, s2] at x2
  rw [c3, s3] at x3
  rw [cos_zero, sin_zero] at x0 x1 x2 x3
  rw [abs_le] at q1 q2
  have d1 : q.x / scale ≤ P.radius (r + a.tractOverlap) / scale := by gcongr; exact q1.2
  have d2 : -(P.radius (r + a.tractOverlap) / scale) ≤ q.x / scale := by rw [← neg_div]; gcongr; exact q1.1
  have d3 : q.y / scale ≤ P.radius (r + a.tractOverlap) / scale := by gcongr; exact q2.2
  have d4 : -(P.radius (r + a.tractOverlap) / scale) ≤ q.y / scale := by rw [← neg_div]; gcongr; exact q2.1
  refine TractInfo.contains_between he h hx hy hpix ?_ ?_
    ⟨_, explicit_sample_mem ha (by norm_num : 3 < 4), _, x3, by dsimp only; linarith⟩
    ⟨_, explicit_sample_mem ha (by norm_num : 1 < 4), _, x1, by dsimp only; linarith⟩
  · cases flipX
    · exact ⟨_, explicit_sample_mem ha (by norm_num : 0 < 4), _, x0, by simp [neg_div]; linarith⟩
    · exact ⟨_, explicit_sample_mem ha (by norm_num : 2 < 4), _, x2, by simp; linarith⟩
  · cases flipX
    · exact ⟨_, explicit_sample_mem ha (by norm_num : 2 < 4), _, x2, by simp [neg_div]; linarith⟩
    · exact ⟨_, explicit_sample_mem ha (by norm_num : 0 < 4), _, x0, by simp; linarith⟩

/-- C57 is sharp: whatever the rotation, the tract reaches beyond that by less than half a patch and two pixels along the axes, so a
position further out along the x axis of the pixels is not contained. -/
theorem C57_sharp (he : env.Ok) (h : TractInfo.new env sphereOps b₀ a = .ok (t, b))
    (hx : 0 < b₀.patchInnerDimensions.x) (hy : 0 < b₀.patchInnerDimensions.y)
    (hf : WcsFactory.new scale code θ flipX = .ok f) (hs : 0 < scale) (hP : Projection.ofCode code = some P)
    {r : ℝ} (ha : a.shape = .explicit r) (hw : a.wcs = f.makeWcs other ⟨0, 0⟩ a.ctrCoord)
    (h0 : 0 ≤ r + a.tractOverlap) (hl : r + a.tractOverlap < P.limit) {d : ℝ} (hd0 : 0 ≤ d) (hd : d < P.limit)
    (hp : (max |cos θ| |sin θ| * P.radius (r + a.tractOverlap)) / scale + (b₀.patchInnerDimensions.x : ℝ) / 2 + 2 ≤ P.radius d / scale) :
    t.contains (a.ctrCoord.offset (-(θ * (180 / π))) d) = false := by
  by_contra hc
  rw [Bool.not_eq_false] at hc
  have hq := WcsFactory.C56_bearing (other := other) (flipX := flipX) hf hs.ne' hP ⟨0, 0⟩ a.ctrCoord (-(θ * (180 / π))) hd0 hd
  rw [← hw, show -(θ * (180 / π)) * (π / 180) + θ = 0 by field_simp; ring] at hq
  simp only [cos_zero, sin_zero, mul_one, mul_zero, zero_add] at hq
  obtain ⟨⟨s1, m1, r1, p1, k1⟩, ⟨s2, m2, r2, p2, k2⟩, -⟩ := TractInfo.contains_bound he h hx hy hq hc
  obtain ⟨i1, l1, e1⟩ := explicit_samples (other := other) hf hs hP ha hw rfl h0 hl s1 m1
  obtain ⟨i2, l2, e2⟩ := explicit_samples (other := other) hf hs hP ha hw rfl h0 hl s2 m2
  rw [p1, PixRes.pix.injEq] at e1
  rw [p2, PixRes.pix.injEq] at e2
  have hB : 0 ≤ P.radius (r + a.tractOverlap) / scale := div_nonneg (P.radius_nonneg h0 hl) hs.le
  set B := P.radius (r + a.tractOverlap) / scale with hBd
  set M := max |cos θ| |sin θ|
  have hBM : M * P.radius (r + a.tractOverlap) / scale = B * M := by rw [hBd]; ring
  rw [hBM] at hp
  have g1 := mul_le_mul_of_nonneg_left (abs_le.1 (four_le θ l1).1).2 hB
  have g1' := mul_le_mul_of_nonneg_left (abs_le.1 (four_le θ l1).1).1 hB
  have g2 := mul_le_mul_of_nonneg_left (abs_le.1 (four_le θ l2).1).2 hB
  have g2' := mul_le_mul_of_nonneg_left (abs_le.1 (four_le θ l2).1).1 hB
  subst e1 e2
  dsimp only at k1 k2
  cases flipX <;> simp only [if_true, Bool.false_eq_true, if_false] at k1 k2
  · have : B * -M = -(B * M) := by ring
    linarith
  · linarith

/-- C57: rotated by 45 degrees, an explicit tract does not contain every position within its radius, unless the patches are large. -/
theorem C57_rotation_gap (he : env.Ok) (h : TractInfo.new env sphereOps b₀ a = .ok (t, b))
    (hx : 0 < b₀.patchInnerDimensions.x) (hy : 0 < b₀.patchInnerDimensions.y)
    (hf : WcsFactory.new scale "TAN" (π / 4) flipX = .ok f) (hs : 0 < scale)
    {r : ℝ} (ha : a.shape = .explicit r) (hw : a.wcs = f.makeWcs other ⟨0, 0⟩ a.ctrCoord) (h0 : 0 ≤ r) (hov : a.tractOverlap = 0)
    (hl : r < π / 2) (hpatch : scale * ((b₀.patchInnerDimensions.x : ℝ) / 2 + 2) ≤ tan r / 4) :
    ∃ p, greatCircle a.ctrCoord p = r ∧ t.contains p = false := by
  have hg : greatCircle a.ctrCoord (a.ctrCoord.offset (-(π / 4 * (180 / π))) r) = r := by
    unfold greatCircle
    rw [(offset_spec _ _ _).2.2, arccos_cos h0 (by linarith [pi_pos])]
  refine ⟨_, hg, C57_sharp (P := .TAN) he h hx hy hf hs rfl ha hw (by rw [hov]; linarith) (by rw [hov, add_zero]; exact hl) h0 hl ?_⟩
  have ht : 0 ≤ tan r := tan_nonneg_of_nonneg_of_le_pi_div_two h0 hl.le
  rw [hov, add_zero, cos_pi_div_four, sin_pi_div_four, max_self]
  simp only [Projection.radius]
  have h2 : √2 < 3 / 2 := by rw [sqrt_lt' (by norm_num)]; norm_num
  rw [abs_of_pos (by positivity), le_div_iff₀ hs, add_assoc, add_mul, div_mul_cancel₀ _ hs.ne']
  nlinarith

/-- Explicit tracts can be made with a zenithal projection whenever radius + overlap is within its reach. -/
theorem explicit_total (hx : 0 < b₀.patchInnerDimensions.x) (hy : 0 < b₀.patchInnerDimensions.y)
    (hf : WcsFactory.new scale code θ flipX = .ok f) (hs : 0 < scale) (hP : Projection.ofCode code = some P)
    {r : ℝ} (ha : a.shape = .explicit r) (hw : a.wcs = f.makeWcs other ⟨0, 0⟩ a.ctrCoord)
    (h0 : 0 ≤ r + a.tractOverlap) (hl : r + a.tractOverlap < P.limit) : ∃ tb, TractInfo.new env sphereOps b₀ a = .ok tb :=
  TractInfo.new_total env sphereOps b₀ a hx hy fun s hsm => by
    obtain ⟨i, -, e⟩ := explicit_samples (other := other) hf hs hP ha hw rfl h0 hl s hsm
    exact ⟨_, e⟩

/-- C57 on the level of the sky map: tract `i` of a `DiscreteSkyMap` without rotation, accessed after any history, contains every
position within the configured radius and overlap of the configured position. -/
theorem C57_discrete (he : env.Ok) (hx : 0 < b₀.patchInnerDimensions.x) (hy : 0 < b₀.patchInnerDimensions.y)
    (hf : WcsFactory.new scale code 0 flipX = .ok f) (hs : 0 < scale) (hP : Projection.ofCode code = some P)
    (point : ℝ → ℝ → PyM (SpherePoint ℝ)) (angle : ℝ → ℝ) (c : DiscreteConfig ℝ) {s s' : MapState (SpherePoint ℝ) ℝ}
    {m : CachingDef (SpherePoint ℝ) ℝ}
    (hm : m = DiscreteSkyMap.cachingDef env sphereOps ⟨point, angle, f.makeWcs other ⟨0, 0⟩⟩ c)
    (h : (CachingSkyMap.skyMapOps m).After (CachingSkyMap.init m b₀) s) {i : Nat} {ra dec radius : ℝ} (h1 : c.raList[i]? = some ra)
    (h2 : c.decList[i]? = some dec) (h3 : c.radiusList[i]? = some radius) {tr : TractRef (SpherePoint ℝ) ℝ}
    (hg : CachingSkyMap.getItem m i s = (.ok tr, s')) {ctr : SpherePoint ℝ} (hctr : point ra dec = .ok ctr)
    (hl : angle radius + angle c.tractOverlap < P.limit) (p : SpherePoint ℝ)
    (hp : greatCircle ctr p ≤ angle radius + angle c.tractOverlap) : tr.info.contains p = true := by
  obtain ⟨k, hk, -, b, hfr, -, -⟩ := fresh_of_getItem h hg
  obtain rfl : i = k := by omega
  subst hm
  unfold CachingSkyMap.fresh DiscreteSkyMap.cachingDef at hfr
  simp only [hctr, CachingSkyMap.pyGetItem_nat h1, CachingSkyMap.pyGetItem_nat h2, CachingSkyMap.pyGetItem_nat h3, bind, Except.bind,
    pure, Except.pure] at hfr
  exact C57_covers (other := other) he hfr hx hy hf hs hP rfl rfl hl p hp

namespace Ex

/-- Floating point that is exact, for the examples. -/
noncomputable def realEnv : FloatEnv ℝ := ⟨id, fun x => x + 1 / 1000, ⟨-1, -1⟩⟩

theorem realEnv_ok : realEnv.Ok where
  rnd := ⟨fun x => by simp [realEnv]; positivity, fun n _ => rfl⟩
  tweak_gt x := by simp only [realEnv]; linarith
  tweak_le x := by simp only [realEnv]; linarith
  nan_off := by simp [realEnv]

/-- Patches of 20 pixels. -/
def smallBuilder : TractBuilder := ⟨.legacy, ⟨20, 20⟩, 0, none⟩

end Ex

/-- C57 is not vacuous: a tract of radius 0.1 around (1, 0.5) in pixels of 0.001 contains a position at distance 0.05; rotated by 45
degrees and in patches of 20 pixels it does not contain some position at distance 0.1. -/
example (other) : (∃ f t b, WcsFactory.new (1 / 1000) "TAN" 0 false = .ok f ∧
      TractInfo.new Ex.realEnv sphereOps Ex.smallBuilder
        ⟨0, ⟨1, 1 / 2⟩, .explicit (1 / 10), 0, f.makeWcs other ⟨0, 0⟩ ⟨1, 1 / 2⟩, none⟩ = .ok (t, b) ∧
      t.contains (SpherePoint.offset ⟨1, 1 / 2⟩ 30 (1 / 20)) = true) ∧
    (∃ f t b, WcsFactory.new (1 / 1000) "TAN" (π / 4) false = .ok f ∧
      TractInfo.new Ex.realEnv sphereOps Ex.smallBuilder
        ⟨0, ⟨1, 1 / 2⟩, .explicit (1 / 10), 0, f.makeWcs other ⟨0, 0⟩ ⟨1, 1 / 2⟩, none⟩ = .ok (t, b) ∧
      ∃ p, greatCircle ⟨1, 1 / 2⟩ p = 1 / 10 ∧ t.contains p = false) := by
  have hp := pi_gt_three
  have hlim : (1 / 10 : ℝ) + 0 < Projection.TAN.limit := by simp only [Projection.limit]; linarith
  constructor
  · obtain ⟨f, hf⟩ := (WcsFactory.C56_projection_length (1 / 1000) "TAN" 0 false).2 rfl
    obtain ⟨⟨t, b⟩, ht⟩ := explicit_total (other := other) (P := .TAN) (env := Ex.realEnv) (b₀ := Ex.smallBuilder)
      (a := ⟨0, ⟨1, 1 / 2⟩, .explicit (1 / 10), 0, f.makeWcs other ⟨0, 0⟩ ⟨1, 1 / 2⟩, none⟩)
      (by decide) (by decide) hf (by norm_num) rfl rfl rfl (by norm_num) hlim
    refine ⟨f, t, b, hf, ht, ?_⟩
    refine C57_covers (other := other) (P := .TAN) Ex.realEnv_ok ht (by decide) (by decide) hf (by norm_num) rfl rfl rfl hlim _ ?_
    unfold greatCircle
    dsimp only
    rw [(offset_spec _ _ _).2.2, arccos_cos (by norm_num) (by linarith)]
    norm_num
  · obtain ⟨f, hf⟩ := (WcsFactory.C56_projection_length (1 / 1000) "TAN" (π / 4) false).2 rfl
    obtain ⟨⟨t, b⟩, ht⟩ := explicit_total (other := other) (P := .TAN) (env := Ex.realEnv) (b₀ := Ex.smallBuilder)
      (a := ⟨0, ⟨1, 1 / 2⟩, .explicit (1 / 10), 0, f.makeWcs other ⟨0, 0⟩ ⟨1, 1 / 2⟩, none⟩)
      (by decide) (by decide) hf (by norm_num) rfl rfl rfl (by norm_num) hlim
    refine ⟨f, t, b, hf, ht, ?_⟩
    refine C57_rotation_gap (other := other) Ex.realEnv_ok ht (by decide) (by decide) hf (by norm_num) rfl rfl (by norm_num) rfl
      (by linarith) ?_
    have : (1 / 10 : ℝ) < tan (1 / 10) := lt_tan (by norm_num) (by linarith)
    have e : (Ex.smallBuilder.patchInnerDimensions.x : ℝ) = 20 := by norm_num [Ex.smallBuilder]
    rw [e]
    linarith

end Skymap
