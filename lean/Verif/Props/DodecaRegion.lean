import Verif.Props.SkyPolygonOther
import Verif.Props.DodecaCover

/-! # C65: the polygons of the tracts and patches of a dodecahedral sky map cover the sky -/

set_option linter.unusedSectionVars false

namespace Skymap
open Real Matrix Dodeca SpherePoint

section tract
variable {env : FloatEnv ℝ} {b₀ b : TractBuilder} {a : TractArgs (SpherePoint ℝ) ℝ}
  {t : TractInfo (SpherePoint ℝ) ℝ} {scale θ : ℝ} {flipX : Bool} {f : WcsFactory} {ops : SkyOps (SpherePoint ℝ) ℝ}
  {other : P2 ℝ → SpherePoint ℝ → CdMatrix → String → Wcs (SpherePoint ℝ) ℝ} {crval : SpherePoint ℝ}

/-- The size of a tract with projection STG, in the projection plane. -/
theorem stg_extent (he : env.Ok) (h : TractInfo.new env ops b₀ a = .ok (t, b)) (hx : 0 < b₀.patchInnerDimensions.x) (hy : 0 < b₀.patchInnerDimensions.y)
    (hf : WcsFactory.new scale "STG" θ flipX = .ok f) (hs : 0 < scale) (hw : a.wcs = f.makeWcs other ⟨0, 0⟩ crval) {ρ : ℝ}
    (hρ : ∀ s ∈ samplePoints ops a, ∀ r, a.wcs.skyToPixel s = .pix r → |scale * r.x| ≤ ρ ∧ |scale * r.y| ≤ ρ) :
    ∃ crpix', t.wcs = makeSkyWcs crpix' crval (makeCdMatrix scale θ flipX) .STG ∧ ∀ px, t.bbox.contains px = true →
      |scale * (px.x - crpix'.x)| ≤ ρ + scale * ((b₀.patchInnerDimensions.x : ℝ) / 2 + 2) ∧
      |scale * (px.y - crpix'.y)| ≤ ρ + scale * ((b₀.patchInnerDimensions.y : ℝ) / 2 + 2) := by
  have hw' := hw
  rw [WcsFactory.makeWcs_eq (P := .STG) hf rfl] at hw'
  obtain ⟨crpix', e⟩ := TractInfo.new_wcs h hw'
  refine ⟨crpix', e, fun px hpx => ?_⟩
  have hrt := WcsFactory.C56_pixel_roundtrip (other := other) (P := .STG) hf hs.ne' rfl crpix' crval ⟨px.x, px.y⟩ (by simp)
  rw [WcsFactory.makeWcs_eq (P := .STG) hf rfl] at hrt
  generalize (makeSkyWcs crpix' crval (makeCdMatrix scale θ flipX) .STG).pixelToSky ⟨px.x, px.y⟩ = c at hrt
  have hc : t.contains c = true := by
    unfold TractInfo.contains
    rw [e, hrt]
    dsimp only
    have : (toPoint2I (⟨px.x, px.y⟩ : P2 ℝ)) = px := by
      unfold toPoint2I
      apply I2.ext' <;> dsimp only <;> rw [Int.floor_eq_iff] <;> constructor <;> linarith
    rw [this]
    exact hpx
  have hq : a.wcs.skyToPixel c = .pix ⟨px.x - crpix'.x, px.y - crpix'.y⟩ := by
    rw [hw']
    simp only [makeSkyWcs] at hrt ⊢
    cases hp : Projection.STG.toPlane crval c with
    | none => rw [hp] at hrt; simp at hrt
    | some q =>
      rw [hp] at hrt
      simp only [PixRes.pix.injEq, P2.mk.injEq] at hrt ⊢
      constructor <;> linarith
  obtain ⟨⟨s1, m1, r1, p1, k1⟩, ⟨s2, m2, r2, p2, k2⟩, ⟨s3, m3, r3, p3, k3⟩, ⟨s4, m4, r4, p4, k4⟩⟩ := TractInfo.contains_bound he h hx hy hq hc
  dsimp only at k1 k2 k3 k4
  have g1 := (abs_le.1 (hρ s1 m1 r1 p1).1).1
  have g2 := (abs_le.1 (hρ s2 m2 r2 p2).1).2
  have g3 := (abs_le.1 (hρ s3 m3 r3 p3).2).1
  have g4 := (abs_le.1 (hρ s4 m4 r4 p4).2).2
  have l1 := mul_lt_mul_of_pos_left k1 hs
  have l2 := mul_lt_mul_of_pos_left k2 hs
  have l3 := mul_lt_mul_of_pos_left k3 hs
  have l4 := mul_lt_mul_of_pos_left k4 hs
  constructor <;> rw [abs_le] <;> constructor <;> linarith

/-- Corners of boxes that are not too large. -/
theorem stg_corners_near {crpix : P2 ℝ} {c : SpherePoint ℝ} {bbox : Box2I} (hne : bbox.isEmpty = false) {ρx ρy : ℝ} (hsum : ρx ^ 2 + ρy ^ 2 < 4)
    (x0 : |scale * ((bbox.min.x : ℝ) - 1 / 2 - crpix.x)| ≤ ρx) (x1 : |scale * ((bbox.min.x : ℝ) + bbox.dim.x - 1 / 2 - crpix.x)| ≤ ρx)
    (y0 : |scale * ((bbox.min.y : ℝ) - 1 / 2 - crpix.y)| ≤ ρy) (y1 : |scale * ((bbox.min.y : ℝ) + bbox.dim.y - 1 / 2 - crpix.y)| ≤ ρy) :
    ∀ s ∈ makeSkyPolygonFromBBox bbox (makeSkyWcs crpix c (makeCdMatrix scale θ flipX) .STG), greatCircle c s < π / 2 := by
  have key : ∀ x y : ℝ, |scale * (x - crpix.x)| ≤ ρx → |scale * (y - crpix.y)| ≤ ρy →
      greatCircle c ((makeSkyWcs crpix c (makeCdMatrix scale θ flipX) .STG).pixelToSky ⟨x, y⟩) < π / 2 := by
    intro x y h1 h2
    have q := makeCdMatrix_quad scale θ flipX (x - crpix.x) (y - crpix.y)
    have e := stg_dot c ((makeCdMatrix scale θ flipX).apply ⟨x - crpix.x, y - crpix.y⟩) c.getVector
    change c.getVector ⬝ᵥ ((makeSkyWcs crpix c (makeCdMatrix scale θ flipX) .STG).pixelToSky ⟨x, y⟩).getVector = _ at e
    rw [vec_unit, dotProduct_comm c.getVector c.eastVec, east_vec, dotProduct_comm c.getVector c.northVec, north_vec] at e
    simp only [CdMatrix.apply] at e
    unfold greatCircle
    rw [arccos_lt_pi_div_two, cosSep_eq, e]
    have a1 : (scale * (x - crpix.x)) ^ 2 ≤ ρx ^ 2 := sq_le_sq' (abs_le.1 h1).1 (abs_le.1 h1).2
    have a2 : (scale * (y - crpix.y)) ^ 2 ≤ ρy ^ 2 := sq_le_sq' (abs_le.1 h2).1 (abs_le.1 h2).2
    apply div_pos
    · linarith
    · positivity
  rw [makeSkyPolygon_eq bbox _ hne]
  simp only [rectangle, pixelCorner, List.mem_cons, List.not_mem_nil, or_false, forall_eq_or_imp, forall_eq]
  push_cast
  exact ⟨key _ _ x0 y0, key _ _ x1 y0, key _ _ x1 y1, key _ _ x0 y1⟩

/-- C65: the same as `C65_stg_tract` and `C65_stg_patch`, with the condition on the corners in terms of the positions that size the tract. -/
theorem C65_stg_sized (he : env.Ok) (h : TractInfo.new env ops b₀ a = .ok (t, b)) (hx : 0 < b₀.patchInnerDimensions.x) (hy : 0 < b₀.patchInnerDimensions.y)
    (hb : 0 ≤ b₀.patchBorder) (hf : WcsFactory.new scale "STG" θ flipX = .ok f) (hs : 0 < scale) (hw : a.wcs = f.makeWcs other ⟨0, 0⟩ crval) {ρ : ℝ}
    (hρ : ∀ s ∈ samplePoints ops a, ∀ r, a.wcs.skyToPixel s = .pix r → |scale * r.x| ≤ ρ ∧ |scale * r.y| ≤ ρ)
    (lx : ρ + scale * ((b₀.patchInnerDimensions.x : ℝ) / 2 + 3 + b₀.patchBorder) ≤ 1.414)
    (ly : ρ + scale * ((b₀.patchInnerDimensions.y : ℝ) / 2 + 3 + b₀.patchBorder) ≤ 1.414) (hc : t.contains crval = true) {s : SpherePoint ℝ}
    (hin : t.contains s = true) :
    InPolygon t.getOuterSkyPolygon s ∧
    (scale * (b₀.patchInnerDimensions.x + 2 * b₀.patchBorder) ≤ 1 → scale * (b₀.patchInnerDimensions.y + 2 * b₀.patchBorder) ≤ 1 →
      scale * ((b₀.patchInnerDimensions.x : ℝ) + 2 * b₀.patchBorder) ^ 2 ≤ 12 * b₀.patchBorder →
      scale * ((b₀.patchInnerDimensions.y : ℝ) + 2 * b₀.patchBorder) ^ 2 ≤ 12 * b₀.patchBorder →
      ∃ i p, t.getPatchInfo b (.index2D i) = .ok p ∧ (∃ px, t.wcs.PixelOf s px ∧ p.innerBBox.contains px = true) ∧
        InPolygon (p.getOuterSkyPolygon none) s ∧ InPolygon (p.getOuterSkyPolygon (some t.wcs)) s) := by
  have B := TractInfo.new_built h hx hy
  obtain ⟨crpix', e, hext⟩ := stg_extent he h hx hy hf hs hw hρ
  have hbr : (0 : ℝ) ≤ b₀.patchBorder := by exact_mod_cast hb
  have hc' := hc
  unfold TractInfo.contains at hc'
  rw [e, stg_crval] at hc'
  have hd := Box2I.contains_dim hc'
  change 0 < t.bbox.dim.x ∧ 0 < t.bbox.dim.y at hd
  have c1 := hext t.bbox.min (by rw [Box2I.contains_iff]; omega)
  have c2 := hext ⟨t.bbox.min.x + t.bbox.dim.x - 1, t.bbox.min.y + t.bbox.dim.y - 1⟩ (by rw [Box2I.contains_iff]; dsimp only; omega)
  push_cast at c2
  rw [abs_le, abs_le] at c1 c2
  have hsum : (1.414 : ℝ) ^ 2 + 1.414 ^ 2 < 4 := by norm_num
  have hsb : 0 ≤ scale * (b₀.patchBorder : ℝ) := mul_nonneg hs.le hbr
  -- all boxes that extend by at most the border
  have near : ∀ O : Box2I, O.isEmpty = false → t.bbox.min.x - b₀.patchBorder ≤ O.min.x → O.min.x + O.dim.x ≤ t.bbox.min.x + t.bbox.dim.x + b₀.patchBorder →
      t.bbox.min.y - b₀.patchBorder ≤ O.min.y → O.min.y + O.dim.y ≤ t.bbox.min.y + t.bbox.dim.y + b₀.patchBorder → 0 < O.dim.x → 0 < O.dim.y →
      ∀ s ∈ makeSkyPolygonFromBBox O (makeSkyWcs crpix' crval (makeCdMatrix scale θ flipX) .STG), greatCircle crval s < π / 2 := by
    intro O hne o1 o2 o3 o4 o5 o6
    have o1' : (t.bbox.min.x : ℝ) - b₀.patchBorder ≤ O.min.x := by exact_mod_cast o1
    have o2' : (O.min.x : ℝ) + O.dim.x ≤ t.bbox.min.x + t.bbox.dim.x + b₀.patchBorder := by exact_mod_cast o2
    have o3' : (t.bbox.min.y : ℝ) - b₀.patchBorder ≤ O.min.y := by exact_mod_cast o3
    have o4' : (O.min.y : ℝ) + O.dim.y ≤ t.bbox.min.y + t.bbox.dim.y + b₀.patchBorder := by exact_mod_cast o4
    have o5' : (0 : ℝ) < O.dim.x := by exact_mod_cast o5
    have o6' : (0 : ℝ) < O.dim.y := by exact_mod_cast o6
    have m := fun {u v : ℝ} (h : u ≤ v) => mul_le_mul_of_nonneg_left h hs.le
    have q1 := m o1'
    have q2 := m o2'
    have q3 := m o3'
    have q4 := m o4'
    have q5 := mul_pos hs o5'
    have q6 := mul_pos hs o6'
    refine stg_corners_near hne (ρx := 1.414) (ρy := 1.414) hsum ?_ ?_ ?_ ?_ <;> rw [abs_le] <;> constructor <;> linarith
  have hin' := hin
  unfold TractInfo.contains at hin'
  rw [e] at hin'
  cases hq : (makeSkyWcs crpix' crval (makeCdMatrix scale θ flipX) .STG).skyToPixel s with
  | raises => rw [hq] at hin'; simp at hin'
  | nonfinite => rw [hq] at hin'; simp at hin'
  | pix q =>
    rw [hq] at hin'
    refine ⟨C65_stg_tract h hf hs.ne' hw hc ?_ hin, fun w1 w2 w3 w4 => ?_⟩
    · change ∀ c ∈ makeSkyPolygonFromBBox t.bbox t.wcs, _
      rw [e]
      exact near t.bbox (by unfold Box2I.isEmpty; simp; omega) (by omega) (by omega) (by omega) (by omega) hd.1 hd.2
    · obtain ⟨i, ⟨p, hp, hpin⟩, -⟩ := C02_tiling h hx hy hb _ hin'
      obtain ⟨S, e2, e3⟩ := B.patchSides hb hp
      have hpx : t.wcs.PixelOf s (toPoint2I q) := ⟨q, by rw [e]; exact hq, rfl⟩
      have hI : t.bbox.min.x ≤ p.innerBBox.min.x ∧ p.innerBBox.min.x + p.innerBBox.dim.x ≤ t.bbox.min.x + t.bbox.dim.x ∧
          t.bbox.min.y ≤ p.innerBBox.min.y ∧ p.innerBBox.min.y + p.innerBBox.dim.y ≤ t.bbox.min.y + t.bbox.dim.y := by
        have hb' : 0 ≤ b.patchBorder := by rw [B.border]; exact hb
        obtain ⟨hr, hv⟩ := (B.ready.getPatchInfo_iff hb' _ t.wcs _).1 hp
        have hv2 : p.innerBBox = b.patchInnerBBox i := by rw [hv, TractBuilder.patchVal_inner]
        have d1 : 0 < p.innerBBox.dim.x := by rw [e3]; exact hx
        have d2 : 0 < p.innerBBox.dim.y := by rw [e3]; exact hy
        have k1 := B.ready.inner_sub hr (p := p.innerBBox.min) (by rw [← hv2, Box2I.contains_iff]; omega)
        have k2 := B.ready.inner_sub hr (p := ⟨p.innerBBox.min.x + p.innerBBox.dim.x - 1, p.innerBBox.min.y + p.innerBBox.dim.y - 1⟩)
          (by rw [← hv2, Box2I.contains_iff]; dsimp only; omega)
        rw [← B.box, Box2I.contains_iff] at k1 k2
        dsimp only at k2
        omega
      have h90 : ∀ w : Option (Wcs (SpherePoint ℝ) ℝ), (w = none ∨ w = some t.wcs) → ∀ c ∈ p.getOuterSkyPolygon w, greatCircle crval c < π / 2 := by
        intro w hw'
        unfold PatchInfo.getOuterSkyPolygon getSkyPolygon
        have : w.getD p.wcs = t.wcs := by
          rw [e2]
          rcases hw' with rfl | rfl <;> rfl
        rw [this, e]
        have s1 := S.x0; have s2 := S.x1; have s3 := S.y0; have s4 := S.y1; have s5 := S.wx; have s6 := S.wy; have s7 := S.dx; have s8 := S.dy
        have s9 := S.bx0; have s10 := S.bx1; have s11 := S.by0; have s12 := S.by1
        exact near _ (by unfold Box2I.isEmpty; simp; omega) (by omega) (by omega) (by omega) (by omega) S.dx S.dy
      refine ⟨i, p, hp, ⟨_, hpx, hpin⟩, ?_, ?_⟩
      · exact C65_stg_patch h hx hy hb hf hs hw hc hp w1 w2 w3 w4 (.inl rfl) (h90 _ (.inl rfl)) hpx hpin
      · exact C65_stg_patch h hx hy hb hf hs hw hc hp w1 w2 w3 w4 (.inr rfl) (h90 _ (.inr rfl)) hpx hpin

end tract

namespace DodecaSkyMap
variable {o : SetOrder} {w : Bool} {D : Dodecahedron} {env : FloatEnv ℝ} {b₀ b : TractBuilder} {a : TractArgs (SpherePoint ℝ) ℝ}
  {t : TractInfo (SpherePoint ℝ) ℝ} {other : P2 ℝ → SpherePoint ℝ → CdMatrix → String → Wcs (SpherePoint ℝ) ℝ} {f : WcsFactory} {scale θ : ℝ}
  {flipX : Bool} {tiny ov : ℝ} {l : List (TractArgs (SpherePoint ℝ) ℝ)} {ts : List (TractRef (SpherePoint ℝ) ℝ)}

/-- The positions that size a tract with an overlap of at most 20 degrees are less than 48 degrees from its centre. -/
theorem sample_near {cs : List (SpherePoint ℝ)} (ha : a.shape = .vertices cs) (hC : ∀ v ∈ cs, a.ctrCoord.getVector ⬝ᵥ v.getVector = cosV)
    (h0 : 0 ≤ a.tractOverlap) (h1 : a.tractOverlap ≤ π / 9) {s : SpherePoint ℝ} (hs : s ∈ samplePoints sphereOps a) :
    0.67 ≤ a.ctrCoord.getVector ⬝ᵥ s.getVector := by
  have hp := pi_pos
  have hp2 := pi_lt_d2
  have hk := cosV_lo
  rw [C12_sample_points] at hs
  rcases hs with ⟨l, e, -, hm⟩ | ⟨l, e, -, v, hv, i, -, e2⟩ | ⟨r, e, -⟩
  · rw [ha, TractShape.vertices.injEq] at e
    subst e
    rw [hC s hm]
    linarith
  · rw [ha, TractShape.vertices.injEq] at e
    subst e
    change s = v.offset _ _ at e2
    have := sample_cos (b := 15 * (i : ℝ)) a.ctrCoord.vec_unit (hC v hv) (δ := a.tractOverlap / 2) (by linarith) (by linarith)
    rw [← e2] at this
    have hδ0 : 0 ≤ a.tractOverlap / 2 := by linarith
    have hδ1 : a.tractOverlap / 2 ≤ 0.175 := by linarith
    generalize a.tractOverlap / 2 = δ at *
    have q1 := one_sub_sq_div_two_le_cos (x := δ)
    have q2 := sin_le hδ0
    have q3 : δ ^ 2 ≤ 0.175 ^ 2 := pow_le_pow_left₀ hδ0 hδ1 2
    norm_num at q3
    linarith
  · rw [ha] at e; simp at e

/-- Their pixel positions. -/
theorem sample_pixel (hf : WcsFactory.new scale "STG" θ flipX = .ok f) (hs : 0 < scale) (hw : a.wcs = f.makeWcs other ⟨0, 0⟩ a.ctrCoord)
    {s : SpherePoint ℝ} (hn : 0.67 ≤ a.ctrCoord.getVector ⬝ᵥ s.getVector) {r : P2 ℝ} (hr : a.wcs.skyToPixel s = .pix r) :
    |scale * r.x| ≤ 0.89 ∧ |scale * r.y| ≤ 0.89 := by
  rw [hw, WcsFactory.makeWcs_eq (P := .STG) hf rfl] at hr
  rw [← cosSep_eq] at hn
  have hu := local_sq a.ctrCoord s
  have hdet := makeCdMatrix_det hs.ne' θ flipX
  simp only [makeSkyWcs, Projection.toPlane] at hr
  rw [if_pos (by linarith)] at hr
  simp only [PixRes.pix.injEq] at hr
  have hq := makeCdMatrix_quad scale θ flipX r.x r.y
  rw [makeCdMatrix_solve hs.ne'] at hr
  have e : (scale * r.x) ^ 2 + (scale * r.y) ^ 2 = 4 * (1 - cosSep a.ctrCoord s) / (1 + cosSep a.ctrCoord s) := by
    rw [← hr]
    dsimp only
    have h1 := sin_sq_add_cos_sq θ
    generalize eastOf a.ctrCoord s = E at *
    generalize northOf a.ctrCoord s = N at *
    generalize cosSep a.ctrCoord s = Z at *
    have hz : (2 * E / (1 + Z)) ^ 2 + (2 * N / (1 + Z)) ^ 2 = 4 * (1 - Z) / (1 + Z) := by
      rw [div_pow, div_pow, ← add_div, div_eq_div_iff (by positivity) (by positivity)]
      linear_combination (4 * (1 + Z)) * hu
    rw [← hz]
    generalize 2 * E / (1 + Z) = X
    generalize 2 * N / (1 + Z) = Y
    rw [zero_add, zero_add, mul_div_cancel₀ _ hs.ne', mul_div_cancel₀ _ hs.ne']
    cases flipX <;> simp <;> linear_combination (X ^ 2 + Y ^ 2) * h1
  have hz1 : cosSep a.ctrCoord s ≤ 1 := by
    unfold cosSep at *
    nlinarith [sq_nonneg (eastOf a.ctrCoord s), sq_nonneg (northOf a.ctrCoord s)]
  have le : (scale * r.x) ^ 2 + (scale * r.y) ^ 2 ≤ 0.89 ^ 2 := by
    rw [e, div_le_iff₀ (by linarith)]
    linarith
  constructor
  · refine abs_le_of_sq_le_sq ?_ (by norm_num)
    linarith [sq_nonneg (scale * r.y)]
  · refine abs_le_of_sq_le_sq ?_ (by norm_num)
    linarith [sq_nonneg (scale * r.x)]

/-- C65: on a dodecahedral sky map with projection STG, an overlap of 3 to 20 degrees, and patches that are not too large, every position on
the sky is in the outer polygon of the tract that `findTract` finds; and, if the patches have enough border for their size, it is in the outer
polygon of the patch of that tract that has it in its inner box (with the builder that the tract was built with, which is the builder of
the sky map if all tracts have the same number of patches). -/
theorem C65_covers (hov0 : 3 ≤ ov) (hov1 : ov ≤ 20) (he : env.Ok) (ht0 : 0 < tiny) (ht1 : tiny ≤ 1 / 10) (ho : o.Ok)
    (hf : WcsFactory.new scale "STG" θ flipX = .ok f) (hs : 0 < scale) (hl : tracts tiny (f.makeWcs other ⟨0, 0⟩) o w ov = .ok (D, l))
    (hx : 0 < b₀.patchInnerDimensions.x) (hy : 0 < b₀.patchInnerDimensions.y) (hbd : 0 ≤ b₀.patchBorder)
    (lx : scale * ((b₀.patchInnerDimensions.x : ℝ) / 2 + 3 + b₀.patchBorder) ≤ 1 / 2)
    (ly : scale * ((b₀.patchInnerDimensions.y : ℝ) / 2 + 3 + b₀.patchBorder) ≤ 1 / 2)
    (hb : EagerSkyMap.buildAll env sphereOps l 0 b₀ = .ok (ts, b)) (p : SpherePoint ℝ) :
    ∃ t, findTract D (EagerSkyMap.skyMapOps ts) p b = (.ok t, b) ∧ InPolygon t.info.getOuterSkyPolygon p ∧
      (scale * ((b₀.patchInnerDimensions.x : ℝ) + 2 * b₀.patchBorder) ^ 2 ≤ 12 * b₀.patchBorder →
        scale * ((b₀.patchInnerDimensions.y : ℝ) + 2 * b₀.patchBorder) ^ 2 ≤ 12 * b₀.patchBorder →
        ∃ b' i pi, b'.state = some ⟨t.info.numPatches, t.info.bbox⟩ ∧ ((∀ t' ∈ ts, t'.info.numPatches = t.info.numPatches) → b' = b) ∧
          t.info.getPatchInfo b' (.index2D i) = .ok pi ∧
          (∃ px, t.info.wcs.PixelOf p px ∧ pi.innerBBox.contains px = true) ∧ InPolygon (pi.getOuterSkyPolygon none) p ∧
          InPolygon (pi.getOuterSkyPolygon (some t.info.wcs)) p) := by
  have hpi := pi_pos
  obtain ⟨t, g1, -, g2⟩ := C60_findTract (.inr ⟨rfl, hov0, by linarith⟩) he ht0 ht1 ho hf hs hl hx hy hb p
  obtain ⟨k, t', f1, -, f2, -⟩ := C36_findTract (ops := sphereOps) (fun _ _ => rfl) ht0 ht1 ho hl hx hy hb p
  rw [g1, Prod.mk.injEq, Except.ok.injEq] at f1
  obtain ⟨rfl, -⟩ := f1
  obtain ⟨a, b', hak, hnew⟩ := EagerSkyMap.buildAll_fresh hb f2
  obtain ⟨hD, -, hargs⟩ := args_ok ht0 ht1 ho hl
  obtain ⟨cs, -, h1, h2, h3, h4, h5, h6⟩ := hargs hak
  have B := TractInfo.new_built hnew hx hy
  have hcs : t.info.vertexCoordList = cs := by
    unfold TractInfo.new at hnew
    obtain ⟨mb, -, g⟩ := bindOk hnew
    obtain ⟨r, -, g⟩ := bindOk g
    simp only [pure, Except.pure, Except.ok.injEq, Prod.mk.injEq] at g
    rw [← g.1, h1]
  have hC : ∀ v ∈ cs, a.ctrCoord.getVector ⬝ᵥ v.getVector = cosV := fun v hv => vertex_face ho hD h3 h4 (List.mem_map_of_mem hv)
  have hctr : t.info.contains a.ctrCoord = true := by
    refine C60_inner (.inr ⟨rfl, hov0, by linarith⟩) he ht0 ht1 ho hf hs hl hx hy hb (List.mem_of_getElem? f2) a.ctrCoord ?_
    rw [hcs]
    refine (face_cone ho hD h3 h4 _).2 fun f' hf' => ?_
    have u1 := unit_vectors ho hD f' (.inl hf')
    have u2 := a.ctrCoord.vec_unit
    have : 0 ≤ (f' - a.ctrCoord.getVector) ⬝ᵥ (f' - a.ctrCoord.getVector) :=
      Finset.sum_nonneg fun i _ => mul_self_nonneg _
    rw [sub_dotProduct, dotProduct_sub, dotProduct_sub, u1, u2, dotProduct_comm a.ctrCoord.getVector f'] at this
    rw [u2]
    linarith
  have hbr : (0 : ℝ) ≤ b₀.patchBorder := by exact_mod_cast hbd
  obtain ⟨q1, q2⟩ := C65_stg_sized (ρ := 0.89) he hnew hx hy hbd hf hs h6
    (fun s hsm r hr => sample_pixel hf hs h6 (sample_near h1 hC (by rw [h5]; positivity) (by rw [h5]; nlinarith) hsm) hr)
    (by linarith) (by linarith) hctr g2
  refine ⟨t, g1, q1, fun w3 w4 => ?_⟩
  have hsb : 0 ≤ scale * (b₀.patchBorder : ℝ) := mul_nonneg hs.le hbr
  obtain ⟨i, pi, r1, r2, r3, r4⟩ := q2 (by linarith) (by linarith) w3 w4
  refine ⟨b', i, pi, B.st, fun hu => ?_, r1, r2, r3, r4⟩
  obtain ⟨a', ha', t'', hn''⟩ := EagerSkyMap.buildAll_last hb (List.ne_nil_of_mem (List.mem_of_getElem? hak))
  obtain ⟨j, hj⟩ := List.getElem?_of_mem ha'
  obtain ⟨-, hlen, -⟩ := C36_tracts ht0 ht1 ho hl hx hy hb
  obtain ⟨-, hlen', -⟩ := args_ok ht0 ht1 ho hl
  have hjl : j < ts.length := by rw [hlen, ← hlen']; exact (List.getElem?_eq_some_iff.1 hj).1
  have hjt := List.getElem?_eq_getElem hjl
  obtain ⟨a₂, b₂, e1, e2⟩ := EagerSkyMap.buildAll_fresh hb hjt
  rw [hj, Option.some.injEq] at e1
  subst e1
  rw [hn'', Except.ok.injEq, Prod.mk.injEq] at e2
  obtain ⟨e2, rfl⟩ := e2
  have hn := hu _ (List.getElem_mem hjl)
  rw [← e2] at hn
  have B2 := TractInfo.new_built hn'' hx hy
  have s1 := B.st
  have s2 := B2.st
  rw [B.box, B.dims] at s1
  rw [B2.box, B2.dims, hn] at s2
  rcases b' with ⟨k1, d1, p1, st1⟩
  rcases b with ⟨k2, d2, p2, st2⟩
  have e3 := B.kind.trans B2.kind.symm
  have e4 := B.dims.trans B2.dims.symm
  have e5 := B.border.trans B2.border.symm
  dsimp only at e3 e4 e5 s1 s2
  rw [e3, e4, e5, s1, s2]

end DodecaSkyMap
end Skymap

namespace Skymap
open Real Matrix Dodeca SpherePoint

/-! ## Hypotheses met -/

/-- The default configuration of `DodecaSkyMap` (pixels of 0.2 arcseconds, patches of 4000 pixels with a border of 250, an overlap of 3.5 degrees). -/
example (other) : ∃ f D l ts b, WcsFactory.new (0.2 / 3600 * (π / 180)) "STG" 0 false = .ok f ∧
    DodecaSkyMap.tracts (1 / 1000) (f.makeWcs other ⟨0, 0⟩) ascending false 3.5 = .ok (D, l) ∧
    EagerSkyMap.buildAll Ex.realEnv sphereOps l 0 ⟨.legacy, ⟨4000, 4000⟩, 250, none⟩ = .ok (ts, b) ∧
    ∀ p, ∃ t, DodecaSkyMap.findTract D (EagerSkyMap.skyMapOps ts) p b = (.ok t, b) ∧ InPolygon t.info.getOuterSkyPolygon p ∧
      ∃ b' i pi, t.info.getPatchInfo b' (.index2D i) = .ok pi ∧ InPolygon (pi.getOuterSkyPolygon none) p := by
  have hpi := pi_pos
  have hp2 := pi_lt_d2
  have hs : 0 < 0.2 / 3600 * (π / 180) := by positivity
  have hs2 : 0.2 / 3600 * (π / 180) ≤ 1 / 1000000 := by linarith
  obtain ⟨f, hf⟩ := (WcsFactory.C56_projection_length (0.2 / 3600 * (π / 180)) "STG" 0 false).2 rfl
  obtain ⟨D, l, ts, b, h1, h2⟩ := DodecaSkyMap.C60_builds (other := other) (tiny := 1 / 1000) (o := ascending) (w := false) (ov := 3.5)
    (env := Ex.realEnv) (b₀ := ⟨.legacy, ⟨4000, 4000⟩, 250, none⟩) (.inr ⟨rfl, by norm_num, by norm_num⟩) (by norm_num) (by norm_num)
    ascending_ok hf hs (by decide) (by decide)
  refine ⟨f, D, l, ts, b, hf, h1, h2, fun p => ?_⟩
  obtain ⟨t, g1, g2, g3⟩ := DodecaSkyMap.C65_covers (by norm_num) (by norm_num) Ex.realEnv_ok (by norm_num) (by norm_num) ascending_ok hf hs h1
    (by decide) (by decide) (by decide) (by norm_num; nlinarith) (by norm_num; nlinarith) h2 p
  obtain ⟨b', i, pi, -, -, k1, -, k2, -⟩ := g3 (by norm_num; nlinarith) (by norm_num; nlinarith)
  exact ⟨t, g1, g2, b', i, pi, k1, k2⟩

/-- A tract of 1/10 radian in patches of 20 pixels of 1/1000 radian, without border: a position for which a patch is found that is not in the
region of the patch. -/
example (other) : ∃ f t b s p, WcsFactory.new (1 / 1000) "STG" 0 false = .ok f ∧
    TractInfo.new Ex.realEnv sphereOps Ex.smallBuilder
      ⟨0, ⟨1, 1 / 2⟩, .explicit (1 / 10), 0, f.makeWcs other ⟨0, 0⟩ ⟨1, 1 / 2⟩, none⟩ = .ok (t, b) ∧
    t.findPatch Ex.realEnv b s = .ok p ∧ ¬ InPolygon (p.getOuterSkyPolygon none) s := by
  have hp := pi_gt_three
  have hlim : (1 / 10 : ℝ) + 0 < Projection.STG.limit := by simp only [Projection.limit]; linarith
  have hs : (0 : ℝ) < 1 / 1000 := by norm_num
  obtain ⟨f, hf⟩ := (WcsFactory.C56_projection_length (1 / 1000) "STG" 0 false).2 rfl
  set c : SpherePoint ℝ := ⟨1, 1 / 2⟩ with hc
  set a : TractArgs (SpherePoint ℝ) ℝ := ⟨0, c, .explicit (1 / 10), 0, f.makeWcs other ⟨0, 0⟩ c, none⟩ with ha
  obtain ⟨⟨t, b⟩, ht⟩ := explicit_total (other := other) (P := .STG) (env := Ex.realEnv) (b₀ := Ex.smallBuilder)
    (a := a) (by decide) (by decide) hf hs rfl (r := 1 / 10) rfl rfl (by norm_num) hlim
  have hcos : (0.67 : ℝ) ≤ cos (1 / 10) := by
    have := one_sub_sq_div_two_le_cos (x := (1 / 10 : ℝ))
    norm_num at this ⊢
    linarith
  obtain ⟨crpix', e, hext⟩ := stg_extent (ρ := 0.89) (crval := c) Ex.realEnv_ok ht (by decide) (by decide) hf hs rfl (fun s hsm r hr =>
    DodecaSkyMap.sample_pixel (a := a) hf hs rfl (by
      rw [C12_sample_points] at hsm
      rcases hsm with ⟨l, e, -⟩ | ⟨l, e, -⟩ | ⟨r, e, i, -, e2⟩
      · simp [ha] at e
      · simp [ha] at e
      · simp only [ha, TractShape.explicit.injEq] at e
        subst e
        rw [e2, ← cosSep_eq]
        change 0.67 ≤ cosSep c (SpherePoint.offset c _ _)
        rw [(offset_spec _ _ _).2.2]
        simpa [ha] using hcos) hr)
  -- a position 50 pixels from the centre
  have hrt := WcsFactory.C56_pixel_roundtrip (other := other) (P := .STG) hf hs.ne' rfl crpix' c ⟨crpix'.x + 50, crpix'.y⟩ (by simp)
  rw [WcsFactory.makeWcs_eq (P := .STG) hf rfl] at hrt
  have hdist : greatCircle c ((makeSkyWcs crpix' c (makeCdMatrix (1 / 1000) 0 false) .STG).pixelToSky ⟨crpix'.x + 50, crpix'.y⟩) ≤ 1 / 10 := by
    have happ : (makeCdMatrix (1 / 1000) 0 false).apply ⟨crpix'.x + 50 - crpix'.x, crpix'.y - crpix'.y⟩ = ⟨-(1 / 20), 0⟩ := by
      simp [CdMatrix.apply, makeCdMatrix]
      norm_num
    have e := stg_dot c ((makeCdMatrix (1 / 1000) 0 false).apply ⟨crpix'.x + 50 - crpix'.x, crpix'.y - crpix'.y⟩) c.getVector
    change c.getVector ⬝ᵥ ((makeSkyWcs crpix' c (makeCdMatrix (1 / 1000) 0 false) .STG).pixelToSky ⟨crpix'.x + 50, crpix'.y⟩).getVector = _ at e
    rw [vec_unit, dotProduct_comm c.getVector c.eastVec, east_vec, dotProduct_comm c.getVector c.northVec, north_vec, happ] at e
    unfold greatCircle
    rw [← arccos_cos (x := 1 / 10) (by norm_num) (by linarith)]
    apply arccos_le_arccos
    rw [cosSep_eq, e]
    have := (abs_le.1 (cos_bound (x := (1 / 10 : ℝ)) (by norm_num))).2
    norm_num at this ⊢
    linarith
  generalize (makeSkyWcs crpix' c (makeCdMatrix (1 / 1000) 0 false) .STG).pixelToSky ⟨crpix'.x + 50, crpix'.y⟩ = s at hrt hdist
  have hcont : t.contains s = true := C57_covers (other := other) (P := .STG) Ex.realEnv_ok ht (by decide) (by decide) hf hs rfl (r := 1 / 10) rfl rfl hlim _
    (by simpa [ha] using hdist)
  unfold TractInfo.contains at hcont
  rw [e, hrt] at hcont
  change t.bbox.contains _ = true at hcont
  obtain ⟨i, ⟨p, hp, hpin⟩, -⟩ := C02_tiling ht (by decide) (by decide) (by decide) _ hcont
  obtain ⟨-, e2, e3⟩ := (TractInfo.new_built ht (by decide) (by decide)).patchSides (by decide) hp
  have d1 : p.innerBBox.dim.x = 20 := by rw [e3]; rfl
  have d2 : p.innerBBox.dim.y = 20 := by rw [e3]; rfl
  -- sizes
  have hd := Box2I.contains_dim hcont
  have c1 := hext t.bbox.min (by rw [Box2I.contains_iff]; omega)
  have c2 := hext ⟨t.bbox.min.x + t.bbox.dim.x - 1, t.bbox.min.y + t.bbox.dim.y - 1⟩ (by rw [Box2I.contains_iff]; dsimp only; omega)
  push_cast at c2
  rw [abs_le, abs_le] at c1 c2
  have b1 : ((Ex.smallBuilder.patchInnerDimensions.x : ℤ) : ℝ) = 20 := by norm_num [Ex.smallBuilder]
  have b2 : ((Ex.smallBuilder.patchInnerDimensions.y : ℤ) : ℝ) = 20 := by norm_num [Ex.smallBuilder]
  rw [b1, b2] at c1 c2
  have sx : t.bbox.dim.x < 2 ^ 53 := by
    have : (t.bbox.dim.x : ℝ) < ((2 ^ 53 : ℤ) : ℝ) := by push_cast; linarith [c1.1.1, c2.1.2]
    exact_mod_cast this
  have sy : t.bbox.dim.y < 2 ^ 53 := by
    have : (t.bbox.dim.y : ℝ) < ((2 ^ 53 : ℤ) : ℝ) := by push_cast; linarith [c1.2.1, c2.2.2]
    exact_mod_cast this
  have ar := Box2I.area_of_contains hpin
  unfold Box2I.Area at ar
  rw [d1, d2] at ar
  dsimp only at ar
  push_cast at ar
  obtain ⟨s', px, k1, k2, k3, k4, k5⟩ := C65_stg_gap (r := crpix') Ex.realEnv_ok ht (by decide) (by decide) (by decide) hf hs rfl sx sy hp
    (by rw [e, stg_crval]) (by linarith [ar.2.1]) (by
      unfold PatchInfo.getInnerSkyPolygon getSkyPolygon
      rw [Option.getD_none, e2, e]
      refine stg_corners_near (by unfold Box2I.isEmpty; simp; omega) (ρx := 1) (ρy := 1) (by norm_num) ?_ ?_ ?_ ?_ <;>
        (try simp only [d1, d2]) <;> (try push_cast) <;> rw [abs_le] <;> constructor <;> linarith [ar.1, ar.2.1, ar.2.2.1, ar.2.2.2])
  exact ⟨f, t, b, s', p, hf, ht, k3, k5 rfl⟩

end Skymap
