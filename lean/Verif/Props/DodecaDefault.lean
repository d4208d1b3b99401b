import Verif.Lemmas.DodecaExtent
import Verif.Props.DodecaRegion

/-! # C75: the sizes of the tracts of the default dodecahedral sky map -/

namespace Skymap
open Real Matrix Dodeca Dodecahedron

/-- The number of patches of a tract, from the extent of the positions that size it. -/
theorem TractInfo.numPatches_of_extent {Sky : Type} {env : FloatEnv ℝ} {ops : SkyOps Sky ℝ} {b₀ b : TractBuilder} {a : TractArgs Sky ℝ}
    {t : TractInfo Sky ℝ} (he : env.Ok) (h : TractInfo.new env ops b₀ a = .ok (t, b))
    (hx : 0 < b₀.patchInnerDimensions.x) (hy : 0 < b₀.patchInnerDimensions.y) {lx hx' ly hy' lx' hx'' ly' hy'' : ℝ}
    (hall : ∀ s ∈ samplePoints ops a, ∃ q, a.wcs.skyToPixel s = .pix q ∧ lx ≤ q.x ∧ q.x ≤ hx' ∧ ly ≤ q.y ∧ q.y ≤ hy')
    (e1 : ∃ s ∈ samplePoints ops a, ∃ q, a.wcs.skyToPixel s = .pix q ∧ q.x ≤ lx')
    (e2 : ∃ s ∈ samplePoints ops a, ∃ q, a.wcs.skyToPixel s = .pix q ∧ hx'' ≤ q.x)
    (e3 : ∃ s ∈ samplePoints ops a, ∃ q, a.wcs.skyToPixel s = .pix q ∧ q.y ≤ ly')
    (e4 : ∃ s ∈ samplePoints ops a, ∃ q, a.wcs.skyToPixel s = .pix q ∧ hy'' ≤ q.y)
    {nx ny : ℤ} (n1 : hx' - lx + 3 ≤ nx * b₀.patchInnerDimensions.x) (n2 : ((nx : ℝ) - 1) * b₀.patchInnerDimensions.x < hx'' - lx')
    (n3 : hy' - ly + 3 ≤ ny * b₀.patchInnerDimensions.y) (n4 : ((ny : ℝ) - 1) * b₀.patchInnerDimensions.y < hy'' - ly') :
    t.numPatches = ⟨nx, ny⟩ := by
  obtain ⟨m, hm, d1, d2, d3, d4⟩ := C01_tract_minimal h hx hy
  have hbox := (includeAll_boxOf he.tweak_gt a.wcs (samplePoints ops a) .empty m [] rfl hm).1
  rw [List.nil_append] at hbox
  have hpos : ∀ s ∈ samplePoints ops a, ∀ q, a.wcs.skyToPixel s = .pix q → q ∈ posList a.wcs (samplePoints ops a) := by
    intro s hs q hq
    exact List.mem_filterMap.2 ⟨s, hs, by rw [hq]⟩
  have hpos' : ∀ q ∈ posList a.wcs (samplePoints ops a), lx ≤ q.x ∧ q.x ≤ hx' ∧ ly ≤ q.y ∧ q.y ≤ hy' := by
    intro q hq
    obtain ⟨s, hs, hq⟩ := List.mem_filterMap.1 hq
    obtain ⟨q', e, r⟩ := hall s hs
    rw [e] at hq
    simp only [Option.some.injEq] at hq
    rw [← hq]; exact r
  obtain ⟨s1, m1, q1, g1, l1⟩ := e1
  obtain ⟨s2, m2, q2, g2, l2⟩ := e2
  obtain ⟨s3, m3, q3, g3, l3⟩ := e3
  obtain ⟨s4, m4, q4, g4, l4⟩ := e4
  cases m with
  | empty =>
    have hl : posList a.wcs (samplePoints ops a) = [] := hbox
    have := hpos s1 m1 q1 g1
    rw [hl] at this; simp at this
  | box lo hi =>
    obtain ⟨b1, b2, b3, ⟨p1, i1, j1⟩, ⟨p2, i2, j2⟩, ⟨p3, i3, j3⟩, ⟨p4, i4, j4⟩⟩ := hbox
    have axis : ∀ l h : ℝ, l < h → (h - l : ℝ) ≤ ((⌈h - 1 / 2⌉ - ⌊l + 1 / 2⌋ + 1 : ℤ) : ℝ) ∧
        ((⌈h - 1 / 2⌉ - ⌊l + 1 / 2⌋ + 1 : ℤ) : ℝ) ≤ h - l + 2 ∧ 0 < ⌈h - 1 / 2⌉ - ⌊l + 1 / 2⌋ + 1 := by
      intro l h hlt
      have a1 := Int.le_ceil (h - 1 / 2)
      have a2 := Int.ceil_lt_add_one (h - 1 / 2)
      have a3 := Int.floor_le (l + 1 / 2)
      have a4 := Int.lt_floor_add_one (l + 1 / 2)
      push_cast
      refine ⟨by linarith, by linarith, ?_⟩
      have : (0 : ℝ) < ((⌈h - 1 / 2⌉ - ⌊l + 1 / 2⌋ + 1 : ℤ) : ℝ) := by push_cast; linarith
      exact_mod_cast this
    obtain ⟨x1, x2, x3⟩ := axis lo.x hi.x b2
    obtain ⟨y1, y2, y3⟩ := axis lo.y hi.y b3
    have hdim : (Box2D.box lo hi).toBox2I.dim = ⟨⌈hi.x - 1 / 2⌉ - ⌊lo.x + 1 / 2⌋ + 1, ⌈hi.y - 1 / 2⌉ - ⌊lo.y + 1 / 2⌋ + 1⟩ := by
      unfold Box2D.toBox2I
      dsimp only
      rw [if_neg (by omega)]
    rw [hdim] at d1 d2 d3 d4
    dsimp only at d1 d2 d3 d4
    set X := ⌈hi.x - 1 / 2⌉ - ⌊lo.x + 1 / 2⌋ + 1
    set Y := ⌈hi.y - 1 / 2⌉ - ⌊lo.y + 1 / 2⌋ + 1
    have t3 := he.tweak_le p3.x
    have t4 := he.tweak_le p4.y
    have r1 := hpos' p1 i1
    have r2 := hpos' p2 i2
    have r3 := hpos' p3 i3
    have r4 := hpos' p4 i4
    have k1 := b1 q1 (hpos s1 m1 q1 g1)
    have k2 := b1 q2 (hpos s2 m2 q2 g2)
    have k3 := b1 q3 (hpos s3 m3 q3 g3)
    have k4 := b1 q4 (hpos s4 m4 q4 g4)
    have w1 : (X : ℝ) ≤ nx * b₀.patchInnerDimensions.x := by linarith
    have w2 : ((nx : ℝ) - 1) * b₀.patchInnerDimensions.x < X := by linarith
    have w3 : (Y : ℝ) ≤ ny * b₀.patchInnerDimensions.y := by linarith
    have w4 : ((ny : ℝ) - 1) * b₀.patchInnerDimensions.y < Y := by linarith
    have v1 : X ≤ nx * b₀.patchInnerDimensions.x := by exact_mod_cast w1
    have v2 : (nx - 1) * b₀.patchInnerDimensions.x < X := by exact_mod_cast w2
    have v3 : Y ≤ ny * b₀.patchInnerDimensions.y := by exact_mod_cast w3
    have v4 : (ny - 1) * b₀.patchInnerDimensions.y < Y := by exact_mod_cast w4
    have z1 := d3 nx v1
    have z3 := d4 ny v3
    have z2 : nx - 1 < t.numPatches.x := lt_of_mul_lt_mul_right (v2.trans_le d1) hx.le
    have z4 : ny - 1 < t.numPatches.y := lt_of_mul_lt_mul_right (v4.trans_le d2) hy.le
    exact I2.ext' (by dsimp only; omega) (by dsimp only; omega)

namespace DodecaSkyMap

/-- The pixels of a stereographic WCS without rotation: x against (or, flipped, along) east, y along north. -/
theorem pixel_unrotated (c : SpherePoint ℝ) (flipX : Bool) {scale : ℝ} {f : WcsFactory} {other}
    (hf : WcsFactory.new scale "STG" 0 flipX = .ok f) (hs : 0 < scale) (p : SpherePoint ℝ) (hp : -1 < c.getVector ⬝ᵥ p.getVector) :
    (f.makeWcs other ⟨0, 0⟩ c).skyToPixel p =
      .pix ⟨(if flipX then 1 else -1) * Projection.STG.along c.getVector c.eastVec p.getVector / scale,
        Projection.STG.along c.getVector c.northVec p.getVector / scale⟩ := by
  rw [WcsFactory.makeWcs_eq (P := .STG) hf rfl]
  unfold makeSkyWcs
  dsimp only
  rw [← SpherePoint.cosSep_eq] at hp
  simp only [Projection.toPlane, if_pos hp]
  rw [makeCdMatrix_solve hs.ne']
  simp only [Projection.along, zero_add, ← SpherePoint.cosSep_eq, ← SpherePoint.eastOf_eq, ← SpherePoint.northOf_eq, sin_zero, cos_zero]
  congr 2 <;> ring

variable {env : FloatEnv ℝ} {b₀ b : TractBuilder} {t : TractInfo (SpherePoint ℝ) ℝ}
  {other : P2 ℝ → SpherePoint ℝ → CdMatrix → String → Wcs (SpherePoint ℝ) ℝ} {f : WcsFactory} {scale : ℝ} {flipX : Bool}
  {o : SetOrder} {w : Bool} {D : Dodecahedron} {tiny : ℝ} {l : List (TractArgs (SpherePoint ℝ) ℝ)}
  {ts : List (TractRef (SpherePoint ℝ) ℝ)}

/-- C75: with the default pixel scale (0.2 arcseconds, or a number within a millionth of that), overlap (3.5 degrees), projection, rotation and
patches (4000 pixels), and with or without tracts on the poles, every tract of a dodecahedral sky map has 350 by 334 patches. -/
theorem C75_dodeca_patches (he : env.Ok) (ht0 : 0 < tiny) (ht1 : tiny ≤ 1 / 10) (ho : o.Ok)
    (hsc : |scale - 0.2 * (π / 648000)| ≤ 1e-6 * (0.2 * (π / 648000))) (hf : WcsFactory.new scale "STG" 0 flipX = .ok f)
    (hl : tracts tiny (f.makeWcs other ⟨0, 0⟩) o w 3.5 = .ok (D, l)) (hb0 : b₀.patchInnerDimensions = ⟨4000, 4000⟩)
    (hb : EagerSkyMap.buildAll env sphereOps l 0 b₀ = .ok (ts, b)) : ∀ t ∈ ts, t.info.numPatches = ⟨350, 334⟩ := by
  intro t ht
  have p1 := pi_gt_d6
  have p2 := pi_lt_d6
  obtain ⟨k, hk⟩ := List.mem_iff_getElem?.1 ht
  obtain ⟨a, b', hak, hnew⟩ := EagerSkyMap.buildAll_fresh hb hk
  obtain ⟨hD, -, hargs⟩ := args_ok ht0 ht1 ho hl
  obtain ⟨cs, h0, h1, h2, h3, h4, h5, h6⟩ := hargs hak
  have hx : 0 < b₀.patchInnerDimensions.x := by rw [hb0]; norm_num
  have hy : 0 < b₀.patchInnerDimensions.y := by rw [hb0]; norm_num
  have hC : ∀ v ∈ cs, a.ctrCoord.getVector ⬝ᵥ v.getVector = cosV := fun v hv => vertex_face ho hD h3 h4 (List.mem_map_of_mem hv)
  obtain ⟨σ, hσ, hall, htop, hbot, hr, hl'⟩ := frame_pentagon ho hD h3 h4 (vertical ht0 ho hD h0 h3 h4)
  have sc := abs_le.1 hsc
  have hs : 0 < scale := by linarith
  have slo : 9.69625e-7 < scale := by norm_num at *; linarith
  have shi : scale < 9.6963e-7 := by norm_num at *; linarith
  set C := a.ctrCoord with hCd
  have p3 : 0 < 1 / √3 := by positivity
  have f0 := farV_bounds
  have s0 := sinV_bounds
  have neg : ∀ U : Vec3, U ⬝ᵥ U = 1 → (-U) ⬝ᵥ (-U) = 1 := fun U h => by rw [neg_dotProduct, dotProduct_neg, neg_neg, h]
  have negC : ∀ U : Vec3, U ⬝ᵥ C.getVector = 0 → (-U) ⬝ᵥ C.getVector = 0 := fun U h => by rw [neg_dotProduct, h, neg_zero]
  -- east
  have E1 := extent_x h1 h5 hC C.east_unit C.east_vec (fun v hv => by
      rcases (hall _ (List.mem_map_of_mem hv)).1 with h | h | h
      · exact .inl h
      · exact .inr (by rw [h]; linarith)
      · exact .inr (abs_le.1 h).2) (by
      obtain ⟨v, hv, h⟩ := hr
      obtain ⟨v', hv', rfl⟩ := List.mem_map.1 hv
      exact ⟨v', hv', h⟩)
  have E2 := extent_x h1 h5 hC (neg _ C.east_unit) (negC _ C.east_vec) (fun v hv => by
      rw [neg_dotProduct]
      rcases (hall _ (List.mem_map_of_mem hv)).1 with h | h | h
      · exact .inr (by rw [h]; linarith)
      · exact .inl (by rw [h, neg_neg])
      · exact .inr (by linarith [(abs_le.1 h).1])) (by
      obtain ⟨v, hv, h⟩ := hl'
      obtain ⟨v', hv', rfl⟩ := List.mem_map.1 hv
      exact ⟨v', hv', by rw [neg_dotProduct, h, neg_neg]⟩)
  -- north
  have nn : (σ • C.northVec) ⬝ᵥ (σ • C.northVec) = 1 := by
    rw [smul_dotProduct, dotProduct_smul, C.north_unit, smul_eq_mul, smul_eq_mul, mul_one, hσ]
  have nC : (σ • C.northVec) ⬝ᵥ C.getVector = 0 := by rw [smul_dotProduct, C.north_vec, smul_zero]
  have N1 := extent_top h1 h5 hC nn nC (fun v hv => by
      rw [smul_dotProduct, smul_eq_mul]
      rcases (hall _ (List.mem_map_of_mem hv)).2 with h | h | h
      · exact .inl h
      · exact .inr (by rw [h]; linarith)
      · exact .inr (by linarith [(abs_le.1 h).2])) (by
      obtain ⟨v, hv, h⟩ := htop
      obtain ⟨v', hv', rfl⟩ := List.mem_map.1 hv
      exact ⟨v', hv', by rw [smul_dotProduct, smul_eq_mul, h]⟩)
  have N2 := extent_bottom h1 h5 hC (neg _ nn) (negC _ nC) (fun v hv => by
      rw [neg_dotProduct, smul_dotProduct, smul_eq_mul]
      rcases (hall _ (List.mem_map_of_mem hv)).2 with h | h | h
      · exact .inr (by rw [h]; linarith)
      · exact .inl (by rw [h, neg_neg])
      · exact .inr (by linarith [(abs_le.1 h).1])) (by
      obtain ⟨v, hv, h⟩ := hbot
      obtain ⟨v', hv', rfl⟩ := List.mem_map.1 hv
      exact ⟨v', hv', by rw [neg_dotProduct, smul_dotProduct, smul_eq_mul, h, neg_neg]⟩)
  simp only [Projection.along_neg] at E2 N2
  have hpix : ∀ s ∈ samplePoints sphereOps a, a.wcs.skyToPixel s =
      .pix ⟨(if flipX then 1 else -1) * Projection.STG.along C.getVector C.eastVec s.getVector / scale,
        Projection.STG.along C.getVector C.northVec s.getVector / scale⟩ := by
    intro s hs'
    rw [h6]
    exact pixel_unrotated C flipX hf hs s (sample_reach h1 hC (by rw [h5]; positivity) (by rw [h5]; linarith) hs').1
  have hm : (if flipX then 1 else -1 : ℝ) = 1 ∨ (if flipX then 1 else -1 : ℝ) = -1 := by cases flipX <;> simp
  set m : ℝ := if flipX then 1 else -1
  have hσ' : σ = 1 ∨ σ = -1 := mul_self_eq_one_iff.1 hσ
  have scaled : ∀ s : Vec3, Projection.STG.along C.getVector (σ • C.northVec) s = σ * Projection.STG.along C.getVector C.northVec s := by
    intro s; simp only [Projection.along, smul_dotProduct, smul_eq_mul]; ring
  simp only [← hCd, scaled] at N1 N2
  set A := fun s : SpherePoint ℝ => Projection.STG.along C.getVector C.eastVec s.getVector with hA
  set B := fun s : SpherePoint ℝ => Projection.STG.along C.getVector C.northVec s.getVector with hB
  change (∀ s ∈ samplePoints sphereOps a, A s ≤ 0.6778) ∧ ∃ s ∈ samplePoints sphereOps a, 0.6772 ≤ A s at E1
  change (∀ s ∈ samplePoints sphereOps a, -A s ≤ 0.6778) ∧ ∃ s ∈ samplePoints sphereOps a, 0.6772 ≤ -A s at E2
  change (∀ s ∈ samplePoints sphereOps a, σ * B s ≤ 0.711) ∧ ∃ s ∈ samplePoints sphereOps a, 0.71042 ≤ σ * B s at N1
  change (∀ s ∈ samplePoints sphereOps a, -(σ * B s) ≤ 0.582) ∧ ∃ s ∈ samplePoints sphereOps a, 0.58118 ≤ -(σ * B s) at N2
  change ∀ s ∈ samplePoints sphereOps a, a.wcs.skyToPixel s = .pix ⟨m * A s / scale, B s / scale⟩ at hpix
  -- along the pixel axes
  have X : (∀ s ∈ samplePoints sphereOps a, -0.6778 ≤ m * A s ∧ m * A s ≤ 0.6778) ∧
      (∃ s ∈ samplePoints sphereOps a, m * A s ≤ -0.6772) ∧ ∃ s ∈ samplePoints sphereOps a, 0.6772 ≤ m * A s := by
    obtain ⟨e1, s1, m1, g1⟩ := E1
    obtain ⟨e2, s2, m2, g2⟩ := E2
    rcases hm with h | h <;> rw [h]
    · exact ⟨fun s hs => ⟨by linarith [e2 s hs], by linarith [e1 s hs]⟩, ⟨s2, m2, by linarith⟩, s1, m1, by linarith⟩
    · exact ⟨fun s hs => ⟨by linarith [e1 s hs], by linarith [e2 s hs]⟩, ⟨s1, m1, by linarith⟩, s2, m2, by linarith⟩
  have Y : ∃ lo hi lo' hi' : ℝ, hi - lo ≤ 1.293 ∧ 1.2916 ≤ hi' - lo' ∧ (∀ s ∈ samplePoints sphereOps a, lo ≤ B s ∧ B s ≤ hi) ∧
      (∃ s ∈ samplePoints sphereOps a, B s ≤ lo') ∧ ∃ s ∈ samplePoints sphereOps a, hi' ≤ B s := by
    obtain ⟨e1, s1, m1, g1⟩ := N1
    obtain ⟨e2, s2, m2, g2⟩ := N2
    rcases hσ' with h | h <;> rw [h] at e1 g1 e2 g2
    · exact ⟨-0.582, 0.711, -0.58118, 0.71042, by norm_num, by norm_num, fun s hs => ⟨by linarith [e2 s hs], by linarith [e1 s hs]⟩,
        ⟨s2, m2, by linarith⟩, s1, m1, by linarith⟩
    · exact ⟨-0.711, 0.582, -0.71042, 0.58118, by norm_num, by norm_num, fun s hs => ⟨by linarith [e1 s hs], by linarith [e2 s hs]⟩,
        ⟨s1, m1, by linarith⟩, s2, m2, by linarith⟩
  obtain ⟨X1, ⟨x1, xm1, xl1⟩, x2, xm2, xl2⟩ := X
  obtain ⟨lo, hi, lo', hi', Y1, Y2, Y3, ⟨y1, ym1, yl1⟩, y2, ym2, yl2⟩ := Y
  refine TractInfo.numPatches_of_extent (lx := -0.6778 / scale) (hx' := 0.6778 / scale) (ly := lo / scale) (hy' := hi / scale)
    (lx' := -0.6772 / scale) (hx'' := 0.6772 / scale) (ly' := lo' / scale) (hy'' := hi' / scale) he hnew hx hy
    (fun s hs' => ⟨_, hpix s hs', ?_, ?_, ?_, ?_⟩) ⟨x1, xm1, _, hpix x1 xm1, ?_⟩ ⟨x2, xm2, _, hpix x2 xm2, ?_⟩
    ⟨y1, ym1, _, hpix y1 ym1, ?_⟩ ⟨y2, ym2, _, hpix y2 ym2, ?_⟩ ?_ ?_ ?_ ?_
  · dsimp only; have := (X1 s hs').1; gcongr
  · dsimp only; have := (X1 s hs').2; gcongr
  · dsimp only; have := (Y3 s hs').1; gcongr
  · dsimp only; have := (Y3 s hs').2; gcongr
  · dsimp only; gcongr
  · dsimp only; gcongr
  · dsimp only; gcongr
  · dsimp only; gcongr
  · rw [hb0, ← sub_div, div_add' _ _ _ hs.ne', div_le_iff₀ hs]
    norm_num; norm_num at slo; linarith
  · rw [hb0, ← sub_div, lt_div_iff₀ hs]
    norm_num; norm_num at shi; linarith
  · rw [hb0, ← sub_div, div_add' _ _ _ hs.ne', div_le_iff₀ hs]
    norm_num; norm_num at slo Y1; linarith
  · rw [hb0, ← sub_div, lt_div_iff₀ hs]
    norm_num; norm_num at shi Y2; linarith

end DodecaSkyMap
end Skymap
