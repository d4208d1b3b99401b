import Verif.Lemmas.Frame
import Verif.Props.EquatCover

/-! # C60: what the tracts of the dodecahedral sky map contain -/

namespace Skymap
open Matrix Real
/-- A linear functional on a cone. -/
theorem InCone.dot {vs : List Dodeca.Vec3} {u : Dodeca.Vec3} (h : InCone vs u) : ∃ c : List ℝ, c.length = vs.length ∧ (∀ x ∈ c, 0 ≤ x) ∧
    ∀ W : Dodeca.Vec3, W ⬝ᵥ u = (List.zipWith (fun x v => x * (W ⬝ᵥ v)) c vs).sum := by
  obtain ⟨c, h1, h2, rfl⟩ := h
  refine ⟨c, h1, h2, fun W => ?_⟩
  clear h1 h2
  induction c generalizing vs with
  | nil => simp
  | cons x c ih =>
    cases vs with
    | nil => simp
    | cons v vs => simp only [List.zipWith_cons_cons, List.sum_cons, dotProduct_add, dotProduct_smul, smul_eq_mul, ih]

/-- In a cone whose generators have the same component along `C`, a functional is at most its largest value on the generators, in proportion
to the component along `C`. -/
theorem InCone.max {vs : List Dodeca.Vec3} {u C : Dodeca.Vec3} (h : InCone vs u) (hne : vs ≠ []) {κ : ℝ} (h0 : 0 ≤ κ) (hκ : ∀ v ∈ vs, C ⬝ᵥ v = κ) (W : Dodeca.Vec3) :
    ∃ v ∈ vs, (∀ v' ∈ vs, W ⬝ᵥ v' ≤ W ⬝ᵥ v) ∧ κ * (W ⬝ᵥ u) ≤ (W ⬝ᵥ v) * (C ⬝ᵥ u) ∧ 0 ≤ C ⬝ᵥ u := by
  obtain ⟨v, hv, hmax⟩ : ∃ v ∈ vs, ∀ v' ∈ vs, W ⬝ᵥ v' ≤ W ⬝ᵥ v := by
    clear h hκ
    induction vs with
    | nil => exact absurd rfl hne
    | cons v vs ih =>
      by_cases h0 : vs = []
      · subst h0; exact ⟨v, by simp, by simp⟩
      · obtain ⟨v', m, hm⟩ := ih h0
        rcases le_total (W ⬝ᵥ v) (W ⬝ᵥ v') with hl | hl
        · exact ⟨v', by simp [m], fun x hx => (List.mem_cons.1 hx).elim (fun e => e ▸ hl) (hm x)⟩
        · exact ⟨v, by simp, fun x hx => (List.mem_cons.1 hx).elim (fun e => e ▸ le_rfl) (fun h => (hm x h).trans hl)⟩
  refine ⟨v, hv, hmax, ?_⟩
  obtain ⟨c, -, h2, h3⟩ := h.dot
  rw [h3 W, h3 C]
  generalize hm : W ⬝ᵥ v = m at hmax
  clear h h3 hne hv hm v
  induction c generalizing vs with
  | nil => simp
  | cons x c ih =>
    cases vs with
    | nil => simp
    | cons v vs =>
      simp only [List.zipWith_cons_cons, List.sum_cons]
      obtain ⟨i1, i2⟩ := ih (vs := vs) (fun v hv => hκ v (by simp [hv])) (fun y hy => h2 y (by simp [hy])) (fun v hv => hmax v (by simp [hv]))
      have e := hκ v (by simp)
      have l := hmax v (by simp)
      have hx := h2 x (by simp)
      rw [e]
      constructor
      · have := mul_le_mul_of_nonneg_left l (mul_nonneg h0 hx)
        linarith
      · positivity

namespace DodecaSkyMap
open Dodeca Matrix Dodecahedron Real

/-- The cosine of the angle between the centre of a face and its vertices. -/
noncomputable def cosV : ℝ := √((5 + 2 * √5) / 15)

theorem cosV_eq : (√(2 + g))⁻¹ * (√(6 + 9 * g))⁻¹ * (2 + 3 * g) = cosV := by
  have h1 := g_lo
  have h5 : √5 = 2 * g - 1 := by unfold g; ring
  have hs : √(2 + g) ^ 2 = 2 + g := sq_sqrt (by linarith)
  have ht : √(6 + 9 * g) ^ 2 = 6 + 9 * g := sq_sqrt (by linarith)
  have p1 : 0 < √(2 + g) := sqrt_pos.2 (by linarith)
  have p2 : 0 < √(6 + 9 * g) := sqrt_pos.2 (by linarith)
  unfold cosV
  rw [eq_comm, sqrt_eq_iff_mul_self_eq (by rw [h5]; linarith) (by positivity), h5]
  have : (√(2 + g))⁻¹ * (√(6 + 9 * g))⁻¹ * (2 + 3 * g) * ((√(2 + g))⁻¹ * (√(6 + 9 * g))⁻¹ * (2 + 3 * g)) =
      (2 + 3 * g) ^ 2 / (√(2 + g) ^ 2 * √(6 + 9 * g) ^ 2) := by
    have : 0 < 2 + g := by linarith
    have : 0 < 6 + 9 * g := by linarith
    field_simp
  have n0 : (2 + g) * (6 + 9 * g) ≠ 0 := by
    have : 0 < 2 + g := by linarith
    have : 0 < 6 + 9 * g := by linarith
    positivity
  rw [this, hs, ht, div_eq_div_iff (by norm_num) n0]
  linear_combination (36 * g + 24) * g_sq


theorem cosV_sq : cosV ^ 2 = (5 + 2 * √5) / 15 := sq_sqrt (by positivity)

theorem cosV_pos : 0 < cosV := sqrt_pos.2 (by positivity)

theorem cosV_lo : 0.7946 < cosV := by
  have : (2.236 : ℝ) < √5 := lt_sqrt_of_sq_lt (by norm_num)
  exact lt_sqrt_of_sq_lt (by linarith)

theorem cosV_hi : cosV < 0.7947 := by
  have : √5 < 2.2361 := (sqrt_lt' (by norm_num)).2 (by norm_num)
  exact (sqrt_lt' (by norm_num)).2 (by linarith)

variable {o : SetOrder} {w : Bool} {D : Dodecahedron}

/-- Two faces are at least 63 degrees apart. -/
theorem faces_apart (ho : o.Ok) (hD : Dodecahedron.new o w = .ok D) {f f' : Vec3} (hf : f ∈ D.faceVecList) (hf' : f' ∈ D.faceVecList)
    (hne : f' ≠ f) : f' ⬝ᵥ f ≤ 1 / √5 := by
  obtain ⟨M, P, hM, hP, hD', -⟩ := Dodeca.new_spec ho w
  rw [hD, Except.ok.injEq] at hD'
  subst hD'
  obtain ⟨i, hi, rfl⟩ := List.mem_map.1 hf
  obtain ⟨j, hj, rfl⟩ := List.mem_map.1 hf'
  have p5 : 0 < 1 / √5 := by positivity
  rw [hM.dot, face_val ((mem_range_perm hP).1 hi) ((mem_range_perm hP).1 hj) (by rintro rfl; exact hne rfl), face_value]
  split_ifs <;> linarith

/-- The angle between the centre of a face and its vertices. -/
theorem vertex_face (ho : o.Ok) (hD : Dodecahedron.new o w = .ok D) {k : ℕ} {f v : Vec3} {vs : List Vec3}
    (hf : D.faceVecList[k]? = some f) (hvs : D.getVertices k = .ok vs) (hv : v ∈ vs) : f ⬝ᵥ v = cosV := by
  obtain ⟨M, P, hM, hP, hD', -⟩ := Dodeca.new_spec ho w
  rw [hD, Except.ok.injEq] at hD'
  subst hD'
  dsimp only at hf
  rw [List.getElem?_map, Option.map_eq_some_iff] at hf
  obtain ⟨i, hi, rfl⟩ := hf
  have hi12 : i < 12 := (mem_range_perm hP).1 (List.mem_of_getElem? hi)
  obtain ⟨R, hR, -, hget⟩ := getVertices_eq (w := w) ho hM hi hi12
  rw [hvs, Except.ok.injEq] at hget
  subst hget
  obtain ⟨t, ht, rfl⟩ := List.mem_map.1 hv
  have ht5 := hR.mem_iff.1 ht
  have hk : i ∈ keyOf t := by simpa [five] using (List.mem_filter.1 ht5).2
  rw [hM.dot, vf_dot, vf_cases t (five_triples ht5) i hi12, if_pos hk]
  simp only [ev]
  push_cast
  exact cosV_eq


/-- A direction at right angles to `c` against any direction. -/
theorem tangent_bound (c : SpherePoint ℝ) {U : Vec3} (hU : U ⬝ᵥ c.getVector = 0) (X : Vec3) :
    (U ⬝ᵥ X) ^ 2 ≤ (U ⬝ᵥ U) * (X ⬝ᵥ X - (X ⬝ᵥ c.getVector) ^ 2) := by
  rw [c.frame_dot U X, c.frame_dot U U, c.frame_dot X X, hU]
  set A := U ⬝ᵥ c.eastVec
  set B := U ⬝ᵥ c.northVec
  set x := X ⬝ᵥ c.eastVec
  set y := X ⬝ᵥ c.northVec
  set z := X ⬝ᵥ c.getVector
  linarith [sq_nonneg (A * y - B * x), show (A * A + B * B + 0 * 0) * (x * x + y * y + z * z - z ^ 2) - (A * x + B * y + 0 * z) ^ 2 = (A * y - B * x) ^ 2 by ring]

/-- How far the positions around a vertex can be from the centre. -/
theorem sample_cos {C : Vec3} {v : SpherePoint ℝ} (hC : C ⬝ᵥ C = 1) (hv : C ⬝ᵥ v.getVector = cosV) (b : ℝ) {δ : ℝ} (h0 : 0 ≤ δ)
    (h1 : δ ≤ π / 2) : 0.7946 * cos δ - 0.608 * sin δ ≤ C ⬝ᵥ (v.offset b δ).getVector := by
  have hp := pi_pos
  have hk := cosV_lo
  have hc : 0 ≤ cos δ := cos_nonneg_of_mem_Icc ⟨by linarith, h1⟩
  have hs : 0 ≤ sin δ := sin_nonneg_of_nonneg_of_le_pi h0 (by linarith)
  have hf := v.frame_dot C C
  rw [hC, hv] at hf
  rw [v.offset_dot, hv]
  set A := C ⬝ᵥ v.eastVec
  set B := C ⬝ᵥ v.northVec
  have hb := sin_sq_add_cos_sq (b * (π / 180))
  set x := cos (b * (π / 180))
  set y := sin (b * (π / 180))
  have h2 : (A * x + B * y) ^ 2 ≤ 0.608 ^ 2 := by
    have e : (A * x + B * y) ^ 2 + (A * y - B * x) ^ 2 = 1 - cosV ^ 2 := by
      linear_combination (A ^ 2 + B ^ 2) * hb - hf
    have : (0.7946 : ℝ) ^ 2 < cosV ^ 2 := by gcongr
    have := sq_nonneg (A * y - B * x)
    norm_num at *
    linarith
  have h3 : -0.608 ≤ A * x + B * y := (abs_le_of_sq_le_sq' h2 (by norm_num)).1
  have g1 := mul_le_mul_of_nonneg_left h3 hs
  have g2 := mul_le_mul_of_nonneg_left hk.le hc
  linarith

variable {env : FloatEnv ℝ} {b₀ b : TractBuilder} {a : TractArgs (SpherePoint ℝ) ℝ} {t : TractInfo (SpherePoint ℝ) ℝ}
  {other : P2 ℝ → SpherePoint ℝ → CdMatrix → String → Wcs (SpherePoint ℝ) ℝ} {f : WcsFactory} {scale θ : ℝ} {code : String}
  {flipX : Bool} {P : Projection}

/-- Sizing positions of a tract given by its vertices. -/
theorem vertex_sample {cs : List (SpherePoint ℝ)} (ha : a.shape = .vertices cs) {v : SpherePoint ℝ} (hv : v ∈ cs) {i : ℕ} (hi : i < 24)
    (hov : a.tractOverlap ≠ 0) : v.offset (15 * (i : ℝ)) (a.tractOverlap / 2) ∈ samplePoints sphereOps a := by
  rw [C12_sample_points]
  exact Or.inr (Or.inl ⟨cs, ha, hov, v, hv, i, hi, rfl⟩)

theorem sample_reach {cs : List (SpherePoint ℝ)} (ha : a.shape = .vertices cs) (hC : ∀ v ∈ cs, a.ctrCoord.getVector ⬝ᵥ v.getVector = cosV)
    (h0 : 0 ≤ a.tractOverlap) (h1 : a.tractOverlap ≤ π) {s : SpherePoint ℝ} (hs : s ∈ samplePoints sphereOps a) :
    -1 < a.ctrCoord.getVector ⬝ᵥ s.getVector ∧ (a.tractOverlap ≤ π / 2 → 0 < a.ctrCoord.getVector ⬝ᵥ s.getVector) := by
  have hp := pi_pos
  have hk := cosV_pos
  rw [C12_sample_points] at hs
  rcases hs with ⟨l, e, -, hm⟩ | ⟨l, e, -, v, hv, i, -, e2⟩ | ⟨r, e, -⟩
  · rw [ha, TractShape.vertices.injEq] at e
    subst e
    rw [hC s hm]
    exact ⟨by linarith, fun _ => hk⟩
  · rw [ha, TractShape.vertices.injEq] at e
    subst e
    change s = v.offset _ _ at e2
    have := sample_cos (b := 15 * (i : ℝ)) a.ctrCoord.vec_unit (hC v hv) (δ := a.tractOverlap / 2) (by linarith) (by linarith)
    rw [← e2] at this
    have hδ0 : 0 ≤ a.tractOverlap / 2 := by linarith
    have hδ1 : a.tractOverlap / 2 ≤ π / 2 := by linarith
    have hδ2 : a.tractOverlap ≤ π / 2 → a.tractOverlap / 2 ≤ π / 4 := fun _ => by linarith
    set δ := a.tractOverlap / 2
    have hc : 0 ≤ cos δ := cos_nonneg_of_mem_Icc ⟨by linarith, by linarith⟩
    have hs1 : sin δ ≤ 1 := sin_le_one _
    refine ⟨by linarith, fun h2 => ?_⟩
    have := hδ2 h2
    have l1 : sin δ ≤ cos δ := by
      rw [← sin_pi_div_two_sub]
      exact sin_le_sin_of_le_of_le_pi_div_two (by linarith) (by linarith) (by linarith)
    have l2 : 0 < cos δ := cos_pos_of_mem_Ioo ⟨by linarith, by linarith⟩
    linarith
  · rw [ha] at e; simp at e

/-- A direction in the cone of the vertices of a face is at most as far from the centre as they. -/
theorem cone_near {C : Vec3} {vs : List Vec3} (hne : vs ≠ []) (hC : ∀ v ∈ vs, C ⬝ᵥ v = cosV) (hu : ∀ v ∈ vs, v ⬝ᵥ v = 1)
    {p : SpherePoint ℝ} (hp : InCone vs p.getVector) : cosV ≤ C ⬝ᵥ p.getVector := by
  obtain ⟨v, hv, -, h1, h2⟩ := hp.max hne cosV_pos.le hC p.getVector
  rw [p.vec_unit, mul_one] at h1
  have h3 : p.getVector ⬝ᵥ v ≤ 1 := by
    have e1 := p.frame_dot v v
    rw [hu v hv] at e1
    rw [dotProduct_comm]
    nlinarith [mul_self_nonneg (v ⬝ᵥ p.eastVec), mul_self_nonneg (v ⬝ᵥ p.northVec)]
  nlinarith

/-- With the gnomonic projection. -/
theorem tan_covers (he : env.Ok) (h : TractInfo.new env sphereOps b₀ a = .ok (t, b))
    (hx : 0 < b₀.patchInnerDimensions.x) (hy : 0 < b₀.patchInnerDimensions.y)
    (hf : WcsFactory.new scale "TAN" θ flipX = .ok f) (hs : 0 < scale) (hw : a.wcs = f.makeWcs other ⟨0, 0⟩ a.ctrCoord)
    {cs : List (SpherePoint ℝ)} (ha : a.shape = .vertices cs) (hne : cs ≠ []) (hC : ∀ v ∈ cs, a.ctrCoord.getVector ⬝ᵥ v.getVector = cosV)
    (h0 : 0 ≤ a.tractOverlap) (h1 : a.tractOverlap ≤ π / 2) {p : SpherePoint ℝ}
    (hp : InCone (cs.map SpherePoint.getVector) p.getVector) : t.contains p = true := by
  have hpi := pi_pos
  have hk := cosV_pos
  have hne' : cs.map SpherePoint.getVector ≠ [] := by simpa using hne
  have hC' : ∀ v ∈ cs.map SpherePoint.getVector, a.ctrCoord.getVector ⬝ᵥ v = cosV := by simpa using hC
  have hz : 0 < a.ctrCoord.getVector ⬝ᵥ p.getVector :=
    hk.trans_le (cone_near hne' hC' (by simp [SpherePoint.vec_unit]) hp)
  refine zenithal_covers (P := .TAN) he h hx hy hf hs rfl hw hz fun U u1 u2 => ?_
  obtain ⟨v', hv', -, hm, -⟩ := hp.max hne' hk.le hC' U
  obtain ⟨v, hv, rfl⟩ := List.mem_map.1 hv'
  have reach : ∀ s ∈ samplePoints sphereOps a, 0 < a.ctrCoord.getVector ⬝ᵥ s.getVector := fun s hs =>
    (sample_reach ha hC h0 (by linarith) hs).2 h1
  have hv1 : U ⬝ᵥ p.getVector / (a.ctrCoord.getVector ⬝ᵥ p.getVector) ≤ U ⬝ᵥ v.getVector / cosV := by
    rw [div_le_div_iff₀ hz hk]; linarith
  by_cases hov : a.tractOverlap = 0
  · have hvm : v ∈ samplePoints sphereOps a := by rw [C12_sample_points]; exact Or.inl ⟨cs, ha, hov, hv⟩
    refine ⟨v, hvm, reach v hvm, ?_⟩
    simp only [Projection.along]
    rw [hC v hv]; exact hv1
  · set W := U - (U ⬝ᵥ v.getVector / cosV) • a.ctrCoord.getVector with hW
    have hWv : W ⬝ᵥ v.getVector = 0 := by
      rw [hW, sub_dotProduct, smul_dotProduct, hC v hv, smul_eq_mul, div_mul_cancel₀ _ hk.ne', sub_self]
    have hsin : 0 ≤ sin (a.tractOverlap / 2) := sin_nonneg_of_nonneg_of_le_pi (by linarith) (by linarith)
    have ex : ∃ i : ℕ, i < 24 ∧ 0 ≤ W ⬝ᵥ (v.offset (15 * (i : ℝ)) (a.tractOverlap / 2)).getVector := by
      rcases le_total 0 (W ⬝ᵥ v.eastVec) with hA | hA
      · refine ⟨0, by norm_num, ?_⟩
        rw [v.offset_dot, hWv]
        simp only [Nat.cast_zero, mul_zero, zero_mul, cos_zero, sin_zero, mul_one, add_zero, zero_add]
        exact mul_nonneg hsin hA
      · refine ⟨12, by norm_num, ?_⟩
        have e : (15 : ℝ) * ((12 : ℕ) : ℝ) * (π / 180) = π := by push_cast; ring
        rw [v.offset_dot, hWv, e]
        simp only [cos_pi, sin_pi, mul_zero, add_zero, zero_add]
        exact mul_nonneg hsin (by linarith)
    obtain ⟨i, hi, hpos⟩ := ex
    have hsm := vertex_sample ha hv hi hov
    have hr := reach _ hsm
    refine ⟨_, hsm, hr, ?_⟩
    simp only [Projection.along]
    refine hv1.trans ?_
    rw [le_div_iff₀ hr]
    rw [hW, sub_dotProduct, smul_dotProduct, smul_eq_mul] at hpos
    linarith

/-- In every direction some vertex of a face is at least as far out as the middle of an edge. -/
theorem pentagon (ho : o.Ok) (hD : Dodecahedron.new o w = .ok D) {k : ℕ} {c : SpherePoint ℝ} {vs : List Vec3}
    (hf : D.faceVecList[k]? = some c.getVector) (hvs : D.getVertices k = .ok vs) (hne : vs ≠ []) {U : Vec3} (u1 : U ⬝ᵥ U = 1)
    (u2 : U ⬝ᵥ c.getVector = 0) : ∃ v ∈ vs, 0.618 * cosV ≤ U ⬝ᵥ v := by
  have h5 : √5 ^ 2 = 5 := sq_sqrt (by norm_num)
  have hg : (2.236 : ℝ) < √5 := lt_sqrt_of_sq_lt (by norm_num)
  have hcone : InCone vs (c.getVector + (0.618 : ℝ) • U) := by
    rw [face_cone ho hD hf hvs]
    intro f' hf'
    have e1 : c.getVector ⬝ᵥ (c.getVector + (0.618 : ℝ) • U) = 1 := by
      rw [dotProduct_add, dotProduct_smul, dotProduct_comm _ U, u2, c.vec_unit]; simp
    rw [e1]
    by_cases h : f' = c.getVector
    · rw [h, e1]
    · have l1 := faces_apart ho hD (List.mem_of_getElem? hf) hf' h
      have l2 := tangent_bound c u2 f'
      rw [u1, unit_vectors ho hD f' (.inl hf'), one_mul] at l2
      rw [dotProduct_add, dotProduct_smul, smul_eq_mul, dotProduct_comm f' U]
      set x := f' ⬝ᵥ c.getVector
      set y := U ⬝ᵥ f'
      have i5 : 1 / √5 = √5 / 5 := by field_simp; linarith
      rw [i5] at l1
      -- x + 0.618 y ≤ 1
      nlinarith [sq_nonneg (0.618 * x - y), sq_nonneg (x - √5 / 5), sq_nonneg (y - 2 * √5 / 5)]
  obtain ⟨v, hv, -, hm, -⟩ := hcone.max hne cosV_pos.le (fun v hv => vertex_face ho hD hf hvs hv) U
  refine ⟨v, hv, ?_⟩
  rw [dotProduct_add, dotProduct_smul, u2, u1, dotProduct_add, dotProduct_smul, dotProduct_comm _ U, u2, c.vec_unit] at hm
  simp only [smul_eq_mul, mul_one, mul_zero, zero_add, add_zero] at hm
  linarith

/-- How far out a direction in the cone of a face is in the stereographic projection, compared to the vertices: `z` is its component along
the centre, `y` that along a direction in the plane, `m` that of the vertex that is furthest out. -/
theorem stg_bulge {k z y m : ℝ} (k0 : 0.7946 < k) (k1 : k < 0.7947) (hz : k ≤ z) (hy : y ^ 2 ≤ 1 - z ^ 2) (hm0 : 0.618 * k ≤ m)
    (hm1 : m ^ 2 ≤ 1 - k ^ 2) (hc : k * y ≤ m * z) : 2 * y ≤ (2 * m / (1 + k) + 0.026) * (1 + z) := by
  have hk1 : 0 < 1 + k := by linarith
  have m1 : m ≤ 0.608 := by
    apply abs_le_of_sq_le_sq' (b := 0.608) _ (by norm_num) |>.2
    nlinarith
  have b0 : 0.547 ≤ 2 * m / (1 + k) := by rw [le_div_iff₀ hk1]; nlinarith
  have b1 : 2 * m / (1 + k) ≤ 0.678 := by rw [div_le_iff₀ hk1]; nlinarith
  set μ := 2 * m / (1 + k) with hμ
  have e : μ * (1 + k) = 2 * m := by rw [hμ, div_mul_cancel₀ _ hk1.ne']
  rcases le_total z 0.849 with h | h
  · have : k * (2 * y) ≤ k * ((μ + 0.026) * (1 + z)) := by
      have e2 : k * ((μ + 0.026) * (1 + z)) - 2 * (m * z) = μ * (k - z) + 0.026 * k * (1 + z) := by rw [← mul_assoc 2 m z, ← e]; ring
      have l1 : μ * (z - k) ≤ 0.678 * (z - k) := mul_le_mul_of_nonneg_right b1 (by linarith)
      nlinarith
    exact le_of_mul_le_mul_left this (by linarith)
  · have : 2 * y ≤ 0.573 * (1 + z) := by
      apply abs_le_of_sq_le_sq' _ (by nlinarith) |>.2
      nlinarith
    nlinarith


theorem stg_tail {μ k s c T : ℝ} (b1 : μ ≤ 0.678) (k0 : 0 < k) (k1 : k < 0.7947) (s0 : 0.026 ≤ s) (s1 : s ≤ 1) (c0 : 0 ≤ c)
    (c1 : c ≤ 1) (hsq : s ^ 2 + c ^ 2 = 1) (hT : 1.98 ≤ T) : μ + 0.028 ≤ c * (μ - 0.028 * k) + s * T := by
  have g1 : 1 - c ≤ s ^ 2 := by nlinarith
  have g2 : s * 1.98 ≤ s * T := mul_le_mul_of_nonneg_left hT (by linarith)
  have g3 : μ * (1 - c) ≤ 0.678 * s ^ 2 := mul_le_mul b1 g1 (by linarith) (by norm_num)
  have g4 : k * c ≤ 0.7947 * 1 := mul_le_mul k1.le c1 c0 (by norm_num)
  have g5 : 0.678 * s ^ 2 + 0.028 + 0.028 * 0.7947 ≤ s * 1.98 := by nlinarith
  linarith

/-- Some of the positions around the vertex that is furthest out are further out still. -/
theorem stg_sample {C U : Vec3} {v : SpherePoint ℝ} (hC : C ⬝ᵥ C = 1) (u1 : U ⬝ᵥ U = 1) (u2 : U ⬝ᵥ C = 0)
    (hv : C ⬝ᵥ v.getVector = cosV) (hm0 : 0.618 * cosV ≤ U ⬝ᵥ v.getVector) (hm1 : (U ⬝ᵥ v.getVector) ^ 2 ≤ 1 - cosV ^ 2) {δ : ℝ}
    (h0 : π / 120 ≤ δ) (h1 : δ ≤ π / 2) : ∃ i : ℕ, i < 24 ∧
      (2 * (U ⬝ᵥ v.getVector) / (1 + cosV) + 0.028) * (1 + C ⬝ᵥ (v.offset (15 * (i : ℝ)) δ).getVector) ≤
        2 * (U ⬝ᵥ (v.offset (15 * (i : ℝ)) δ).getVector) := by
  have hp := pi_gt_d2
  have hp' := pi_lt_d2
  have k0 := cosV_lo
  have k1 := cosV_hi
  have hk1 : 0 < 1 + cosV := by linarith
  have m1 : U ⬝ᵥ v.getVector ≤ 0.608 := by
    apply (abs_le_of_sq_le_sq' (b := 0.608) _ (by norm_num)).2
    nlinarith
  have b0 : 0.547 ≤ 2 * (U ⬝ᵥ v.getVector) / (1 + cosV) := by rw [le_div_iff₀ hk1]; nlinarith
  have b1 : 2 * (U ⬝ᵥ v.getVector) / (1 + cosV) ≤ 0.678 := by rw [div_le_iff₀ hk1]; nlinarith
  have e : 2 * (U ⬝ᵥ v.getVector) / (1 + cosV) * (1 + cosV) = 2 * (U ⬝ᵥ v.getVector) := div_mul_cancel₀ _ hk1.ne'
  set μ := 2 * (U ⬝ᵥ v.getVector) / (1 + cosV) with hμ
  set W := (2 : ℝ) • U - (μ + 0.028) • C with hW
  have hWd : ∀ X, W ⬝ᵥ X = 2 * (U ⬝ᵥ X) - (μ + 0.028) * (C ⬝ᵥ X) := by
    intro X; rw [hW, sub_dotProduct, smul_dotProduct, smul_dotProduct, smul_eq_mul, smul_eq_mul]
  have hWv : W ⬝ᵥ v.getVector = μ - 0.028 * cosV := by rw [hWd, hv]; linarith
  have hWW : W ⬝ᵥ W = 4 + (μ + 0.028) ^ 2 := by
    rw [hWd, dotProduct_comm U W, dotProduct_comm C W, hWd, hWd, u1, hC, u2, dotProduct_comm C U, u2]; ring
  obtain ⟨i, hi, hb⟩ := bearing_dense (W ⬝ᵥ v.eastVec) (W ⬝ᵥ v.northVec)
  refine ⟨i, hi, ?_⟩
  have hf := v.frame_dot W W
  rw [hWW, hWv] at hf
  have hr : 2 ≤ √((W ⬝ᵥ v.eastVec) ^ 2 + (W ⬝ᵥ v.northVec) ^ 2) := by
    apply le_sqrt_of_sq_le
    have : 0 ≤ 0.028 * (1 + cosV) * (2 * μ + 0.028 * (1 - cosV)) := mul_nonneg (by linarith) (by linarith)
    linarith [show (μ + 0.028) ^ 2 - (μ - 0.028 * cosV) * (μ - 0.028 * cosV) = 0.028 * (1 + cosV) * (2 * μ + 0.028 * (1 - cosV)) by ring]
  have hcos : 0.99 ≤ cos (π / 24) := by
    have := one_sub_sq_div_two_le_cos (x := π / 24)
    nlinarith
  have hT : 1.98 ≤ (W ⬝ᵥ v.eastVec) * cos (15 * (i : ℝ) * (π / 180)) + (W ⬝ᵥ v.northVec) * sin (15 * (i : ℝ) * (π / 180)) := by
    have : (0.99 : ℝ) * 2 ≤ cos (π / 24) * √((W ⬝ᵥ v.eastVec) ^ 2 + (W ⬝ᵥ v.northVec) ^ 2) := by gcongr
    linarith
  have hs := v.offset_dot (15 * (i : ℝ)) δ W
  rw [hWv, hWd] at hs
  set T := (W ⬝ᵥ v.eastVec) * cos (15 * (i : ℝ) * (π / 180)) + (W ⬝ᵥ v.northVec) * sin (15 * (i : ℝ) * (π / 180))
  have hsin0 : 0.026 ≤ sin δ := by
    have l1 : sin (π / 120) ≤ sin δ := sin_le_sin_of_le_of_le_pi_div_two (by linarith) h1 h0
    have l2 := sin_gt_sub_cube (x := π / 120) (by linarith)
    have l3 : (π / 120) ^ 3 ≤ 0.027 ^ 3 := by gcongr; linarith
    norm_num at l3
    linarith
  have hsin1 := sin_le_one δ
  have hcd : 0 ≤ cos δ := cos_nonneg_of_mem_Icc ⟨by linarith, h1⟩
  have hcd1 := cos_le_one δ
  have hsq := sin_sq_add_cos_sq δ
  have := stg_tail b1 cosV_pos k1 hsin0 hsin1 hcd hcd1 hsq hT
  linarith

/-- The inequality of Cauchy and Schwarz. -/
theorem dot_sq_le (x y : Vec3) : (x ⬝ᵥ y) ^ 2 ≤ (x ⬝ᵥ x) * (y ⬝ᵥ y) := by
  simp only [dotProduct, Fin.sum_univ_three]
  nlinarith [sq_nonneg (x 0 * y 1 - x 1 * y 0), sq_nonneg (x 0 * y 2 - x 2 * y 0), sq_nonneg (x 1 * y 2 - x 2 * y 1)]

/-- With the stereographic projection, for the positions very near the polygon of the vertices. -/
theorem stg_covers_near (ho : o.Ok) (hD : Dodecahedron.new o w = .ok D) (he : env.Ok) (h : TractInfo.new env sphereOps b₀ a = .ok (t, b))
    (hx : 0 < b₀.patchInnerDimensions.x) (hy : 0 < b₀.patchInnerDimensions.y)
    (hf : WcsFactory.new scale "STG" θ flipX = .ok f) (hs : 0 < scale) (hw : a.wcs = f.makeWcs other ⟨0, 0⟩ a.ctrCoord)
    {k : ℕ} {cs : List (SpherePoint ℝ)} (ha : a.shape = .vertices cs) (hne : cs ≠ [])
    (hfk : D.faceVecList[k]? = some a.ctrCoord.getVector) (hvs : D.getVertices k = .ok (cs.map SpherePoint.getVector))
    (h0 : π / 60 ≤ a.tractOverlap) (h1 : a.tractOverlap ≤ π) {q p : SpherePoint ℝ}
    (hp : InCone (cs.map SpherePoint.getVector) q.getVector)
    (hqp : (p.getVector - q.getVector) ⬝ᵥ (p.getVector - q.getVector) ≤ 0.0013 ^ 2) : t.contains p = true := by
  have hpi := pi_pos
  have hk := cosV_pos
  have hk7 := cosV_lo
  have near : ∀ X : Vec3, X ⬝ᵥ X = 1 → |X ⬝ᵥ p.getVector - X ⬝ᵥ q.getVector| ≤ 0.0013 := by
    intro X hX
    have := dot_sq_le X (p.getVector - q.getVector)
    rw [hX, one_mul, dotProduct_sub] at this
    exact abs_le_of_sq_le_sq (this.trans hqp) (by norm_num)
  have nearC := abs_le.1 (near _ a.ctrCoord.vec_unit)
  have hne' : cs.map SpherePoint.getVector ≠ [] := by simpa using hne
  have hC' : ∀ v ∈ cs.map SpherePoint.getVector, a.ctrCoord.getVector ⬝ᵥ v = cosV := fun v hv => vertex_face ho hD hfk hvs hv
  have hC : ∀ v ∈ cs, a.ctrCoord.getVector ⬝ᵥ v.getVector = cosV := fun v hv => hC' _ (List.mem_map_of_mem hv)
  have hz := cone_near hne' hC' (by simp [SpherePoint.vec_unit]) hp
  refine zenithal_covers (P := .STG) he h hx hy hf hs rfl hw (by simp only [Projection.Reaches]; linarith) fun U u1 u2 => ?_
  obtain ⟨v', hv', hmax, hm, -⟩ := hp.max hne' hk.le hC' U
  obtain ⟨v, hv, rfl⟩ := List.mem_map.1 hv'
  obtain ⟨v'', hv'', hlow⟩ := pentagon ho hD hfk hvs hne' u1 u2
  have hm0 := hlow.trans (hmax v'' hv'')
  have hm1 := tangent_bound a.ctrCoord u2 v.getVector
  rw [u1, v.vec_unit, one_mul, dotProduct_comm _ a.ctrCoord.getVector, hC v hv] at hm1
  have hy2 := tangent_bound a.ctrCoord u2 q.getVector
  rw [u1, q.vec_unit, one_mul, dotProduct_comm _ a.ctrCoord.getVector] at hy2
  have hb := stg_bulge cosV_lo cosV_hi hz hy2 hm0 hm1 hm
  obtain ⟨i, hi, hsm⟩ := stg_sample a.ctrCoord.vec_unit u1 u2 (hC v hv) hm0 hm1 (δ := a.tractOverlap / 2) (by linarith) (by linarith)
  have hmem := vertex_sample ha hv hi (by linarith)
  have hr := (sample_reach ha hC (by linarith) h1 hmem).1
  refine ⟨_, hmem, hr, ?_⟩
  simp only [Projection.along]
  refine le_trans (b := 2 * (U ⬝ᵥ v.getVector) / (1 + cosV) + 0.028) ?_ ?_
  · rw [div_le_iff₀ (by linarith)]
    have nearU := abs_le.1 (near U u1)
    have b1 : 2 * (U ⬝ᵥ v.getVector) / (1 + cosV) ≤ 0.678 := by
      have m1 : U ⬝ᵥ v.getVector ≤ 0.608 := by
        apply (abs_le_of_sq_le_sq' (b := 0.608) _ (by norm_num)).2
        nlinarith
      rw [div_le_iff₀ (by linarith)]; nlinarith
    set μ := 2 * (U ⬝ᵥ v.getVector) / (1 + cosV)
    have b0 : 0 ≤ μ := by
      have : 0 ≤ U ⬝ᵥ v.getVector := by linarith
      positivity
    have : (μ + 0.028) * (a.ctrCoord.getVector ⬝ᵥ q.getVector - 0.0013) ≤ (μ + 0.028) * (a.ctrCoord.getVector ⬝ᵥ p.getVector) :=
      mul_le_mul_of_nonneg_left (by linarith) (by linarith)
    linarith
  · rw [le_div_iff₀ (by linarith)]; exact hsm

/-- With the stereographic projection. -/
theorem stg_covers (ho : o.Ok) (hD : Dodecahedron.new o w = .ok D) (he : env.Ok) (h : TractInfo.new env sphereOps b₀ a = .ok (t, b))
    (hx : 0 < b₀.patchInnerDimensions.x) (hy : 0 < b₀.patchInnerDimensions.y)
    (hf : WcsFactory.new scale "STG" θ flipX = .ok f) (hs : 0 < scale) (hw : a.wcs = f.makeWcs other ⟨0, 0⟩ a.ctrCoord)
    {k : ℕ} {cs : List (SpherePoint ℝ)} (ha : a.shape = .vertices cs) (hne : cs ≠ [])
    (hfk : D.faceVecList[k]? = some a.ctrCoord.getVector) (hvs : D.getVertices k = .ok (cs.map SpherePoint.getVector))
    (h0 : π / 60 ≤ a.tractOverlap) (h1 : a.tractOverlap ≤ π) {p : SpherePoint ℝ}
    (hp : InCone (cs.map SpherePoint.getVector) p.getVector) : t.contains p = true :=
  stg_covers_near ho hD he h hx hy hf hs hw ha hne hfk hvs h0 h1 hp (by rw [sub_self, zero_dotProduct]; norm_num)

variable {tiny ov : ℝ} {l : List (TractArgs (SpherePoint ℝ) ℝ)} {ts : List (TractRef (SpherePoint ℝ) ℝ)}
  {mk : SpherePoint ℝ → Wcs (SpherePoint ℝ) ℝ} {ops : SkyOps (SpherePoint ℝ) ℝ}

/-- What the constructor of a tract was given. -/
theorem args_ok (ht0 : 0 < tiny) (ht1 : tiny ≤ 1 / 10) (ho : o.Ok) (hl : tracts tiny mk o w ov = .ok (D, l)) :
    Dodecahedron.new o w = .ok D ∧ l.length = 12 ∧ ∀ {k : ℕ} {a}, l[k]? = some a → ∃ cs, tract tiny mk D (ov * (π / 180)) k = .ok a ∧
      a.shape = .vertices cs ∧ cs ≠ [] ∧ D.faceVecList[k]? = some a.ctrCoord.getVector ∧
      D.getVertices k = .ok (cs.map SpherePoint.getVector) ∧ a.tractOverlap = ov * (π / 180) ∧ a.wcs = mk a.ctrCoord := by
  unfold tracts at hl
  obtain ⟨D', hD, hl⟩ := bindOk hl
  obtain ⟨l', hl', hl⟩ := bindOk hl
  simp only [pure, Except.pure, Except.ok.injEq, Prod.mk.injEq] at hl
  obtain ⟨rfl, rfl⟩ := hl
  rw [pyMapM_ok_iff] at hl'
  have hlen : l'.length = 12 := by rw [← hl'.length_eq]; rfl
  refine ⟨hD, hlen, fun {k a} hk => ?_⟩
  have hk12 : k < 12 := by rw [← hlen]; exact (List.getElem?_eq_some_iff.1 hk).1
  obtain ⟨a', f, vs, cs, h1, h2, h3, h4, h5, h6, h7, h8, h9⟩ := tract_ok (mk := mk) (ov := ov * (π / 180)) ht0 ht1 ho hD k hk12
  have haa : a = a' := by
    rw [List.forall₂_iff_get] at hl'
    obtain ⟨gl, gall⟩ := hl'
    have := gall k (by rw [gl]; omega) (by omega)
    have hr : (pyRange 0 12).get ⟨k, by rw [gl]; omega⟩ = (k : ℤ) := by
      have := pyRange_getElem? 0 12 k (by omega)
      rw [List.getElem?_eq_some_iff] at this
      obtain ⟨_, h⟩ := this
      simpa using h
    rw [hr, h1, Except.ok.injEq] at this
    rw [this]
    rw [List.getElem?_eq_some_iff] at hk
    obtain ⟨_, h⟩ := hk
    simpa using h.symm
  subst haa
  refine ⟨cs, h1, h6, ?_, by rw [h4]; exact h3, by rw [h7]; exact h5, h8, h9⟩
  obtain ⟨-, vs', -, e1, e2, -⟩ := C37_getVertices ho hD k hk12
  rw [h5, Except.ok.injEq] at e1
  subst e1
  rintro rfl
  rw [← h7] at e2
  simp at e2

/-- The projections and tract overlaps (degrees) that are covered: TAN with an overlap of at most 90 degrees, STG (the default of
`DodecaSkyMapConfig`) with an overlap of at least 3 degrees (the default is 3.5). -/
def Overlapping (code : String) (ov : ℝ) : Prop := (code = "TAN" ∧ 0 ≤ ov ∧ ov ≤ 90) ∨ (code = "STG" ∧ 3 ≤ ov ∧ ov ≤ 180)

/-- C60: every tract of a dodecahedral sky map contains its whole inner region, whatever the orientation of the dodecahedron, the rotation
of the pixels and the pixel scale. -/
theorem C60_inner (hov : Overlapping code ov) (he : env.Ok) (ht0 : 0 < tiny) (ht1 : tiny ≤ 1 / 10) (ho : o.Ok)
    (hf : WcsFactory.new scale code θ flipX = .ok f) (hs : 0 < scale) (hl : tracts tiny (f.makeWcs other ⟨0, 0⟩) o w ov = .ok (D, l))
    (hx : 0 < b₀.patchInnerDimensions.x) (hy : 0 < b₀.patchInnerDimensions.y) (hb : EagerSkyMap.buildAll env sphereOps l 0 b₀ = .ok (ts, b))
    {t : TractRef (SpherePoint ℝ) ℝ} (ht : t ∈ ts) (p : SpherePoint ℝ)
    (hp : InCone (t.info.vertexCoordList.map SpherePoint.getVector) p.getVector) : t.info.contains p = true := by
  have hpi := pi_pos
  obtain ⟨k, hk⟩ := List.mem_iff_getElem?.1 ht
  obtain ⟨a, b', hak, hnew⟩ := EagerSkyMap.buildAll_fresh hb hk
  obtain ⟨hD, -, hargs⟩ := args_ok ht0 ht1 ho hl
  obtain ⟨cs, -, h1, h2, h3, h4, h5, h6⟩ := hargs hak
  have hcs : t.info.vertexCoordList = cs := by
    unfold TractInfo.new at hnew
    obtain ⟨mb, -, g⟩ := bindOk hnew
    obtain ⟨r, -, g⟩ := bindOk g
    simp only [pure, Except.pure, Except.ok.injEq, Prod.mk.injEq] at g
    rw [← g.1, h1]
  rw [hcs] at hp
  rcases hov with ⟨rfl, o1, o2⟩ | ⟨rfl, o1, o2⟩
  · exact tan_covers he hnew hx hy hf hs h6 h1 h2 (fun v hv => vertex_face ho hD h3 h4 (List.mem_map_of_mem hv)) (by rw [h5]; positivity)
      (by rw [h5]; nlinarith) hp
  · exact stg_covers ho hD he hnew hx hy hf hs h6 h1 h2 h3 h4 (by rw [h5]; nlinarith) (by rw [h5]; nlinarith) hp

/-- C60: a dodecahedral sky map contains every position of the sky: the tract that `findTract` returns contains the position. -/
theorem C60_findTract (hov : Overlapping code ov) (he : env.Ok) (ht0 : 0 < tiny) (ht1 : tiny ≤ 1 / 10) (ho : o.Ok)
    (hf : WcsFactory.new scale code θ flipX = .ok f) (hs : 0 < scale) (hl : tracts tiny (f.makeWcs other ⟨0, 0⟩) o w ov = .ok (D, l))
    (hx : 0 < b₀.patchInnerDimensions.x) (hy : 0 < b₀.patchInnerDimensions.y) (hb : EagerSkyMap.buildAll env sphereOps l 0 b₀ = .ok (ts, b))
    (p : SpherePoint ℝ) : ∃ t, findTract D (EagerSkyMap.skyMapOps ts) p b = (.ok t, b) ∧
      BaseSkyMap.findTract sphereOps (EagerSkyMap.skyMapOps ts) p b = (.ok t, b) ∧ t.info.contains p = true := by
  obtain ⟨k, t, h1, h2, h3, h4, -⟩ := C36_findTract (ops := sphereOps) (fun _ _ => rfl) ht0 ht1 ho hl hx hy hb p
  exact ⟨t, h1, h2, C60_inner hov he ht0 ht1 ho hf hs hl hx hy hb (List.mem_of_getElem? h3) p h4⟩

/-- C60: and such a sky map can be built, with STG also for smaller overlaps. -/
theorem C60_builds (hov : (code = "TAN" ∧ 0 ≤ ov ∧ ov ≤ 90) ∨ (code = "STG" ∧ 0 ≤ ov ∧ ov ≤ 180)) (ht0 : 0 < tiny) (ht1 : tiny ≤ 1 / 10) (ho : o.Ok)
    (hf : WcsFactory.new scale code θ flipX = .ok f) (hs : 0 < scale)
    (hx : 0 < b₀.patchInnerDimensions.x) (hy : 0 < b₀.patchInnerDimensions.y) :
    ∃ D l ts b, tracts tiny (f.makeWcs other ⟨0, 0⟩) o w ov = .ok (D, l) ∧ EagerSkyMap.buildAll env sphereOps l 0 b₀ = .ok (ts, b) := by
  have hpi := pi_pos
  obtain ⟨D, -, hD, -⟩ := C37_regular ho w
  have hex : ∃ l, pyMapM (tract tiny (f.makeWcs other ⟨0, 0⟩) D (ov * (π / 180))) (pyRange 0 12) = .ok l := by
    have hone : ∀ i ∈ pyRange 0 12, ∃ a, tract tiny (f.makeWcs other ⟨0, 0⟩) D (ov * (π / 180)) i = .ok a := by
      intro i hi
      unfold pyRange at hi
      obtain ⟨k, hk, rfl⟩ := List.mem_map.1 hi
      obtain ⟨a, f', vs, cs, h1, -⟩ := tract_ok (mk := f.makeWcs other ⟨0, 0⟩) (ov := ov * (π / 180)) ht0 ht1 ho hD k (by simpa using hk)
      exact ⟨a, by simpa using h1⟩
    generalize pyRange 0 12 = L at hone
    induction L with
    | nil => exact ⟨[], rfl⟩
    | cons i L ih =>
      obtain ⟨a, ha⟩ := hone i (by simp)
      obtain ⟨l, hl⟩ := ih fun i hi => hone i (by simp [hi])
      exact ⟨a :: l, by simp only [pyMapM, ha, hl]⟩
  obtain ⟨l, hl2⟩ := hex
  have htr : tracts tiny (f.makeWcs other ⟨0, 0⟩) o w ov = .ok (D, l) := by
    unfold tracts
    simp only [bind, Except.bind, hD, hl2]
    rfl
  obtain ⟨-, -, hargs⟩ := args_ok ht0 ht1 ho htr
  obtain ⟨ts, b, h3⟩ := EagerSkyMap.buildAll_total env sphereOps l 0 b₀ hx hy (by
    intro a ha c hc
    obtain ⟨k, hk⟩ := List.mem_iff_getElem?.1 ha
    obtain ⟨cs, -, h1, h2, h3, h4, h5, h6⟩ := hargs hk
    obtain ⟨X, Y, -, -, -, -, -, key⟩ := pixel_axes a.ctrCoord θ flipX
    have hC : ∀ v ∈ cs, a.ctrCoord.getVector ⬝ᵥ v.getVector = cosV := fun v hv => vertex_face ho hD h3 h4 (List.mem_map_of_mem hv)
    rw [h6]
    rcases hov with ⟨rfl, o1, o2⟩ | ⟨rfl, o1, o2⟩
    · exact ⟨_, key (P := .TAN) hf hs rfl c ((sample_reach h1 hC (by rw [h5]; positivity) (by rw [h5]; nlinarith) hc).2 (by rw [h5]; nlinarith))⟩
    · exact ⟨_, key (P := .STG) hf hs rfl c (sample_reach h1 hC (by rw [h5]; positivity) (by rw [h5]; nlinarith) hc).1⟩)
  exact ⟨D, l, ts, b, htr, h3⟩


/-- A face has a neighbour. -/
theorem neighbour (ho : o.Ok) (hD : Dodecahedron.new o w = .ok D) {f : Vec3} (hf : f ∈ D.faceVecList) :
    ∃ f' ∈ D.faceVecList, f' ⬝ᵥ f = 1 / √5 := by
  obtain ⟨M, P, hM, hP, hD', -⟩ := Dodeca.new_spec ho w
  rw [hD, Except.ok.injEq] at hD'
  subst hD'
  obtain ⟨i, hi, rfl⟩ := List.mem_map.1 hf
  have hi12 := (mem_range_perm hP).1 hi
  have : ∀ i < 12, ∃ j < 12, j ≠ i ∧ j ∈ adj i := by decide +kernel
  obtain ⟨j, hj, hne, hadj⟩ := this i hi12
  refine ⟨M *ᵥ face j, List.mem_map.2 ⟨j, (mem_range_perm hP).2 hj, rfl⟩, ?_⟩
  rw [hM.dot, face_val hi12 hj hne, if_pos hadj, face_value]

/-- The centre of a tract does not depend on the projection or the overlap. -/
theorem centre_fixed (tiny : ℝ) (D : Dodecahedron) (k : ℤ) : ∃ c : SpherePoint ℝ, ∀ mk ov a, tract tiny mk D ov k = .ok a → a.ctrCoord = c := by
  by_cases hex : ∃ mk ov a, tract tiny mk D ov k = .ok a
  · obtain ⟨mk, ov, a, h⟩ := hex
    refine ⟨a.ctrCoord, fun mk' ov' a' h' => ?_⟩
    unfold tract at h h'
    obtain ⟨x1, e1, h⟩ := bindOk h
    obtain ⟨x2, e2, h⟩ := bindOk h
    obtain ⟨x3, e3, h⟩ := bindOk h
    obtain ⟨x4, e4, h⟩ := bindOk h
    obtain ⟨y1, i1, h'⟩ := bindOk h'
    obtain ⟨y2, i2, h'⟩ := bindOk h'
    obtain ⟨y3, i3, h'⟩ := bindOk h'
    obtain ⟨y4, i4, h'⟩ := bindOk h'
    rw [e1, Except.ok.injEq] at i1
    subst i1
    rw [e2, Except.ok.injEq] at i2
    subst i2
    simp only [pure, Except.pure, Except.ok.injEq] at h h'
    rw [← h, ← h']
  · exact ⟨⟨0, 0⟩, fun mk ov a h => absurd ⟨mk, ov, a, h⟩ hex⟩

/-- The point of the sky in the direction of a vector. -/
theorem exists_point {u : Vec3} (hu : u ⬝ᵥ u = 1) : ∃ p : SpherePoint ℝ, p.getVector = u := by
  obtain ⟨p, -, h⟩ := SpherePoint.ofVector_unit hu
  exact ⟨p, h⟩

/-- C60: the overlap is needed with the stereographic projection.  Without it there is for every tract a rotation of the pixels for which the
tract does not contain some position that `findTract` finds in it (unless its patches are so large that the excess beyond the inner region
covers it). -/
theorem C60_no_overlap_gap (ht0 : 0 < tiny) (ht1 : tiny ≤ 1 / 10) (ho : o.Ok) (hD : Dodecahedron.new o w = .ok D) {k : ℕ} (hk : k < 12) :
    ∃ (θ : ℝ) (p : SpherePoint ℝ), ∀ {env b₀ b scale flipX f other l ts}, env.Ok → WcsFactory.new scale "STG" θ flipX = .ok f → 0 < scale →
      tracts tiny (f.makeWcs other ⟨0, 0⟩) o w 0 = .ok (D, l) → 0 < b₀.patchInnerDimensions.x → 0 < b₀.patchInnerDimensions.y →
      EagerSkyMap.buildAll env sphereOps l 0 b₀ = .ok (ts, b) → scale * ((b₀.patchInnerDimensions.y : ℝ) / 2 + 2) ≤ 0.006 →
      ∃ t, ts[k]? = some t ∧ findTract D (EagerSkyMap.skyMapOps ts) p b = (.ok t, b) ∧ t.info.contains p = false := by
  have h5 : √5 ^ 2 = 5 := sq_sqrt (by norm_num)
  have hg : (2.236 : ℝ) < √5 := lt_sqrt_of_sq_lt (by norm_num)
  have hg' : √5 < 2.2361 := (sqrt_lt' (by norm_num)).2 (by norm_num)
  have i5 : 1 / √5 = √5 / 5 := by field_simp; linarith
  obtain ⟨c, hc⟩ := centre_fixed tiny D k
  obtain ⟨a₀, f₀, vs, cs, g1, -, g2, g3, g4, -⟩ := tract_ok (mk := fun _ => ⟨fun _ => .pix ⟨0, 0⟩, fun _ => ⟨0, 0⟩⟩) (ov := 0) ht0 ht1 ho hD k hk
  rw [hc _ _ _ g1] at g3
  subst g3
  obtain ⟨n, hn, hnc⟩ := neighbour ho hD (List.mem_of_getElem? g2)
  rw [i5] at hnc
  have nn := unit_vectors ho hD n (.inl hn)
  set U : Vec3 := (√5 / 2) • n - (1 / 2 : ℝ) • c.getVector with hU
  have hUd : ∀ X, U ⬝ᵥ X = √5 / 2 * (n ⬝ᵥ X) - 1 / 2 * (c.getVector ⬝ᵥ X) := by
    intro X; rw [hU, sub_dotProduct, smul_dotProduct, smul_dotProduct, smul_eq_mul, smul_eq_mul]
  have u2 : U ⬝ᵥ c.getVector = 0 := by
    rw [hUd, hnc, c.vec_unit]; linear_combination h5 / 10
  have u1 : U ⬝ᵥ U = 1 := by
    rw [hUd, dotProduct_comm n U, hUd, dotProduct_comm _ U, u2, nn, dotProduct_comm _ n, hnc]; linear_combination h5 / 5
  -- the rotation
  have hfr := c.frame_dot U U
  rw [u1, u2] at hfr
  obtain ⟨θ, hθc, hθs⟩ : ∃ θ : ℝ, cos θ = U ⬝ᵥ c.northVec ∧ sin θ = U ⬝ᵥ c.eastVec := by
    refine ⟨Complex.arg ⟨U ⬝ᵥ c.northVec, U ⬝ᵥ c.eastVec⟩, ?_, ?_⟩
    · have hn1 : ‖(⟨U ⬝ᵥ c.northVec, U ⬝ᵥ c.eastVec⟩ : ℂ)‖ = 1 := by
        rw [Complex.norm_eq_sqrt_sq_add_sq]; simp only; rw [show (U ⬝ᵥ c.northVec) ^ 2 + (U ⬝ᵥ c.eastVec) ^ 2 = 1 by linarith, sqrt_one]
      have := Complex.norm_mul_cos_arg ⟨U ⬝ᵥ c.northVec, U ⬝ᵥ c.eastVec⟩
      rw [hn1, one_mul] at this; exact this
    · have hn1 : ‖(⟨U ⬝ᵥ c.northVec, U ⬝ᵥ c.eastVec⟩ : ℂ)‖ = 1 := by
        rw [Complex.norm_eq_sqrt_sq_add_sq]; simp only; rw [show (U ⬝ᵥ c.northVec) ^ 2 + (U ⬝ᵥ c.eastVec) ^ 2 = 1 by linarith, sqrt_one]
      have := Complex.norm_mul_sin_arg ⟨U ⬝ᵥ c.northVec, U ⬝ᵥ c.eastVec⟩
      rw [hn1, one_mul] at this; exact this
  have hYd : ∀ X : Vec3, (sin θ • c.eastVec + cos θ • c.northVec) ⬝ᵥ X = U ⬝ᵥ X := by
    intro X
    rw [c.frame_dot U X, u2, add_dotProduct, smul_dotProduct, smul_dotProduct, hθc, hθs, dotProduct_comm _ X, dotProduct_comm _ X]
    simp only [smul_eq_mul]; ring
  -- the position
  have q136 : √1.36 ^ 2 = (1.36 : ℝ) := sq_sqrt (by norm_num)
  have q0 : (1.1661 : ℝ) < √1.36 := lt_sqrt_of_sq_lt (by norm_num)
  have q1 : √(1.36 : ℝ) < 1.1662 := (sqrt_lt' (by norm_num)).2 (by norm_num)
  obtain ⟨p, hp⟩ := exists_point (u := (√1.36)⁻¹ • (c.getVector + (0.6 : ℝ) • U)) (by
    simp only [smul_dotProduct, dotProduct_smul, add_dotProduct, dotProduct_add, smul_eq_mul, c.vec_unit, u1, u2, dotProduct_comm c.getVector U]
    have : √(1.36 : ℝ) ≠ 0 := by linarith
    field_simp
    rw [q136]; norm_num)
  have hpd : ∀ X : Vec3, X ⬝ᵥ p.getVector = (√1.36)⁻¹ * (X ⬝ᵥ c.getVector + 0.6 * (U ⬝ᵥ X)) := by
    intro X
    rw [hp, dotProduct_smul, dotProduct_add, dotProduct_smul, dotProduct_comm X U, smul_eq_mul, smul_eq_mul]
  have hzp : c.getVector ⬝ᵥ p.getVector = (√1.36)⁻¹ := by rw [hpd, c.vec_unit, u2]; ring
  have hup : U ⬝ᵥ p.getVector = 0.6 * (√1.36)⁻¹ := by rw [hpd, u1, u2]; ring
  have r0 : 0.857 < (√(1.36 : ℝ))⁻¹ := by rw [lt_inv_comm₀ (by norm_num) (by linarith)]; refine q1.trans ?_; norm_num
  -- the face is strictly nearest
  have strict : ∀ f' ∈ D.faceVecList, f' ≠ c.getVector → f' ⬝ᵥ p.getVector < c.getVector ⬝ᵥ p.getVector := by
    intro f' hf' hne
    have l1 := faces_apart ho hD (List.mem_of_getElem? g2) hf' hne
    have l2 := tangent_bound c u2 f'
    rw [u1, unit_vectors ho hD f' (.inl hf'), one_mul] at l2
    rw [hzp, hpd]
    set x := f' ⬝ᵥ c.getVector
    set y := U ⬝ᵥ f'
    rw [i5] at l1
    have l3 : x + 0.6 * y < 1 := by
      nlinarith [sq_nonneg (0.6 * x - y), sq_nonneg (x - √5 / 5), sq_nonneg (y - 2 * √5 / 5)]
    have : 0 < (√(1.36 : ℝ))⁻¹ := by linarith
    nlinarith
  refine ⟨θ, p, ?_⟩
  intro env b₀ b scale flipX f other l ts he hf hs hl hx hy hb hpatch
  obtain ⟨-, hlen, htr⟩ := C36_tracts ht0 ht1 ho hl hx hy hb
  obtain ⟨j, t, e1, -, e2, e3, -⟩ := C36_findTract (ops := sphereOps) (fun _ _ => rfl) ht0 ht1 ho hl hx hy hb p
  have hj : j < 12 := by rw [← hlen]; exact (List.getElem?_eq_some_iff.1 e2).1
  obtain ⟨t', e4, -, e5, e6⟩ := htr j hj
  rw [e2, Option.some.injEq] at e4
  subst e4
  have hjk : j = k := by
    have h1 := (face_cone ho hD e5 e6 _).1 e3 _ (List.mem_of_getElem? g2)
    have h2 : t.info.ctrCoord.getVector = c.getVector := by
      by_contra hne
      exact absurd h1 (not_le.2 (strict _ (List.mem_of_getElem? e5) hne))
    have hnd : D.faceVecList.Nodup := by
      obtain ⟨D', M, hD', -, -, -, h, -⟩ := C37_regular ho w
      rw [hD, Except.ok.injEq] at hD'
      rw [hD']; exact h
    rw [h2] at e5
    obtain ⟨a1, a2⟩ := List.getElem?_eq_some_iff.1 e5
    obtain ⟨b1, b2⟩ := List.getElem?_eq_some_iff.1 g2
    exact (hnd.getElem_inj_iff (hi := a1) (hj := b1)).1 (a2.trans b2.symm)
  subst hjk
  refine ⟨t, e2, e1, ?_⟩
  by_contra hcon
  rw [Bool.not_eq_false] at hcon
  obtain ⟨a, b', hak, hnew⟩ := EagerSkyMap.buildAll_fresh hb e2
  obtain ⟨-, -, hargs⟩ := args_ok ht0 ht1 ho hl
  obtain ⟨cs', d0, d1, d2, d3, d4, d5, d6⟩ := hargs hak
  have hac := hc _ _ _ d0
  obtain ⟨X, Y, -, -, -, -, hY, key⟩ := pixel_axes c θ flipX
  rw [hac] at d6
  have hq := key (P := .STG) (other := other) hf hs rfl p (by simp only [Projection.Reaches]; rw [hzp]; linarith)
  rw [← d6] at hq
  obtain ⟨-, -, -, ⟨s, m, r, hr, hlt⟩⟩ := TractInfo.contains_bound he hnew hx hy hq hcon
  have hov0 : a.tractOverlap = 0 := by rw [d5]; ring
  rw [C12_sample_points] at m
  rcases m with ⟨l', m1, -, m2⟩ | ⟨l', -, m1, -⟩ | ⟨r', m1, -⟩
  · rw [d1, TractShape.vertices.injEq] at m1
    subst m1
    rw [hac] at d3
    have hsv : c.getVector ⬝ᵥ s.getVector = cosV := vertex_face ho hD d3 d4 (List.mem_map_of_mem m2)
    have hsn : n ⬝ᵥ s.getVector ≤ cosV := by
      rw [← hsv]
      exact (face_cone ho hD d3 d4 _).1 (InCone.mem (List.mem_map_of_mem m2)) n hn
    have k0 := cosV_lo
    have k1 := cosV_hi
    have hr2 := key (P := .STG) (other := other) hf hs rfl s (by simp only [Projection.Reaches]; rw [hsv]; linarith)
    rw [← d6, hr, PixRes.pix.injEq] at hr2
    subst hr2
    simp only [Projection.along, hY, hYd, hsv, hzp, hup] at hlt
    have hus : U ⬝ᵥ s.getVector ≤ 0.6181 * cosV := by
      rw [hUd, hsv]
      have w1 : √5 / 2 * (n ⬝ᵥ s.getVector) ≤ √5 / 2 * cosV := mul_le_mul_of_nonneg_left hsn (by linarith)
      have w2 : √5 / 2 * cosV ≤ 2.2361 / 2 * cosV := mul_le_mul_of_nonneg_right (by linarith) (by linarith)
      linarith
    have v1 : 2 * (U ⬝ᵥ s.getVector) / (1 + cosV) ≤ 0.5475 := by
      rw [div_le_iff₀ (by linarith)]; linarith
    have v2 : 0.5536 ≤ 2 * (0.6 * (√(1.36 : ℝ))⁻¹) / (1 + (√1.36)⁻¹) := by
      rw [le_div_iff₀ (by linarith)]; linarith
    rw [add_assoc, div_lt_iff₀ hs, add_mul, div_mul_cancel₀ _ hs.ne'] at hlt
    linarith
  · exact m1 hov0
  · rw [d1] at m1; simp at m1


/-- C60 is not vacuous: with the default configuration (STG, overlap of 3.5 degrees, 0.2 arcsec pixels, patches of 4000 pixels with a border of
250) and a rotation of 1 radian the sky map is built and contains every position; and without the overlap it is built too, and there is a
rotation for which tract 3 does not contain a position that is found in it. -/
example (other) : (∃ f D l ts b, WcsFactory.new (0.2 / 3600 * (π / 180)) "STG" 1 false = .ok f ∧
      tracts (1 / 1000) (f.makeWcs other ⟨0, 0⟩) ascending false 3.5 = .ok (D, l) ∧
      EagerSkyMap.buildAll Ex.realEnv sphereOps l 0 ⟨.legacy, ⟨4000, 4000⟩, 250, none⟩ = .ok (ts, b) ∧
      ∀ p, ∃ t, findTract D (EagerSkyMap.skyMapOps ts) p b = (.ok t, b) ∧ t.info.contains p = true) ∧
    (∃ θ f D l ts b p t, WcsFactory.new (0.2 / 3600 * (π / 180)) "STG" θ false = .ok f ∧
      tracts (1 / 1000) (f.makeWcs other ⟨0, 0⟩) ascending false 0 = .ok (D, l) ∧
      EagerSkyMap.buildAll Ex.realEnv sphereOps l 0 ⟨.legacy, ⟨4000, 4000⟩, 250, none⟩ = .ok (ts, b) ∧
      ts[3]? = some t ∧ findTract D (EagerSkyMap.skyMapOps ts) p b = (.ok t, b) ∧ t.info.contains p = false) := by
  have hp := pi_pos
  have hs : (0 : ℝ) < 0.2 / 3600 * (π / 180) := by positivity
  constructor
  · obtain ⟨f, hf⟩ := (WcsFactory.C56_projection_length (0.2 / 3600 * (π / 180)) "STG" 1 false).2 rfl
    obtain ⟨D, l, ts, b, h1, h2⟩ := C60_builds (other := other) (tiny := 1 / 1000) (o := ascending) (w := false) (ov := 3.5)
      (env := Ex.realEnv) (b₀ := ⟨.legacy, ⟨4000, 4000⟩, 250, none⟩) (.inr ⟨rfl, by norm_num, by norm_num⟩) (by norm_num) (by norm_num)
      ascending_ok hf hs (by decide) (by decide)
    refine ⟨f, D, l, ts, b, hf, h1, h2, fun p => ?_⟩
    obtain ⟨t, g1, -, g2⟩ := C60_findTract (other := other) (.inr ⟨rfl, by norm_num, by norm_num⟩) Ex.realEnv_ok (by norm_num) (by norm_num)
      ascending_ok hf hs h1 (by decide) (by decide) h2 p
    exact ⟨t, g1, g2⟩
  · obtain ⟨D, -, hD, -⟩ := C37_regular ascending_ok false
    obtain ⟨θ, p, key⟩ := C60_no_overlap_gap (tiny := 1 / 1000) (by norm_num) (by norm_num) ascending_ok hD (k := 3) (by norm_num)
    obtain ⟨f, hf⟩ := (WcsFactory.C56_projection_length (0.2 / 3600 * (π / 180)) "STG" θ false).2 rfl
    obtain ⟨D', l, ts, b, h1, h2⟩ := C60_builds (other := other) (tiny := 1 / 1000) (o := ascending) (w := false) (ov := 0)
      (env := Ex.realEnv) (b₀ := ⟨.legacy, ⟨4000, 4000⟩, 250, none⟩) (.inr ⟨rfl, by norm_num, by norm_num⟩) (by norm_num) (by norm_num)
      ascending_ok hf hs (by decide) (by decide)
    obtain rfl : D' = D := by
      have := (args_ok (by norm_num) (by norm_num) ascending_ok h1).1
      rw [hD, Except.ok.injEq] at this
      exact this.symm
    have hpi := pi_lt_d2
    obtain ⟨t, e1, e2, e3⟩ := key Ex.realEnv_ok hf hs h1 (by decide) (by decide) h2 (by norm_num; nlinarith)
    exact ⟨θ, f, D', l, ts, b, p, t, hf, h1, h2, e1, e2, e3⟩

end DodecaSkyMap
end Skymap
