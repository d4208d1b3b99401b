import Verif.Props.DodecaCover

/-!
# The size of the tracts of a dodecahedral sky map in the stereographic plane

How the pentagon of a face lies in the frame of east and north at its centre, and how far the positions that size the tract are out.
-/

namespace Skymap
namespace DodecaSkyMap
open Real Matrix Dodeca Dodecahedron

/-- The determinant of three vectors over ℤ[g]. -/
def detZ (a b c : Z3) : Zg :=
  mulZ (a 0) (mulZ (b 1) (c 2) + mulZ (-1, 0) (mulZ (b 2) (c 1))) + mulZ (a 1) (mulZ (b 2) (c 0) + mulZ (-1, 0) (mulZ (b 0) (c 2))) +
    mulZ (a 2) (mulZ (b 0) (c 1) + mulZ (-1, 0) (mulZ (b 1) (c 0)))

/-- The determinant of three vectors. -/
def det3 (a b c : Vec3) : ℝ := a 0 * (b 1 * c 2 - b 2 * c 1) + a 1 * (b 2 * c 0 - b 0 * c 2) + a 2 * (b 0 * c 1 - b 1 * c 0)

theorem det_toVec (a b c : Z3) : det3 (toVec a) (toVec b) (toVec c) = ev (detZ a b c) := by
  simp only [det3, detZ, toVec, ev_add, ev_mul]
  simp only [ev]
  push_cast
  ring

theorem det3_smul (x y z : ℝ) (a b c : Vec3) : det3 (x • a) (y • b) (z • c) = x * y * z * det3 a b c := by
  simp only [det3, Pi.smul_apply, smul_eq_mul]; ring

theorem det3_rot {M : Matrix (Fin 3) (Fin 3) ℝ} (hM : IsRotation M) (a b c : Vec3) : det3 (M *ᵥ a) (M *ᵥ b) (M *ᵥ c) = det3 a b c := by
  have h := hM.2
  rw [Matrix.det_fin_three] at h
  simp only [det3, Matrix.mulVec, dotProduct, Fin.sum_univ_three]
  linear_combination (a 0 * (b 1 * c 2 - b 2 * c 1) + a 1 * (b 2 * c 0 - b 0 * c 2) + a 2 * (b 0 * c 1 - b 1 * c 0)) * h

/-- Every face has a vertex on the great circle through its centre and any vertex. -/
theorem det_vertex : ∀ t0 ∈ triples, ∀ i < 12, ∃ t ∈ five i, detZ (vertZ t0) (faceZ i) (vertZ t) = (0, 0) := by decide +kernel

/-- Every face has a vertex on the great circle through its centre and face 0. -/
theorem det_face : ∀ i < 12, ∃ t ∈ five i, detZ (faceZ 0) (faceZ i) (vertZ t) = (0, 0) := by decide +kernel

/-- Face 0 and the opposite face have a vertex on the great circle through face 0 and any of its neighbours. -/
theorem det_polar : ∀ j ∈ adj 0, ∀ i < 12, dotZ (faceZ i) (faceZ 0) = (2, 1) ∨ dotZ (faceZ i) (faceZ 0) = (-2, -1) →
    ∃ t ∈ five i, detZ (faceZ 0) (faceZ j) (vertZ t) = (0, 0) := by decide +kernel

/-- Every vertex of a face has two neighbours in the face, -/
theorem two_near : ∀ i < 12, ∀ t ∈ five i, ∃ t1 ∈ five i, ∃ t2 ∈ five i, dotZ (vertZ t1) (vertZ t) = (4, 7) ∧
    dotZ (vertZ t2) (vertZ t) = (4, 7) ∧ dotZ (vertZ t1) (vertZ t2) = (2, 3) := by decide +kernel

/-- and another vertex of the face that is not a neighbour. -/
theorem one_far : ∀ i < 12, ∀ t ∈ five i, ∃ t1 ∈ five i, dotZ (vertZ t1) (vertZ t) = (2, 3) := by decide +kernel

theorem det_zero {M : Matrix (Fin 3) (Fin 3) ℝ} (hM : IsRotation M) {x y z : ℝ} {a b c : Z3} (h : detZ a b c = (0, 0)) :
    det3 (M *ᵥ (x • toVec a)) (M *ᵥ (y • toVec b)) (M *ᵥ (z • toVec c)) = 0 := by
  rw [det3_rot hM, det3_smul, det_toVec, h]
  simp [ev]

/-- East is at right angles to the plane through the pole and the position. -/
theorem east_det (c : SpherePoint ℝ) (v : Vec3) : det3 ![0, 0, 1] c.getVector v = cos c.lat * (c.eastVec ⬝ᵥ v) := by
  simp only [det3, SpherePoint.eastVec, SpherePoint.getVector, dotProduct, Fin.sum_univ_three, Matrix.cons_val_zero, Matrix.cons_val_one,
    Matrix.cons_val]
  ring

variable {o : SetOrder} {w : Bool} {D : Dodecahedron} {tiny ov : ℝ} {mk : SpherePoint ℝ → Wcs (SpherePoint ℝ) ℝ}

/-- A tract at a pole has its centre at longitude zero. -/
theorem polar_lon (ht0 : 0 < tiny) {k : ℕ} {a : TractArgs (SpherePoint ℝ) ℝ} {f : Vec3} (hf : D.faceVecList[k]? = some f)
    (ha : tract tiny mk D ov k = .ok a) (h0 : f 0 = 0) (h1 : f 1 = 0) : a.ctrCoord.lon = 0 := by
  unfold tract at ha
  obtain ⟨f', e1, ha⟩ := bindOk ha
  obtain ⟨c, e2, ha⟩ := bindOk ha
  obtain ⟨vs, -, ha⟩ := bindOk ha
  obtain ⟨cs, -, ha⟩ := bindOk ha
  simp only [pure, Except.pure, Except.ok.injEq] at ha
  unfold getFaceCtr at e1
  have : f' = f := by
    have := CachingSkyMap.pyGetItem_nat hf
    rw [e1] at this
    simpa using this
  subst this
  unfold coordFromVec Skymap.coordFromVec at e2
  simp only [h0, h1, abs_zero, ht0, and_self, if_true] at e2
  rw [← ha]
  dsimp only
  split_ifs at e2 <;> (rw [Except.ok.injEq] at e2; rw [← e2])

/-- Every tract has a vertex due north or due south of its centre. -/
theorem vertical (ht0 : 0 < tiny) (ho : o.Ok) (hD : Dodecahedron.new o w = .ok D) {k : ℕ}
    {a : TractArgs (SpherePoint ℝ) ℝ} {vs : List Vec3} (ha : tract tiny mk D ov k = .ok a)
    (hf : D.faceVecList[k]? = some a.ctrCoord.getVector) (hvs : D.getVertices k = .ok vs) : ∃ v ∈ vs, a.ctrCoord.eastVec ⬝ᵥ v = 0 := by
  have step : ∀ {M : Matrix (Fin 3) (Fin 3) ℝ} {P : List ℕ}, IsRotation M → P.Perm (List.range 12) →
      D = ⟨w, (vertexOrder o).map fun t => M *ᵥ vtx t, P.map fun i => M *ᵥ face i⟩ → ∃ i < 12, a.ctrCoord.getVector = M *ᵥ face i ∧
        ∀ t ∈ five i, M *ᵥ vtx t ∈ vs := by
    intro M P hM hP e
    subst e
    dsimp only at hf
    rw [List.getElem?_map, Option.map_eq_some_iff] at hf
    obtain ⟨i, hi, hc⟩ := hf
    have hi12 : i < 12 := (mem_range_perm hP).1 (List.mem_of_getElem? hi)
    obtain ⟨R, hR, -, hget⟩ := getVertices_eq (w := w) ho hM hi hi12
    rw [hvs, Except.ok.injEq] at hget
    subst hget
    exact ⟨i, hi12, hc.symm, fun t ht => List.mem_map_of_mem (hR.mem_iff.2 ht)⟩
  cases w with
  | false =>
    obtain ⟨M, P, hM, hP, hD', -, t0, ht0', hpole, -⟩ := new_vertices ho
    rw [hD, Except.ok.injEq] at hD'
    obtain ⟨i, hi, hc, hmem⟩ := step hM hP hD'
    obtain ⟨t, ht, hdet⟩ := det_vertex t0 ht0' i hi
    refine ⟨_, hmem t ht, ?_⟩
    have h0 : det3 ![0, 0, 1] a.ctrCoord.getVector (M *ᵥ vtx t) = 0 := by
      rw [← hpole, hc]; exact det_zero hM hdet
    rw [east_det] at h0
    rcases mul_eq_zero.1 h0 with h | h
    · exfalso
      have e2 : a.ctrCoord.getVector 2 ^ 2 = 1 := by
        have := sin_sq_add_cos_sq a.ctrCoord.lat
        simp only [SpherePoint.getVector, Matrix.cons_val]
        rw [h] at this; linarith
      have e3 : a.ctrCoord.getVector 2 = face i ⬝ᵥ vtx t0 := by
        rw [hc, third hM hpole]
      have hg1 := g_lo
      obtain ⟨n1, n2⟩ := nfv
      have hg2 := g_hi
      rw [e3, vf_dot, vf_cases t0 ht0' i hi] at e2
      set μ := (√(2 + g))⁻¹ * (√(6 + 9 * g))⁻¹
      have bound : ∀ y : ℝ, |y| ≤ 6.86 → (μ * y) ^ 2 ≠ 1 := by
        intro y hy h
        have : (μ * y) ^ 2 ≤ (0.117 * 6.86) ^ 2 := by
          rw [← sq_abs, abs_mul, abs_of_pos (by linarith)]
          gcongr
        norm_num at this
        linarith
      refine bound _ ?_ e2
      split_ifs <;> simp only [ev] <;> push_cast <;> rw [abs_le] <;> constructor <;> linarith
    · exact h
  | true =>
    obtain ⟨M, P, hM, hP, hD', -, hpole, j, hj, x, z, hx, hjx⟩ := new_faces ho
    rw [hD, Except.ok.injEq] at hD'
    obtain ⟨i, hi, hc, hmem⟩ := step hM hP hD'
    have hg : 0 < 2 + g := by linarith [g_lo]
    have hz : a.ctrCoord.getVector 2 = face i ⬝ᵥ face 0 := by rw [hc, third hM hpole]
    by_cases hp : dotZ (faceZ i) (faceZ 0) = (2, 1) ∨ dotZ (faceZ i) (faceZ 0) = (-2, -1)
    · obtain ⟨t, ht, hdet⟩ := det_polar j hj i hi hp
      refine ⟨_, hmem t ht, ?_⟩
      have hz2 : a.ctrCoord.getVector 2 ^ 2 = 1 := by
        rw [hz, face_dot]
        rcases hp with h | h <;> rw [h] <;> simp only [ev] <;> push_cast
        · rw [one_mul, div_self hg.ne']; norm_num
        · rw [show (-2 + -1 * g) / (2 + g) = -1 by field_simp; ring]; norm_num
      have hu : a.ctrCoord.getVector 0 ^ 2 + a.ctrCoord.getVector 1 ^ 2 + a.ctrCoord.getVector 2 ^ 2 = 1 := by
        have := a.ctrCoord.vec_unit
        rw [← this]; simp only [dotProduct, Fin.sum_univ_three]; ring
      have h0 : a.ctrCoord.getVector 0 = 0 := by
        have := sq_nonneg (a.ctrCoord.getVector 0)
        have := sq_nonneg (a.ctrCoord.getVector 1)
        exact pow_eq_zero_iff (two_ne_zero) |>.1 (by linarith)
      have h1 : a.ctrCoord.getVector 1 = 0 := by
        have := sq_nonneg (a.ctrCoord.getVector 0)
        have := sq_nonneg (a.ctrCoord.getVector 1)
        exact pow_eq_zero_iff (two_ne_zero) |>.1 (by linarith)
      have hlon := polar_lon ht0 hf ha h0 h1
      have hd : det3 ![0, 0, 1] ![x, 0, z] (M *ᵥ vtx t) = 0 := by rw [← hpole, ← hjx]; exact det_zero hM hdet
      simp only [det3, Matrix.cons_val_zero, Matrix.cons_val_one, Matrix.cons_val] at hd
      have hv1 : (M *ᵥ vtx t) 1 = 0 := by
        have : x * (M *ᵥ vtx t) 1 = 0 := by linarith
        exact (mul_eq_zero.1 this).resolve_left hx.ne'
      simp only [SpherePoint.eastVec, hlon, dotProduct, Fin.sum_univ_three, Matrix.cons_val_zero, Matrix.cons_val_one, Matrix.cons_val,
        sin_zero, cos_zero, hv1]
      ring
    · obtain ⟨t, ht, hdet⟩ := det_face i hi
      refine ⟨_, hmem t ht, ?_⟩
      have h0 : det3 ![0, 0, 1] a.ctrCoord.getVector (M *ᵥ vtx t) = 0 := by
        rw [← hpole, hc]; exact det_zero hM hdet
      rw [east_det] at h0
      rcases mul_eq_zero.1 h0 with h | h
      · exfalso
        have e2 : a.ctrCoord.getVector 2 ^ 2 = 1 := by
          have := sin_sq_add_cos_sq a.ctrCoord.lat
          simp only [SpherePoint.getVector, Matrix.cons_val]
          rw [h] at this; linarith
        rw [not_or] at hp
        have hi0 : i ≠ 0 := by rintro rfl; exact hp.1 (by decide +kernel)
        have hcase := face_cases 0 (by norm_num) i hi
        rw [if_neg hi0] at hcase
        have hs : (g / (2 + g)) ^ 2 ≤ 1 / 4 := by
          have : g / (2 + g) ≤ 1 / 2 := by rw [div_le_iff₀ hg]; linarith [g_hi]
          have h0 : 0 ≤ g / (2 + g) := by have := g_lo; positivity
          nlinarith
        rw [hz, face_dot] at e2
        split_ifs at hcase with h1 h2
        · rw [hcase] at e2; simp only [ev] at e2; push_cast at e2
          rw [zero_add, one_mul] at e2; linarith
        · rw [hcase] at e2; simp only [ev] at e2; push_cast at e2
          rw [zero_add, neg_one_mul, neg_div, neg_sq] at e2; linarith
        · exact hp.2 hcase
      · exact h

/-- The sine of the angle between the centre of a face and its vertices. -/
noncomputable def sinV : ℝ := √(1 - cosV ^ 2)

theorem sinV_sq : sinV ^ 2 = (10 - 2 * √5) / 15 := by
  unfold sinV
  rw [sq_sqrt, cosV_sq]
  · ring
  · have := cosV_hi; have := cosV_pos; nlinarith

theorem sinV_pos : 0 < sinV := sqrt_pos.2 (by have := cosV_hi; have := cosV_pos; nlinarith)

theorem sqrt5 : 2.236067 < √5 ∧ √5 < 2.236068 :=
  ⟨lt_sqrt_of_sq_lt (by norm_num), (sqrt_lt' (by norm_num)).2 (by norm_num)⟩

/-- How far the two vertices that are opposite to a vertex are from the centre, in the direction away from it. -/
noncomputable def farV : ℝ := 2 * √5 / 15 / sinV

theorem farV_sq : farV ^ 2 = (5 + √5) / 30 := by
  have h5 : √5 ^ 2 = 5 := sq_sqrt (by norm_num)
  unfold farV
  rw [div_pow, sinV_sq, div_eq_iff (by have := sqrt5.2; linarith)]
  linear_combination (1 / 45 : ℝ) * h5

/-- The pentagon of a face that has a vertex due north or south of its centre. -/
theorem frame_pentagon (ho : o.Ok) (hD : Dodecahedron.new o w = .ok D) {k : ℕ} {c : SpherePoint ℝ} {vs : List Vec3}
    (hf : D.faceVecList[k]? = some c.getVector) (hvs : D.getVertices k = .ok vs) (hv0 : ∃ v ∈ vs, c.eastVec ⬝ᵥ v = 0) :
    ∃ σ : ℝ, σ * σ = 1 ∧ (∀ v ∈ vs, (c.eastVec ⬝ᵥ v = 1 / √3 ∨ c.eastVec ⬝ᵥ v = -(1 / √3) ∨ |c.eastVec ⬝ᵥ v| ≤ 0.36) ∧
        (σ * (c.northVec ⬝ᵥ v) = sinV ∨ σ * (c.northVec ⬝ᵥ v) = -farV ∨ |σ * (c.northVec ⬝ᵥ v)| ≤ 0.2)) ∧
      (∃ v ∈ vs, σ * (c.northVec ⬝ᵥ v) = sinV) ∧ (∃ v ∈ vs, σ * (c.northVec ⬝ᵥ v) = -farV) ∧
      (∃ v ∈ vs, c.eastVec ⬝ᵥ v = 1 / √3) ∧ ∃ v ∈ vs, c.eastVec ⬝ᵥ v = -(1 / √3) := by
  have h5 : √5 ^ 2 = 5 := sq_sqrt (by norm_num)
  obtain ⟨l5, u5⟩ := sqrt5
  have hs := sinV_pos
  have hs2 := sinV_sq
  have hk2 := cosV_sq
  have hg : 0 < 6 + 9 * g := by linarith [g_lo]
  -- the vertices of the face
  obtain ⟨M, P, hM, hP, hD', -⟩ := Dodeca.new_spec ho w
  rw [hD, Except.ok.injEq] at hD'
  subst hD'
  have hC : ∀ v ∈ vs, c.getVector ⬝ᵥ v = cosV := fun v hv => vertex_face ho hD hf hvs hv
  dsimp only at hf
  rw [List.getElem?_map, Option.map_eq_some_iff] at hf
  obtain ⟨i, hi, -⟩ := hf
  have hi12 : i < 12 := (mem_range_perm hP).1 (List.mem_of_getElem? hi)
  obtain ⟨R, hR, -, hget⟩ := getVertices_eq (w := w) ho hM hi hi12
  rw [hvs, Except.ok.injEq] at hget
  have hmem : ∀ t ∈ five i, M *ᵥ vtx t ∈ vs := fun t ht => by rw [hget]; exact List.mem_map_of_mem (hR.mem_iff.2 ht)
  have hex : ∀ v ∈ vs, ∃ t ∈ five i, v = M *ᵥ vtx t := by
    intro v hv
    rw [hget] at hv
    obtain ⟨t, ht, rfl⟩ := List.mem_map.1 hv
    exact ⟨t, hR.mem_iff.1 ht, rfl⟩
  have hunit : ∀ v ∈ vs, v ⬝ᵥ v = 1 := by
    intro v hv
    obtain ⟨t, ht, rfl⟩ := hex v hv
    rw [hM.dot, vtx_unit (five_triples ht)]
  have near : ∀ t t', dotZ (vertZ t) (vertZ t') = (4, 7) → (M *ᵥ vtx t) ⬝ᵥ (M *ᵥ vtx t') = √5 / 3 := by
    intro t t' h
    rw [hM.dot, vtx_dot, h, ← edge_value]; simp [ev]
  have far : ∀ t t', dotZ (vertZ t) (vertZ t') = (2, 3) → (M *ᵥ vtx t) ⬝ᵥ (M *ᵥ vtx t') = 1 / 3 := by
    intro t t' h
    rw [hM.dot, vtx_dot, h, div_eq_iff hg.ne']; simp only [ev]; push_cast; ring
  have dots : ∀ u v : Vec3, u ⬝ᵥ v = (c.eastVec ⬝ᵥ u) * (c.eastVec ⬝ᵥ v) + (c.northVec ⬝ᵥ u) * (c.northVec ⬝ᵥ v) +
      (c.getVector ⬝ᵥ u) * (c.getVector ⬝ᵥ v) := by
    intro u v
    rw [c.frame_dot u v]
    simp only [dotProduct_comm u, dotProduct_comm v]
  -- the vertex due north or south
  obtain ⟨v0, hm0, he0⟩ := hv0
  have hn0 : (c.northVec ⬝ᵥ v0) ^ 2 = sinV ^ 2 := by
    have := dots v0 v0
    rw [hunit v0 hm0, he0, hC v0 hm0] at this
    rw [hs2]; linear_combination -this - hk2
  have hnn : c.northVec ⬝ᵥ v0 ≠ 0 := by
    intro h; rw [h] at hn0; have := pow_pos hs 2; linarith
  obtain ⟨σ, hσ, hσ0⟩ : ∃ σ : ℝ, σ * σ = 1 ∧ σ * (c.northVec ⬝ᵥ v0) = sinV := by
    rcases sq_eq_sq_iff_eq_or_eq_neg.1 hn0 with h | h
    · exact ⟨1, by norm_num, by rw [h]; ring⟩
    · exact ⟨-1, by norm_num, by rw [h]; ring⟩
  obtain ⟨t0, ht0, hv0⟩ := hex v0 hm0
  have value : ∀ v ∈ vs, ∀ d, v ⬝ᵥ v0 = d → σ * (c.northVec ⬝ᵥ v) * sinV = d - cosV ^ 2 := by
    intro v hv d hd
    rw [dots, he0, hC v hv, hC v0 hm0] at hd
    rw [← hσ0]
    linear_combination hd + (c.northVec ⬝ᵥ v) * (c.northVec ⬝ᵥ v0) * hσ
  have east : ∀ v ∈ vs, (c.eastVec ⬝ᵥ v) ^ 2 = sinV ^ 2 - (σ * (c.northVec ⬝ᵥ v)) ^ 2 := by
    intro v hv
    have := dots v v
    rw [hunit v hv, hC v hv] at this
    rw [hs2]
    linear_combination -this - hk2 + (c.northVec ⬝ᵥ v) ^ 2 * hσ
  have nearN : ∀ v ∈ vs, v ⬝ᵥ v0 = √5 / 3 → (σ * (c.northVec ⬝ᵥ v)) ^ 2 = (5 - 2 * √5) / 15 := by
    intro v hv hd
    have h := value v hv _ hd
    rw [hk2] at h
    have h2 : (σ * (c.northVec ⬝ᵥ v)) ^ 2 * sinV ^ 2 = ((3 * √5 - 5) / 15) ^ 2 := by
      rw [← mul_pow, h]; ring
    rw [hs2] at h2
    have hpos : (10 - 2 * √5) / 15 ≠ 0 := by linarith
    apply mul_right_cancel₀ hpos
    rw [h2]
    linear_combination (1 / 45 : ℝ) * h5
  have nearE : ∀ v ∈ vs, v ⬝ᵥ v0 = √5 / 3 → (c.eastVec ⬝ᵥ v) ^ 2 = 1 / 3 := by
    intro v hv hd
    rw [east v hv, nearN v hv hd, hs2]; ring
  have farN : ∀ v ∈ vs, v ⬝ᵥ v0 = 1 / 3 → σ * (c.northVec ⬝ᵥ v) = -farV := by
    intro v hv hd
    have h := value v hv _ hd
    rw [hk2] at h
    unfold farV
    rw [← neg_div, eq_div_iff hs.ne', h]; ring
  have h3 : (1 / √3 : ℝ) ^ 2 = 1 / 3 := by rw [div_pow, sq_sqrt (by norm_num)]; norm_num
  have nearE' : ∀ v ∈ vs, v ⬝ᵥ v0 = √5 / 3 → c.eastVec ⬝ᵥ v = 1 / √3 ∨ c.eastVec ⬝ᵥ v = -(1 / √3) := by
    intro v hv hd
    exact sq_eq_sq_iff_eq_or_eq_neg.1 ((nearE v hv hd).trans h3.symm)
  refine ⟨σ, hσ, ?_, ⟨v0, hm0, hσ0⟩, ?_, ?_⟩
  · intro v hv
    obtain ⟨t, ht, rfl⟩ := hex v hv
    by_cases htt : t = t0
    · subst htt
      rw [← hv0]
      exact ⟨.inr (.inr (by rw [he0]; norm_num)), .inl hσ0⟩
    · rcases pair_cases i hi12 t0 ht0 t ht (Ne.symm htt) with h | h
      · have hd := near _ _ h
        rw [← hv0] at hd
        refine ⟨(nearE' _ hv hd).imp_right .inl, .inr (.inr (abs_le_of_sq_le_sq ?_ (by norm_num)))⟩
        rw [nearN _ hv hd]; norm_num; linarith
      · have hd := far _ _ h
        rw [← hv0] at hd
        refine ⟨.inr (.inr (abs_le_of_sq_le_sq ?_ (by norm_num))), .inr (.inl (farN _ hv hd))⟩
        rw [east _ hv, farN _ hv hd, neg_sq, farV_sq, hs2]; norm_num; linarith
  · obtain ⟨t, ht, h⟩ := one_far i hi12 t0 ht0
    exact ⟨_, hmem t ht, farN _ (hmem t ht) (by rw [hv0]; exact far _ _ h)⟩
  · obtain ⟨t1, m1, t2, m2, h1, h2, h12⟩ := two_near i hi12 t0 ht0
    have d1 := near _ _ h1
    have d2 := near _ _ h2
    rw [← hv0] at d1 d2
    have d12 := far _ _ h12
    have nn : σ * (c.northVec ⬝ᵥ (M *ᵥ vtx t1)) = σ * (c.northVec ⬝ᵥ (M *ᵥ vtx t2)) := by
      apply mul_right_cancel₀ hs.ne'
      rw [value _ (hmem t1 m1) _ d1, value _ (hmem t2 m2) _ d2]
    have prod : (c.eastVec ⬝ᵥ (M *ᵥ vtx t1)) * (c.eastVec ⬝ᵥ (M *ᵥ vtx t2)) = -(1 / 3) := by
      rw [dots, hC _ (hmem t1 m1), hC _ (hmem t2 m2)] at d12
      have e := nearN _ (hmem t1 m1) d1
      linear_combination d12 - hk2 - e + (σ * (c.northVec ⬝ᵥ (M *ᵥ vtx t1))) * nn + (c.northVec ⬝ᵥ (M *ᵥ vtx t1)) * (c.northVec ⬝ᵥ (M *ᵥ vtx t2)) * hσ
    have p3 : 0 < 1 / √3 := by positivity
    rcases nearE' _ (hmem t1 m1) d1 with e1 | e1 <;> rcases nearE' _ (hmem t2 m2) d2 with e2 | e2
    · rw [e1, e2] at prod; nlinarith
    · exact ⟨⟨_, hmem t1 m1, e1⟩, ⟨_, hmem t2 m2, e2⟩⟩
    · exact ⟨⟨_, hmem t2 m2, e2⟩, ⟨_, hmem t1 m1, e1⟩⟩
    · rw [e1, e2] at prod; nlinarith

/-- How far out, along `U`, the positions around a vertex can be. -/
theorem stg_upper {C U : Vec3} {v : SpherePoint ℝ} (hC : C ⬝ᵥ C = 1) (u1 : U ⬝ᵥ U = 1) (u2 : U ⬝ᵥ C = 0) {k u B R δ : ℝ}
    (hv : C ⬝ᵥ v.getVector = k) (hu : U ⬝ᵥ v.getVector = u) (hR0 : 0 ≤ R) (hR : 4 + B ^ 2 - (2 * u - B * k) ^ 2 ≤ R ^ 2)
    (hs : 0 ≤ sin δ) (h : cos δ * (2 * u - B * k) + sin δ * R ≤ B) (b : ℝ) :
    2 * (U ⬝ᵥ (v.offset b δ).getVector) ≤ B * (1 + C ⬝ᵥ (v.offset b δ).getVector) := by
  set W := (2 : ℝ) • U - B • C with hW
  have hWd : ∀ X, W ⬝ᵥ X = 2 * (U ⬝ᵥ X) - B * (C ⬝ᵥ X) := by
    intro X; rw [hW, sub_dotProduct, smul_dotProduct, smul_dotProduct, smul_eq_mul, smul_eq_mul]
  have hWv : W ⬝ᵥ v.getVector = 2 * u - B * k := by rw [hWd, hv, hu]
  have hWW : W ⬝ᵥ W = 4 + B ^ 2 := by
    rw [hWd, dotProduct_comm U W, dotProduct_comm C W, hWd, hWd, u1, hC, u2, dotProduct_comm C U, u2]; ring
  have hf := v.frame_dot W W
  rw [hWW, hWv] at hf
  have ho := v.offset_dot b δ W
  rw [hWv, hWd] at ho
  set x := W ⬝ᵥ v.eastVec
  set y := W ⬝ᵥ v.northVec
  have hb := sin_sq_add_cos_sq (b * (π / 180))
  set p := cos (b * (π / 180))
  set q := sin (b * (π / 180))
  have hT : x * p + y * q ≤ R := by
    apply (abs_le_of_sq_le_sq' _ hR0).2
    have e : (x * p + y * q) ^ 2 + (x * q - y * p) ^ 2 = x * x + y * y := by linear_combination (x * x + y * y) * hb
    have := sq_nonneg (x * q - y * p)
    linarith
  have := mul_le_mul_of_nonneg_left hT hs
  linarith

/-- How far out, along `U`, one of the positions around a vertex is. -/
theorem stg_lower {C U : Vec3} {v : SpherePoint ℝ} (hC : C ⬝ᵥ C = 1) (u1 : U ⬝ᵥ U = 1) (u2 : U ⬝ᵥ C = 0) {k u B R δ : ℝ}
    (hv : C ⬝ᵥ v.getVector = k) (hu : U ⬝ᵥ v.getVector = u) (hR : R ^ 2 ≤ 4 + B ^ 2 - (2 * u - B * k) ^ 2)
    (hs : 0 ≤ sin δ) (h : B ≤ cos δ * (2 * u - B * k) + sin δ * (cos (π / 24) * R)) : ∃ i : ℕ, i < 24 ∧
    B * (1 + C ⬝ᵥ (v.offset (15 * (i : ℝ)) δ).getVector) ≤ 2 * (U ⬝ᵥ (v.offset (15 * (i : ℝ)) δ).getVector) := by
  have hp := pi_pos
  set W := (2 : ℝ) • U - B • C with hW
  have hWd : ∀ X, W ⬝ᵥ X = 2 * (U ⬝ᵥ X) - B * (C ⬝ᵥ X) := by
    intro X; rw [hW, sub_dotProduct, smul_dotProduct, smul_dotProduct, smul_eq_mul, smul_eq_mul]
  have hWv : W ⬝ᵥ v.getVector = 2 * u - B * k := by rw [hWd, hv, hu]
  have hWW : W ⬝ᵥ W = 4 + B ^ 2 := by
    rw [hWd, dotProduct_comm U W, dotProduct_comm C W, hWd, hWd, u1, hC, u2, dotProduct_comm C U, u2]; ring
  have hf := v.frame_dot W W
  rw [hWW, hWv] at hf
  obtain ⟨i, hi, hb⟩ := bearing_dense (W ⬝ᵥ v.eastVec) (W ⬝ᵥ v.northVec)
  refine ⟨i, hi, ?_⟩
  have ho := v.offset_dot (15 * (i : ℝ)) δ W
  rw [hWv, hWd] at ho
  have hr : R ≤ √((W ⬝ᵥ v.eastVec) ^ 2 + (W ⬝ᵥ v.northVec) ^ 2) := le_sqrt_of_sq_le (by linarith)
  have hc : 0 ≤ cos (π / 24) := cos_nonneg_of_mem_Icc ⟨by linarith, by linarith⟩
  have l1 := (mul_le_mul_of_nonneg_left hr hc).trans hb
  have := mul_le_mul_of_nonneg_left l1 hs
  linarith

/-! ## Numbers -/

theorem cosV_bounds : 0.794654 < cosV ∧ cosV < 0.794655 := by
  obtain ⟨l5, u5⟩ := sqrt5
  unfold cosV
  exact ⟨lt_sqrt_of_sq_lt (by norm_num; linarith), (sqrt_lt' (by norm_num)).2 (by norm_num; linarith)⟩

theorem sinV_bounds : 0.607061 < sinV ∧ sinV < 0.607063 := by
  obtain ⟨l5, u5⟩ := sqrt5
  have h := sinV_sq
  have := sinV_pos
  constructor
  · exact lt_of_pow_lt_pow_left₀ 2 this.le (by rw [h]; norm_num; linarith)
  · exact lt_of_pow_lt_pow_left₀ 2 (by norm_num) (by rw [h]; norm_num; linarith)

theorem farV_bounds : 0.491123 < farV ∧ farV < 0.491124 := by
  obtain ⟨l5, u5⟩ := sqrt5
  have h := farV_sq
  have h0 : 0 ≤ farV := by unfold farV; have := sinV_pos; positivity
  constructor
  · exact lt_of_pow_lt_pow_left₀ 2 h0 (by rw [h]; norm_num; linarith)
  · exact lt_of_pow_lt_pow_left₀ 2 (by norm_num) (by rw [h]; norm_num; linarith)

theorem third_bounds : (0.577350 : ℝ) < 1 / √3 ∧ 1 / √3 < (0.577351 : ℝ) := by
  have h : (1 / √3 : ℝ) ^ 2 = 1 / 3 := by rw [div_pow, sq_sqrt (by norm_num)]; norm_num
  constructor
  · exact lt_of_pow_lt_pow_left₀ 2 (by positivity) (by rw [h]; norm_num)
  · exact lt_of_pow_lt_pow_left₀ 2 (by norm_num) (by rw [h]; norm_num)

/-- Half the default overlap. -/
theorem delta_bounds : 0.030538 < sin (7 * π / 720) ∧ sin (7 * π / 720) < 0.030539 ∧ 0.999533 < cos (7 * π / 720) ∧
    cos (7 * π / 720) < 0.999534 ∧ 0.99143 < cos (π / 24) := by
  have p1 := pi_gt_d6
  have p2 := pi_lt_d6
  have hx1 : 0.0305432 < 7 * π / 720 := by linarith
  have hx2 : 7 * π / 720 < 0.0305433 := by linarith
  set x := 7 * π / 720
  have hx : |x| ≤ 1 := by rw [abs_le]; constructor <;> linarith
  have a := abs_le.1 (sin_bound hx)
  have b := abs_le.1 (cos_bound hx)
  rw [abs_of_pos (by linarith : 0 < x)] at a b
  have q5 : x ^ 5 ≤ 0.0305433 ^ 5 := by gcongr
  have q4 : x ^ 4 ≤ 0.0305433 ^ 4 := by gcongr
  have q3 : x ^ 3 ≤ 0.0305433 ^ 3 := by gcongr
  have q3' : 0.0305432 ^ 3 ≤ x ^ 3 := by gcongr
  have q2 : x ^ 2 ≤ 0.0305433 ^ 2 := by gcongr
  have q2' : 0.0305432 ^ 2 ≤ x ^ 2 := by gcongr
  norm_num at q5 q4 q3 q3' q2 q2'
  refine ⟨by linarith [a.1], by linarith [a.2], by linarith [b.1], by linarith [b.2], ?_⟩
  have := one_sub_sq_div_two_le_cos (x := π / 24)
  have : (π / 24) ^ 2 ≤ 0.1309 ^ 2 := by gcongr; linarith
  norm_num at this
  linarith

/-! ## The extent of a tract along an axis -/

variable {a : TractArgs (SpherePoint ℝ) ℝ}

/-- The positions that size a tract, along a direction: if the vertices that are furthest out are `u` out, the positions are between
`Bl` and `Bh` out at most. -/
theorem extent {cs : List (SpherePoint ℝ)} (ha : a.shape = .vertices cs) (hov : a.tractOverlap = 3.5 * (π / 180))
    (hC : ∀ v ∈ cs, a.ctrCoord.getVector ⬝ᵥ v.getVector = cosV) {U : Vec3} (u1 : U ⬝ᵥ U = 1) (u2 : U ⬝ᵥ a.ctrCoord.getVector = 0)
    {u Bl Bh Rl Rh : ℝ} (hall : ∀ v ∈ cs, U ⬝ᵥ v.getVector = u ∨ U ⬝ᵥ v.getVector ≤ 0.36) (hex : ∃ v ∈ cs, U ⬝ᵥ v.getVector = u)
    (b1 : 0.58 ≤ Bh) (b2 : Bh ≤ 0.72) (hRh0 : 0 ≤ Rh) (hRh : 4 + Bh ^ 2 - (2 * u - Bh * cosV) ^ 2 ≤ Rh ^ 2)
    (hh : cos (7 * π / 720) * (2 * u - Bh * cosV) + sin (7 * π / 720) * Rh ≤ Bh)
    (hRl : Rl ^ 2 ≤ 4 + Bl ^ 2 - (2 * u - Bl * cosV) ^ 2)
    (hl : Bl ≤ cos (7 * π / 720) * (2 * u - Bl * cosV) + sin (7 * π / 720) * (cos (π / 24) * Rl)) :
    (∀ s ∈ samplePoints sphereOps a, Projection.STG.along a.ctrCoord.getVector U s.getVector ≤ Bh) ∧
      ∃ s ∈ samplePoints sphereOps a, Bl ≤ Projection.STG.along a.ctrCoord.getVector U s.getVector := by
  have hp := pi_pos
  have hp' := pi_lt_d2
  obtain ⟨s0, s1, c0, c1, -⟩ := delta_bounds
  obtain ⟨k0, k1⟩ := cosV_bounds
  have hδ : a.tractOverlap / 2 = 7 * π / 720 := by rw [hov]; ring
  have h0 : 0 ≤ a.tractOverlap := by rw [hov]; positivity
  have hne : a.tractOverlap ≠ 0 := by rw [hov]; positivity
  have h1 : a.tractOverlap ≤ π := by rw [hov]; linarith
  constructor
  · intro s hs
    have hr := (sample_reach ha hC h0 h1 hs).1
    simp only [Projection.along]
    rw [div_le_iff₀ (by linarith)]
    rw [C12_sample_points] at hs
    rcases hs with ⟨l, e, e', -⟩ | ⟨l, e, -, v, hv, i, -, e2⟩ | ⟨r, e, -⟩
    · exact absurd e' hne
    · rw [ha, TractShape.vertices.injEq] at e
      subst e
      change s = v.offset _ _ at e2
      rw [e2, hδ]
      rcases hall v hv with h | h
      · exact stg_upper a.ctrCoord.vec_unit u1 u2 (hC v hv) h hRh0 hRh (by linarith) hh _
      · have hB0 : 0 ≤ Bh := by linarith
        have l1 : 0.46 ≤ Bh * cosV := by
          have : (0.58 : ℝ) * 0.794654 ≤ Bh * cosV := by gcongr
          linarith
        refine stg_upper (R := 2.13) a.ctrCoord.vec_unit u1 u2 (hC v hv) rfl (by norm_num) ?_ (by linarith) ?_ _
        · have : Bh ^ 2 ≤ 0.72 ^ 2 := by gcongr
          have := sq_nonneg (2 * (U ⬝ᵥ v.getVector) - Bh * cosV)
          norm_num at *
          linarith
        · have l2 : 2 * (U ⬝ᵥ v.getVector) - Bh * cosV ≤ 0.26 := by linarith
          have l3 := mul_le_mul_of_nonneg_left l2 (by linarith : 0 ≤ cos (7 * π / 720))
          linarith
    · rw [ha] at e; simp at e
  · obtain ⟨v, hv, hu⟩ := hex
    obtain ⟨i, hi, hb⟩ := stg_lower a.ctrCoord.vec_unit u1 u2 (hC v hv) hu hRl (by linarith : 0 ≤ sin (7 * π / 720)) hl
    have hm := vertex_sample ha hv hi hne
    rw [hδ] at hm
    refine ⟨_, hm, ?_⟩
    have hr := (sample_reach ha hC h0 h1 hm).1
    simp only [Projection.along]
    rw [le_div_iff₀ (by linarith)]
    exact hb

theorem extent_x {cs : List (SpherePoint ℝ)} (ha : a.shape = .vertices cs) (hov : a.tractOverlap = 3.5 * (π / 180))
    (hC : ∀ v ∈ cs, a.ctrCoord.getVector ⬝ᵥ v.getVector = cosV) {U : Vec3} (u1 : U ⬝ᵥ U = 1) (u2 : U ⬝ᵥ a.ctrCoord.getVector = 0)
    (hall : ∀ v ∈ cs, U ⬝ᵥ v.getVector = 1 / √3 ∨ U ⬝ᵥ v.getVector ≤ 0.36) (hex : ∃ v ∈ cs, U ⬝ᵥ v.getVector = 1 / √3) :
    (∀ s ∈ samplePoints sphereOps a, Projection.STG.along a.ctrCoord.getVector U s.getVector ≤ 0.6778) ∧
      ∃ s ∈ samplePoints sphereOps a, 0.6772 ≤ Projection.STG.along a.ctrCoord.getVector U s.getVector := by
  obtain ⟨s0, s1, c0, c1, d0⟩ := delta_bounds
  obtain ⟨k0, k1⟩ := cosV_bounds
  obtain ⟨t0, t1⟩ := third_bounds
  refine extent (Rl := 2.0194) (Rh := 2.0201) ha hov hC u1 u2 hall hex (by norm_num) (by norm_num) (by norm_num) ?_ ?_ ?_ ?_
  all_goals set u := 1 / √3
  · have l : 0.61608 ≤ 2 * u - 0.6778 * cosV := by linarith
    have : (0.61608 : ℝ) ^ 2 ≤ (2 * u - 0.6778 * cosV) ^ 2 := by gcongr
    norm_num at *; linarith
  · have l : 2 * u - 0.6778 * cosV ≤ 0.61609 := by linarith
    have l2 := mul_le_mul c1.le l (by linarith) (by norm_num)
    linarith
  · have l : 2 * u - 0.6772 * cosV ≤ 0.61657 := by linarith
    have : (2 * u - 0.6772 * cosV) ^ 2 ≤ (0.61657 : ℝ) ^ 2 := by gcongr; linarith
    norm_num at *; linarith
  · have l : 0.61655 ≤ 2 * u - 0.6772 * cosV := by linarith
    have l2 := mul_le_mul c0.le l (by norm_num) (by linarith)
    have l3 := mul_le_mul s0.le (mul_le_mul_of_nonneg_right d0.le (by norm_num : (0 : ℝ) ≤ 2.0194)) (by norm_num) (by linarith)
    linarith

theorem extent_top {cs : List (SpherePoint ℝ)} (ha : a.shape = .vertices cs) (hov : a.tractOverlap = 3.5 * (π / 180))
    (hC : ∀ v ∈ cs, a.ctrCoord.getVector ⬝ᵥ v.getVector = cosV) {U : Vec3} (u1 : U ⬝ᵥ U = 1) (u2 : U ⬝ᵥ a.ctrCoord.getVector = 0)
    (hall : ∀ v ∈ cs, U ⬝ᵥ v.getVector = sinV ∨ U ⬝ᵥ v.getVector ≤ 0.36) (hex : ∃ v ∈ cs, U ⬝ᵥ v.getVector = sinV) :
    (∀ s ∈ samplePoints sphereOps a, Projection.STG.along a.ctrCoord.getVector U s.getVector ≤ 0.711) ∧
      ∃ s ∈ samplePoints sphereOps a, 0.71042 ≤ Projection.STG.along a.ctrCoord.getVector U s.getVector := by
  obtain ⟨s0, s1, c0, c1, d0⟩ := delta_bounds
  obtain ⟨k0, k1⟩ := cosV_bounds
  obtain ⟨t0, t1⟩ := sinV_bounds
  refine extent (Rl := 2.0205) (Rh := 2.021) ha hov hC u1 u2 hall hex (by norm_num) (by norm_num) (by norm_num) ?_ ?_ ?_ ?_
  · have l : 0.64912 ≤ 2 * sinV - 0.711 * cosV := by linarith
    have : (0.64912 : ℝ) ^ 2 ≤ (2 * sinV - 0.711 * cosV) ^ 2 := by gcongr
    norm_num at *; linarith
  · have l : 2 * sinV - 0.711 * cosV ≤ 0.64913 := by linarith
    have l2 := mul_le_mul c1.le l (by linarith) (by norm_num)
    linarith
  · have l : 2 * sinV - 0.71042 * cosV ≤ 0.64959 := by linarith
    have : (2 * sinV - 0.71042 * cosV) ^ 2 ≤ (0.64959 : ℝ) ^ 2 := by gcongr; linarith
    norm_num at *; linarith
  · have l : 0.64958 ≤ 2 * sinV - 0.71042 * cosV := by linarith
    have l2 := mul_le_mul c0.le l (by norm_num) (by linarith)
    have l3 := mul_le_mul s0.le (mul_le_mul_of_nonneg_right d0.le (by norm_num : (0 : ℝ) ≤ 2.0205)) (by norm_num) (by linarith)
    linarith

theorem extent_bottom {cs : List (SpherePoint ℝ)} (ha : a.shape = .vertices cs) (hov : a.tractOverlap = 3.5 * (π / 180))
    (hC : ∀ v ∈ cs, a.ctrCoord.getVector ⬝ᵥ v.getVector = cosV) {U : Vec3} (u1 : U ⬝ᵥ U = 1) (u2 : U ⬝ᵥ a.ctrCoord.getVector = 0)
    (hall : ∀ v ∈ cs, U ⬝ᵥ v.getVector = farV ∨ U ⬝ᵥ v.getVector ≤ 0.36) (hex : ∃ v ∈ cs, U ⬝ᵥ v.getVector = farV) :
    (∀ s ∈ samplePoints sphereOps a, Projection.STG.along a.ctrCoord.getVector U s.getVector ≤ 0.582) ∧
      ∃ s ∈ samplePoints sphereOps a, 0.58118 ≤ Projection.STG.along a.ctrCoord.getVector U s.getVector := by
  obtain ⟨s0, s1, c0, c1, d0⟩ := delta_bounds
  obtain ⟨k0, k1⟩ := cosV_bounds
  obtain ⟨t0, t1⟩ := farV_bounds
  refine extent (Rl := 2.0166) (Rh := 2.0171) ha hov hC u1 u2 hall hex (by norm_num) (by norm_num) (by norm_num) ?_ ?_ ?_ ?_
  · have l : 0.51975 ≤ 2 * farV - 0.582 * cosV := by linarith
    have : (0.51975 : ℝ) ^ 2 ≤ (2 * farV - 0.582 * cosV) ^ 2 := by gcongr
    norm_num at *; linarith
  · have l : 2 * farV - 0.582 * cosV ≤ 0.51977 := by linarith
    have l2 := mul_le_mul c1.le l (by linarith) (by norm_num)
    linarith
  · have l : 2 * farV - 0.58118 * cosV ≤ 0.52042 := by linarith
    have : (2 * farV - 0.58118 * cosV) ^ 2 ≤ (0.52042 : ℝ) ^ 2 := by gcongr; linarith
    norm_num at *; linarith
  · have l : 0.5204 ≤ 2 * farV - 0.58118 * cosV := by linarith
    have l2 := mul_le_mul c0.le l (by norm_num) (by linarith)
    have l3 := mul_le_mul s0.le (mul_le_mul_of_nonneg_right d0.le (by norm_num : (0 : ℝ) ≤ 2.0166)) (by norm_num) (by linarith)
    linarith

end DodecaSkyMap
end Skymap
