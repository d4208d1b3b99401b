import Verif.Lemmas.DodecaNew

/-! # What `Dodecahedron.__init__` makes -/

namespace Skymap
namespace Dodeca
open Matrix Dodecahedron

theorem mat_range {M : Matrix (Fin 3) (Fin 3) ℝ} {α : Type} (f : α → Vec3) (l : List α) :
    (l.map f).map (fun v => M *ᵥ v) = l.map fun i => M *ᵥ f i := by rw [List.map_map]; rfl

/-- A face on each pole. -/
theorem new_faces {o : SetOrder} (ho : o.Ok) : ∃ (M : Matrix (Fin 3) (Fin 3) ℝ) (P : List ℕ), IsRotation M ∧ P.Perm (List.range 12) ∧
    Dodecahedron.new o true = .ok ⟨true, (vertexOrder o).map fun t => M *ᵥ vtx t, P.map fun i => M *ᵥ face i⟩ ∧
    ((P.map fun i => M *ᵥ face i).Pairwise fun u v => v 2 ≤ u 2) ∧
    M *ᵥ face 0 = ![0, 0, 1] ∧ ∃ j ∈ adj 0, ∃ x z, 0 < x ∧ M *ᵥ face j = ![x, 0, z] := by
  have hg1 := g_lo
  have hg2 := g_hi
  have hr : List.range 12 = 0 :: 1 :: (List.range 10).map (· + 2) := by decide
  obtain ⟨c, hc, he, hmax, -⟩ := closePair face 0 1 ((List.range 10).map (· + 2))
  rw [← hr] at he
  have hc12 : c < 12 ∧ c ≠ 0 := by
    rcases List.mem_cons.1 hc with rfl | h
    · decide
    · obtain ⟨a, ha, rfl⟩ := List.mem_map.1 h
      have := List.mem_range.1 ha
      omega
  have hadj : c ∈ adj 0 := by
    by_contra hn
    have h1 := hmax 1 (by simp)
    rw [face_val (by norm_num) (by norm_num) (by norm_num), if_pos (by decide +kernel), face_val (by norm_num) hc12.1 hc12.2, if_neg hn] at h1
    have : 0 < g / (2 + g) := by positivity
    split_ifs at h1 <;> linarith
  have hdot : face 0 ⬝ᵥ face c = g / (2 + g) := by
    rw [dotProduct_comm, face_val (by norm_num) hc12.1 hc12.2, if_pos hadj]
  have hind : LinearIndependent ℝ ![face 0, face c] := by
    apply indep (face_unit (by norm_num)) (face_unit hc12.1)
    rw [hdot]
    have h1 : 0 ≤ g / (2 + g) := by positivity
    have h2 : g / (2 + g) ≤ 1 / 2 := by rw [div_le_iff₀ (by linarith)]; linarith
    nlinarith
  obtain ⟨hM, h0, -, x, z, hx, h1⟩ := C37_transform (face 0) (face c) hind
  rw [face_unit (by norm_num), Real.sqrt_one] at h0
  set M := computeCoordTransform (face 0) (face c) false
  obtain ⟨P, hP, hsort, hpair⟩ := faces_sorted hM h0 (fun i hi j hj => gap_faces hi hj)
  refine ⟨M, P, hM, hP, ?_, hpair, h0, c, hadj, x, z, hx, h1⟩
  unfold Dodecahedron.new
  rw [full_eq]
  dsimp only
  rw [(vertices_eq ho).1]
  simp only [bind, Except.bind, if_true, he, pure, Except.pure]
  rw [mat_range, mat_range]
  have hs' := hsort
  simp only [M] at hs' ⊢
  rw [hs']

/-- A vertex on each pole. -/
theorem new_vertices {o : SetOrder} (ho : o.Ok) : ∃ (M : Matrix (Fin 3) (Fin 3) ℝ) (P : List ℕ), IsRotation M ∧ P.Perm (List.range 12) ∧
    Dodecahedron.new o false = .ok ⟨false, (vertexOrder o).map fun t => M *ᵥ vtx t, P.map fun i => M *ᵥ face i⟩ ∧
    ((P.map fun i => M *ᵥ face i).Pairwise fun u v => v 2 ≤ u 2) ∧
    ∃ t ∈ triples, M *ᵥ vtx t = ![0, 0, 1] ∧ (vertexOrder o).head? = some t ∧
      ((o.close 0 (adj 0)).head? = some 1 → ∃ t' ∈ triples, vtx t' ⬝ᵥ vtx t = (4 + 7 * g) / (6 + 9 * g) ∧
        ∃ x z, x < 0 ∧ M *ᵥ vtx t' = ![x, 0, z]) := by
  have hg1 := g_lo
  have hg2 := g_hi
  have hperm := (vertices_eq ho).2
  have hlen := hperm.length_eq
  rw [triples_length] at hlen
  obtain ⟨t, t1, r, hL⟩ : ∃ t t1 r, vertexOrder o = t :: t1 :: r := by
    match hx : vertexOrder o with
    | [] => rw [hx] at hlen; simp at hlen
    | [a] => rw [hx] at hlen; simp at hlen
    | a :: b :: r => exact ⟨a, b, r, rfl⟩
  have hmem : ∀ s, s ∈ vertexOrder o → s ∈ triples := fun s hs => hperm.mem_iff.1 hs
  have ht : t ∈ triples := hmem t (by rw [hL]; simp)
  have hnd : (vertexOrder o).Nodup := hperm.nodup_iff.2 triples_nodup
  obtain ⟨c, hc, he, hmax, hfirst⟩ := closePair vtx t t1 r
  rw [← hL] at he
  have hcT : c ∈ triples := hmem c (by rw [hL]; simp [List.mem_cons.1 hc])
  have hct : c ≠ t := by
    rintro rfl
    rw [hL] at hnd
    exact (List.nodup_cons.1 hnd).1 hc
  -- the second vector is a neighbour
  have hp : (0 : ℝ) < 6 + 9 * g := by linarith
  have hcd : dotZ (vertZ c) (vertZ t) = (4, 7) := by
    obtain ⟨n, hn, hne, hnd'⟩ := vert_near t ht
    have hn' : n ∈ t1 :: r := by
      have := hperm.mem_iff.2 hn
      rw [hL] at this
      rcases List.mem_cons.1 this with h | h
      · exact absurd h.symm hne
      · exact h
    have h1 := hmax n hn'
    rw [vtx_dot, vtx_dot, hnd'] at h1
    rcases vert_cases c hcT t ht hct with h | h | h | h | h
    · exact h
    all_goals
      exfalso
      rw [h] at h1
      rw [div_le_div_iff_of_pos_right hp] at h1
      simp only [ev] at h1; push_cast at h1; linarith
  have hdot : vtx t ⬝ᵥ vtx c = (4 + 7 * g) / (6 + 9 * g) := by
    rw [dotProduct_comm, vtx_dot, hcd]; simp [ev]
  have hind : LinearIndependent ℝ ![vtx t, vtx c] := by
    apply indep (vtx_unit ht) (vtx_unit hcT)
    rw [hdot]
    have h1 : 0 ≤ (4 + 7 * g) / (6 + 9 * g) := by positivity
    have h2 : (4 + 7 * g) / (6 + 9 * g) ≤ 9 / 10 := by rw [div_le_iff₀ (by linarith)]; linarith
    nlinarith
  obtain ⟨hM, h0, -, hneg⟩ := C37_transform_negative (vtx t) (vtx c) hind
  rw [vtx_unit ht, Real.sqrt_one] at h0
  set M := computeCoordTransform (vtx t) (vtx c) true
  obtain ⟨P, hP, hsort, hpair⟩ := faces_sorted hM h0 (fun i hi j hj => gap_vertex ht hi hj)
  refine ⟨M, P, hM, hP, ?_, hpair, t, ht, h0, by rw [hL]; rfl, ?_⟩
  · unfold Dodecahedron.new
    rw [full_eq]
    dsimp only
    rw [(vertices_eq ho).1]
    simp only [bind, Except.bind, he, pure, Except.pure, Bool.false_eq_true, if_false]
    rw [mat_range, mat_range]
    have hs' := hsort
    simp only [M] at hs' ⊢
    rw [hs']
  · intro hh
    obtain ⟨s, s', r', hs, hcase⟩ := vertexOrder_start ho hh
    rw [hL] at hs
    simp only [List.cons.injEq] at hs
    obtain ⟨rfl, rfl, rfl⟩ := hs
    -- the second vertex is the first of the nearest
    have hd1 : dotZ (vertZ t1) (vertZ t) = (4, 7) := by
      rcases hcase with ⟨rfl, rfl⟩ | ⟨rfl, rfl⟩ <;> decide +kernel
    have hc1 : c = t1 := by
      apply hfirst
      intro d hd
      have hdT : d ∈ triples := hmem d (by rw [hL]; simp [List.mem_cons.1 hd])
      have := hmax d hd
      rw [vtx_dot, vtx_dot, hcd] at this
      rw [vtx_dot, vtx_dot, hd1]
      exact this
    subst hc1
    have hy : ∀ s : ℕ × ℕ × ℕ, vertZ s 1 = (0, 0) → vtx s 1 = 0 := by
      intro s h
      simp [vtx, toVec, h, ev]
    have hyt : vtx t 1 = 0 := by
      rcases hcase with ⟨rfl, rfl⟩ | ⟨rfl, rfl⟩ <;> exact hy _ (by decide +kernel)
    have hyc : vtx c 1 = 0 := by
      rcases hcase with ⟨rfl, rfl⟩ | ⟨rfl, rfl⟩ <;> exact hy _ (by decide +kernel)
    have hzt : vtx t 2 ≠ 0 := by
      have hz : vertZ t 2 = (1, 2) := by
        rcases hcase with ⟨rfl, rfl⟩ | ⟨rfl, rfl⟩ <;> decide +kernel
      have hn := nv_pos
      simp only [vtx, Pi.smul_apply, smul_eq_mul, toVec, hz, ev]
      push_cast
      have : 0 < (1 : ℝ) + 2 * g := by linarith
      positivity
    refine ⟨c, hcT, by rw [dotProduct_comm]; exact hdot, ?_⟩
    exact (hneg (fun h => hzt h.2)).2 (by rw [hyt, hyc]; ring)

end Dodeca
end Skymap
