import Verif.Lemmas.DodecaStandard

/-! # C37: the dodecahedron -/

namespace Skymap
namespace Dodeca
open Matrix Dodecahedron

/-- What both orientations have in common. -/
theorem new_spec {o : SetOrder} (ho : o.Ok) (w : Bool) : ∃ (M : Matrix (Fin 3) (Fin 3) ℝ) (P : List ℕ), IsRotation M ∧ P.Perm (List.range 12) ∧
    Dodecahedron.new o w = .ok ⟨w, (vertexOrder o).map fun t => M *ᵥ vtx t, P.map fun i => M *ᵥ face i⟩ ∧
    ((P.map fun i => M *ᵥ face i).Pairwise fun u v => v 2 ≤ u 2) := by
  cases w with
  | true => obtain ⟨M, P, h1, h2, h3, h4, -⟩ := new_faces ho; exact ⟨M, P, h1, h2, h3, h4⟩
  | false => obtain ⟨M, P, h1, h2, h3, h4, -⟩ := new_vertices ho; exact ⟨M, P, h1, h2, h3, h4⟩

theorem face_inj {i j : ℕ} (hi : i < 12) (hj : j < 12) (h : face i = face j) : i = j := by
  by_contra hne
  have h1 := face_le hj hi hne
  rw [h, face_unit hj] at h1
  norm_num at h1

theorem vtx_inj {t t' : ℕ × ℕ × ℕ} (ht : t ∈ triples) (ht' : t' ∈ triples) (h : vtx t = vtx t') : t = t' := by
  have h1 := g_lo
  by_contra hne
  have h2 := vtx_unit ht
  nth_rw 2 [h] at h2
  rw [vtx_dot, div_eq_one_iff_eq (by linarith)] at h2
  rcases vert_cases t ht t' ht' hne with e | e | e | e | e <;> rw [e] at h2 <;> simp only [ev] at h2 <;> push_cast at h2 <;> linarith

theorem mem_range_perm {P : List ℕ} (hP : P.Perm (List.range 12)) {i : ℕ} : i ∈ P ↔ i < 12 := by
  rw [hP.mem_iff, List.mem_range]

/-- C37: a `Dodecahedron` is a regular dodecahedron around the origin, rotated by a proper rotation: its 12 distinct faces and its 20
distinct vertices are, up to that rotation, the standard ones scaled to unit length. -/
theorem C37_regular {o : SetOrder} (ho : o.Ok) (w : Bool) : ∃ (D : Dodecahedron) (M : Matrix (Fin 3) (Fin 3) ℝ),
    Dodecahedron.new o w = .ok D ∧ IsRotation M ∧ D.withFacesOnPoles = w ∧
    D.faceVecList.length = 12 ∧ D.faceVecList.Nodup ∧ (∀ v ∈ D.faceVecList, v ⬝ᵥ v = 1) ∧
    (∀ v, v ∈ D.faceVecList ↔ ∃ s, StdFace s ∧ v = M *ᵥ ((Real.sqrt (Real.goldenRatio + 2))⁻¹ • s)) ∧
    D.vertexVecList.length = 20 ∧ D.vertexVecList.Nodup ∧ (∀ v ∈ D.vertexVecList, v ⬝ᵥ v = 1) ∧
    (∀ v, v ∈ D.vertexVecList ↔ ∃ s, StdVertex s ∧ v = M *ᵥ ((Real.sqrt 3)⁻¹ • s)) := by
  obtain ⟨M, P, hM, hP, hD, -⟩ := new_spec ho w
  have hV := (vertices_eq ho).2
  refine ⟨_, M, hD, hM, rfl, ?_, ?_, ?_, ?_, ?_, ?_, ?_, ?_⟩
  · rw [List.length_map, hP.length_eq, List.length_range]
  · apply List.Nodup.map_on _ (hP.nodup_iff.2 List.nodup_range)
    intro i hi j hj h
    exact face_inj ((mem_range_perm hP).1 hi) ((mem_range_perm hP).1 hj) (hM.inj h)
  · intro v hv
    obtain ⟨i, hi, rfl⟩ := List.mem_map.1 hv
    rw [hM.dot, face_unit ((mem_range_perm hP).1 hi)]
  · intro v
    rw [List.mem_map]
    constructor
    · rintro ⟨i, hi, rfl⟩
      refine ⟨toVec (faceZ i), (stdFace_iff _).2 ⟨i, (mem_range_perm hP).1 hi, rfl⟩, ?_⟩
      rw [face, sqrt_two_g]
    · rintro ⟨s, hs, rfl⟩
      obtain ⟨i, hi, rfl⟩ := (stdFace_iff s).1 hs
      exact ⟨i, (mem_range_perm hP).2 hi, by rw [face, sqrt_two_g]⟩
  · rw [List.length_map, hV.length_eq, triples_length]
  · apply List.Nodup.map_on _ (hV.nodup_iff.2 triples_nodup)
    intro t ht t' ht' h
    exact vtx_inj (hV.mem_iff.1 ht) (hV.mem_iff.1 ht') (hM.inj h)
  · intro v hv
    obtain ⟨t, ht, rfl⟩ := List.mem_map.1 hv
    rw [hM.dot, vtx_unit (hV.mem_iff.1 ht)]
  · intro v
    rw [List.mem_map]
    constructor
    · rintro ⟨t, ht, rfl⟩
      exact ⟨toVec (stdZ t), (stdVertex_iff _).2 ⟨t, hV.mem_iff.1 ht, rfl⟩, by rw [← vtx_std]⟩
    · rintro ⟨s, hs, rfl⟩
      obtain ⟨t, ht, rfl⟩ := (stdVertex_iff s).1 hs
      exact ⟨t, hV.mem_iff.2 ht, by rw [← vtx_std]⟩

theorem face_antipode : face 3 = -face 0 := by
  have h : faceZ 3 = -faceZ 0 := by decide +kernel
  ext i
  simp [face, toVec, h, ev]
  ring

theorem vert_antipode : ∀ t ∈ triples, ∃ t' ∈ triples, vertZ t' = -vertZ t := by decide +kernel

theorem neg_pole : -(![0, 0, 1] : Vec3) = ![0, 0, -1] := by ext i; fin_cases i <;> simp

/-- C37: with `withFacesOnPoles` the first face is on the north pole and the last on the south pole, and one of the faces next to
the first is on the meridian y = 0, x > 0. -/
theorem C37_faces_on_poles {o : SetOrder} (ho : o.Ok) : ∃ D, Dodecahedron.new o true = .ok D ∧
    D.faceVecList.head? = some ![0, 0, 1] ∧ D.faceVecList.getLast? = some ![0, 0, -1] ∧
    ∃ f ∈ D.faceVecList, f ⬝ᵥ ![0, 0, 1] = 1 / Real.sqrt 5 ∧ f 1 = 0 ∧ 0 < f 0 := by
  obtain ⟨M, P, hM, hP, hD, hsort, h0, j, hj, x, z, hx, hf⟩ := new_faces ho
  have hmem : ∀ i, i ∈ P ↔ i < 12 := fun i => mem_range_perm hP
  have h3 : M *ᵥ face 3 = ![0, 0, -1] := by rw [face_antipode, Matrix.mulVec_neg, h0, neg_pole]
  have hj12 : j < 12 := ((face_table 0 (by norm_num)).2 j hj).1
  have hj0 : j ≠ 0 := ((face_table 0 (by norm_num)).2 j hj).2.1
  refine ⟨_, hD, ?_, ?_, M *ᵥ face j, List.mem_map.2 ⟨j, (hmem j).2 hj12, rfl⟩, ?_, by rw [hf]; rfl, by rw [hf]; exact hx⟩
  · dsimp only
    cases hP' : P with
    | nil => have := (hmem 0).2 (by norm_num); rw [hP'] at this; simp at this
    | cons p rest =>
      rw [hP', List.map_cons, List.pairwise_cons] at hsort
      simp only [List.map_cons, List.head?_cons, Option.some.injEq]
      by_cases hp : p = 0
      · rw [hp, h0]
      · exfalso
        have hp12 : p < 12 := (hmem p).1 (by rw [hP']; simp)
        have h0r : 0 ∈ rest := by
          have := (hmem 0).2 (by norm_num)
          rw [hP'] at this
          rcases List.mem_cons.1 this with h | h
          · exact absurd h.symm hp
          · exact h
        have := hsort.1 _ (List.mem_map.2 ⟨0, h0r, rfl⟩)
        rw [third hM h0, third hM h0, face_unit (by norm_num)] at this
        have := face_le (i := 0) (by norm_num) hp12 hp
        linarith
  · dsimp only
    rcases List.eq_nil_or_concat P with hP' | ⟨L, p, hP'⟩
    · have := (hmem 0).2 (by norm_num); rw [hP'] at this; simp at this
    · rw [List.concat_eq_append] at hP'
      rw [hP', List.map_append, List.map_cons, List.map_nil] at hsort ⊢
      rw [List.getLast?_append]
      simp only [List.getLast?_singleton, Option.some_or, Option.some.injEq]
      by_cases hp : p = 3
      · rw [hp, h3]
      · exfalso
        have hp12 : p < 12 := (hmem p).1 (by rw [hP']; simp)
        have h3r : 3 ∈ L := by
          have := (hmem 3).2 (by norm_num)
          rw [hP'] at this
          rcases List.mem_append.1 this with h | h
          · exact h
          · exact absurd (List.mem_singleton.1 h).symm hp
        have h4 := (List.pairwise_append.1 hsort).2.2 _ (List.mem_map.2 ⟨3, h3r, rfl⟩) _ (List.mem_singleton.2 rfl)
        rw [third hM h0, h3] at h4
        have h5 := face_le (i := 3) (by norm_num) hp12 hp
        rw [face_antipode, dotProduct_neg] at h5
        simp at h4
        linarith
  · rw [← h0, hM.dot, face_val (by norm_num) hj12 hj0, if_pos hj, face_value]

/-- C37: without `withFacesOnPoles` there is a vertex on each pole.  Where sets are iterated over in ascending order (as CPython does for
sets of small integers), one of the vertices next to the north pole is on the meridian y = 0, x < 0. -/
theorem C37_vertices_on_poles {o : SetOrder} (ho : o.Ok) : ∃ D, Dodecahedron.new o false = .ok D ∧
    ![0, 0, 1] ∈ D.vertexVecList ∧ ![0, 0, -1] ∈ D.vertexVecList ∧
    ((∀ i l, (o.close i l).Pairwise (· ≤ ·)) →
      ∃ v ∈ D.vertexVecList, v ⬝ᵥ ![0, 0, 1] = Real.sqrt 5 / 3 ∧ v 1 = 0 ∧ v 0 < 0) := by
  obtain ⟨M, P, hM, hP, hD, -, t, ht, h0, -, hneg⟩ := new_vertices ho
  have hV := (vertices_eq ho).2
  refine ⟨_, hD, List.mem_map.2 ⟨t, hV.mem_iff.2 ht, h0⟩, ?_, ?_⟩
  · obtain ⟨t', ht', he⟩ := vert_antipode t ht
    refine List.mem_map.2 ⟨t', hV.mem_iff.2 ht', ?_⟩
    have : vtx t' = -vtx t := by
      ext i
      simp [vtx, toVec, he, ev]
      ring
    rw [this, Matrix.mulVec_neg, h0, neg_pole]
  · intro h
    have hhead : (o.close 0 (adj 0)).head? = some 1 := by
      have hp := ho.close 0 (adj 0)
      have hs := h 0 (adj 0)
      have h1 : 1 ∈ o.close 0 (adj 0) := hp.mem_iff.2 (by decide +kernel)
      have hge : ∀ k ∈ o.close 0 (adj 0), 1 ≤ k := by
        intro k hk
        have : ∀ k ∈ adj 0, 1 ≤ k := by decide +kernel
        exact this k (hp.mem_iff.1 hk)
      cases hc : o.close 0 (adj 0) with
      | nil => rw [hc] at h1; simp at h1
      | cons a r =>
        rw [hc] at h1 hs hge
        have ha := hge a (by simp)
        rcases List.mem_cons.1 h1 with e | e
        · rw [← e]; rfl
        · have := (List.pairwise_cons.1 hs).1 1 e
          simp only [List.head?_cons, Option.some.injEq]; omega
    obtain ⟨t', ht', hd, x, z, hx, hv⟩ := hneg hhead
    refine ⟨M *ᵥ vtx t', List.mem_map.2 ⟨t', hV.mem_iff.2 ht', rfl⟩, ?_, by rw [hv]; rfl, by rw [hv]; exact hx⟩
    rw [← h0, hM.dot, hd, edge_value]

/-- C37: the faces are numbered by decreasing latitude. -/
theorem C37_faces_sorted {o : SetOrder} (ho : o.Ok) {w : Bool} {D : Dodecahedron} (hD : Dodecahedron.new o w = .ok D) :
    D.faceVecList.Pairwise fun u v => v 2 ≤ u 2 := by
  obtain ⟨M, P, -, -, hD', hs⟩ := new_spec ho w
  rw [hD, Except.ok.injEq] at hD'
  rw [hD']; exact hs

theorem nb_dot {M : Matrix (Fin 3) (Fin 3) ℝ} (hM : IsRotation M) {t t' : ℕ × ℕ × ℕ} (h : nb t t' = true) :
    (M *ᵥ vtx t) ⬝ᵥ (M *ᵥ vtx t') = Real.sqrt 5 / 3 := by
  have : dotZ (vertZ t') (vertZ t) = (4, 7) := by simpa [nb] using h
  rw [hM.dot, dotProduct_comm, vtx_dot, this, ← edge_value]
  simp [ev]

theorem vtx_le {t t' : ℕ × ℕ × ℕ} (ht : t ∈ triples) (ht' : t' ∈ triples) (h : t ≠ t') : vtx t ⬝ᵥ vtx t' ≤ Real.sqrt 5 / 3 := by
  have h1 := g_lo
  rw [vtx_dot, ← edge_value, div_le_div_iff_of_pos_right (by linarith)]
  rcases vert_cases t ht t' ht' h with e | e | e | e | e <;> rw [e] <;> simp only [ev] <;> push_cast <;> linarith

/-- The vertices of face `i` among all vertices. -/
theorem five_iff {t : ℕ × ℕ × ℕ} (ht : t ∈ triples) {i : ℕ} (hi : i < 12) :
    t ∈ five i ↔ ∀ t' ∈ triples, vtx t' ⬝ᵥ face i ≤ vtx t ⬝ᵥ face i := by
  have hg1 := g_lo
  obtain ⟨n1, n2⟩ := nfv
  have hk : ∀ s ∈ triples, ev (dotZ (faceZ i) (vertZ s)) ≤ 2 + 3 * g ∧ (ev (dotZ (faceZ i) (vertZ s)) = 2 + 3 * g ↔ i ∈ keyOf s) := by
    intro s hs
    have e := vf_cases s hs i hi
    by_cases hk : i ∈ keyOf s
    · rw [if_pos hk] at e
      rw [e]; simp [ev, hk]
    · rw [if_neg hk] at e
      have : ev (dotZ (faceZ i) (vertZ s)) ≤ g := by
        rw [e]
        split_ifs <;> simp only [ev] <;> push_cast <;> linarith
      exact ⟨by linarith, ⟨fun h => by linarith, fun h => absurd h hk⟩⟩
  have hf : t ∈ five i ↔ i ∈ keyOf t := by simp [five, ht]
  have hex : ∃ s ∈ triples, i ∈ keyOf s := by
    have : ∀ i < 12, ∃ s ∈ triples, i ∈ keyOf s := by decide +kernel
    exact this i hi
  rw [hf, ← (hk t ht).2]
  simp only [dotProduct_comm _ (face i), vf_dot]
  set n := (Real.sqrt (2 + g))⁻¹ * (Real.sqrt (6 + 9 * g))⁻¹
  constructor
  · intro h s hs
    rw [h]
    have := (hk s hs).1
    nlinarith
  · intro h
    obtain ⟨s, hs, hks⟩ := hex
    have h1 := h s hs
    rw [(hk s hs).2.2 hks] at h1
    have h2 := (hk t ht).1
    nlinarith

/-- C37: for every face, `getVertices` returns five different vertices: those at the smallest angle from the face's centre; each is next to
the following one on the dodecahedron (no two vertices are at a smaller angle), and the last to the first. -/
theorem C37_getVertices {o : SetOrder} (ho : o.Ok) {w : Bool} {D : Dodecahedron} (hD : Dodecahedron.new o w = .ok D)
    (k : ℕ) (hk : k < 12) : ∃ (f : Vec3) (vs : List Vec3), D.faceVecList[k]? = some f ∧ D.getVertices k = .ok vs ∧ vs.length = 5 ∧ vs.Nodup ∧
    (∀ v, v ∈ vs ↔ v ∈ D.vertexVecList ∧ ∀ v' ∈ D.vertexVecList, v' ⬝ᵥ f ≤ v ⬝ᵥ f) ∧
    Cyclically (fun u v => u ≠ v ∧ u ⬝ᵥ v = Real.sqrt 5 / 3) vs ∧
    ∀ u ∈ D.vertexVecList, ∀ v ∈ D.vertexVecList, u ≠ v → u ⬝ᵥ v ≤ Real.sqrt 5 / 3 := by
  obtain ⟨M, P, hM, hP, hD', -⟩ := new_spec ho w
  rw [hD, Except.ok.injEq] at hD'
  subst hD'
  have hV := (vertices_eq ho).2
  have hlen : P.length = 12 := by rw [hP.length_eq, List.length_range]
  obtain ⟨i, hi⟩ : ∃ i, P[k]? = some i := ⟨P[k], List.getElem?_eq_getElem (by omega)⟩
  have hi12 : i < 12 := (mem_range_perm hP).1 (List.mem_of_getElem? hi)
  obtain ⟨R, hR, hcyc, hget⟩ := getVertices_eq (w := w) ho hM hi hi12
  have h5 : (five i).length = 5 := by
    have : ∀ i < 12, (five i).length = 5 := by decide +kernel
    exact this i hi12
  have hRT : ∀ t ∈ R, t ∈ triples := fun t ht => five_triples (hR.mem_iff.1 ht)
  have hRnd : R.Nodup := hR.nodup_iff.2 (triples_nodup.filter _)
  have hvnd : (R.map fun t => M *ᵥ vtx t).Nodup := by
    apply List.Nodup.map_on _ hRnd
    intro t ht t' ht' h
    exact vtx_inj (hRT t ht) (hRT t' ht') (hM.inj h)
  refine ⟨M *ᵥ face i, R.map fun t => M *ᵥ vtx t, by rw [List.getElem?_map, hi]; rfl, hget, by rw [List.length_map, hR.length_eq, h5],
    hvnd, ?_, ?_, ?_⟩
  · intro v
    simp only [List.mem_map]
    constructor
    · rintro ⟨t, ht, rfl⟩
      refine ⟨⟨t, hV.mem_iff.2 (hRT t ht), rfl⟩, ?_⟩
      rintro v' ⟨t', ht', rfl⟩
      rw [hM.dot, hM.dot]
      exact (five_iff (hRT t ht) hi12).1 (hR.mem_iff.1 ht) t' (hV.mem_iff.1 ht')
    · rintro ⟨⟨t, ht, rfl⟩, hmax⟩
      refine ⟨t, hR.mem_iff.2 ((five_iff (hV.mem_iff.1 ht) hi12).2 fun t' ht' => ?_), rfl⟩
      have := hmax _ ⟨t', hV.mem_iff.2 ht', rfl⟩
      rwa [hM.dot, hM.dot] at this
  · have : Cyclically (fun u v : Vec3 => u ⬝ᵥ v = Real.sqrt 5 / 3) (R.map fun t => M *ᵥ vtx t) := by
      match R, hcyc with
      | [a, b, c, d, e], h =>
        simp only [cyclic, Bool.and_eq_true] at h
        obtain ⟨⟨⟨⟨h1, h2⟩, h3⟩, h4⟩, h5⟩ := h
        intro j u v hu hv
        match j with
        | 0 => simp at hu hv; subst hu hv; exact nb_dot hM h1
        | 1 => simp at hu hv; subst hu hv; exact nb_dot hM h2
        | 2 => simp at hu hv; subst hu hv; exact nb_dot hM h3
        | 3 => simp at hu hv; subst hu hv; exact nb_dot hM h4
        | 4 => simp at hu hv; subst hu hv; exact nb_dot hM h5
        | j + 5 => simp at hu
    intro j u v hu hv
    refine ⟨?_, this j u v hu hv⟩
    rintro rfl
    have h1 := this j u u hu hv
    have hu' := List.mem_of_getElem? hu
    obtain ⟨t, ht, rfl⟩ := List.mem_map.1 hu'
    rw [hM.dot, vtx_unit (hRT t ht)] at h1
    have : Real.sqrt 5 < 3 := (Real.sqrt_lt' (by norm_num)).2 (by norm_num)
    linarith
  · intro u hu v hv hne
    obtain ⟨t, ht, rfl⟩ := List.mem_map.1 hu
    obtain ⟨t', ht', rfl⟩ := List.mem_map.1 hv
    rw [hM.dot]
    exact vtx_le (hV.mem_iff.1 ht) (hV.mem_iff.1 ht') (fun h => hne (by rw [h]))

/-- The order of CPython: sets of small integers are iterated over in ascending order. -/
def ascending : SetOrder := ⟨fun _ l => l.mergeSort, fun _ _ l => l.mergeSort⟩

theorem ascending_ok : ascending.Ok := ⟨fun _ l => List.mergeSort_perm l _, fun _ _ l => List.mergeSort_perm l _⟩

/-- The hypotheses of the theorems are met. -/
example : ascending.Ok ∧ ∀ i l, (ascending.close i l).Pairwise (· ≤ ·) :=
  ⟨ascending_ok, fun _ l => by
    have := List.pairwise_mergeSort (le := fun a b : ℕ => decide (a ≤ b)) (by simp; omega) (by simp; omega) l
    simpa [ascending] using this⟩

end Dodeca
end Skymap
