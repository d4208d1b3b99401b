import Verif.Lemmas.DodecaNumpy

/-! # The vertices of the dodecahedron -/

namespace Skymap
namespace Dodeca
open Matrix Dodecahedron

/-- Iterating over a set visits each element once, in some order. -/
structure SetOrder.Ok (o : SetOrder) : Prop where
  close : ∀ i l, (o.close i l).Perm l
  shared : ∀ i j l, (o.shared i j l).Perm l

/-- The unit vector of the vertex between three faces. -/
noncomputable def vtx (t : ℕ × ℕ × ℕ) : Vec3 := (Real.sqrt (6 + 9 * g))⁻¹ • toVec (vertZ t)

theorem nv_pos : 0 < (Real.sqrt (6 + 9 * g))⁻¹ := by
  have := g_lo
  have : 0 < Real.sqrt (6 + 9 * g) := Real.sqrt_pos.2 (by linarith)
  positivity

theorem nv_sq : (Real.sqrt (6 + 9 * g))⁻¹ * (Real.sqrt (6 + 9 * g))⁻¹ = (6 + 9 * g)⁻¹ := by
  have := g_lo
  rw [← mul_inv, Real.mul_self_sqrt (by linarith)]

theorem sum_faces (i j k : ℕ) : face i + face j + face k = (Real.sqrt (2 + g))⁻¹ • toVec (vertZ (i, j, k)) := by
  simp only [face, vertZ, toVec_add, smul_add]

/-- Normalising the sum of three faces. -/
theorem normalise {i j k : ℕ} (h : dotZ (vertZ (i, j, k)) (vertZ (i, j, k)) = (6, 9)) :
    (fun a => (face i + face j + face k) a / Real.sqrt ((face i + face j + face k) 0 ^ 2 + (face i + face j + face k) 1 ^ 2 +
      (face i + face j + face k) 2 ^ 2)) = vtx (i, j, k) := by
  have hg := g_lo
  rw [← len_sq, sum_faces, smul_dotProduct, dotProduct_smul, dot_toVec, h, smul_eq_mul, smul_eq_mul, ← mul_assoc]
  have e : ev (6, 9) = 6 + 9 * g := by simp [ev]
  rw [e, Real.sqrt_mul (by have := nf_pos; positivity), Real.sqrt_mul_self nf_pos.le]
  ext a
  have h1 := nf_pos.ne'
  simp only [Pi.smul_apply, smul_eq_mul, vtx]
  have h2 := nv_pos
  have h3 : Real.sqrt (6 + 9 * g) ≠ 0 := by
    intro h0; rw [h0] at h2; simp at h2
  rw [mul_div_mul_left _ _ h1, div_eq_inv_mul]

theorem vertZ_vtx {t t' : ℕ × ℕ × ℕ} (h : vertZ t = vertZ t') : vtx t = vtx t' := by unfold vtx; rw [h]

/-- A triple of mutually adjacent faces, in any order. -/
def Valid (s : ℕ × ℕ × ℕ) : Prop := s.1 < 12 ∧ s.2.1 ∈ adj s.1 ∧ s.2.2 ∈ adj s.1 ∧ s.2.2 ∈ adj s.2.1

theorem valid_triple {s : ℕ × ℕ × ℕ} (h : Valid s) : ∃ t ∈ triples, keyOf t = keyOf s ∧ vertZ t = vertZ s :=
  triples_complete s.1 h.1 s.2.1 h.2.1 s.2.2 h.2.2.1 h.2.2.2

noncomputable def item (t : ℕ × ℕ × ℕ) : Finset ℕ × Vec3 := (keyOf t, vtx t)

theorem faceItem {i : ℕ} (hi : i < 12) : pyGetItem ((List.range 12).map face) (i : ℤ) = .ok (face i) :=
  getItem_map face (List.getElem?_range hi)

/-- The triple with the same faces, in ascending order. -/
def canon (s : ℕ × ℕ × ℕ) : ℕ × ℕ × ℕ := (triples.find? fun t => decide (keyOf t = keyOf s)).getD (0, 0, 0)

theorem canon_spec {s : ℕ × ℕ × ℕ} (h : Valid s) : canon s ∈ triples ∧ keyOf (canon s) = keyOf s ∧ vertZ (canon s) = vertZ s := by
  obtain ⟨t, ht, hk, hz⟩ := valid_triple h
  unfold canon
  cases hf : triples.find? fun t => decide (keyOf t = keyOf s) with
  | none =>
    rw [List.find?_eq_none] at hf
    exact absurd (by simpa using hk) (hf t ht)
  | some t' =>
    have h1 := List.mem_of_find?_eq_some hf
    have h2 : keyOf t' = keyOf s := by simpa using List.find?_some hf
    have : t' = t := key_inj t' h1 t ht (by rw [h2, hk])
    subst this
    exact ⟨h1, h2, hz⟩

def ins (L : List (ℕ × ℕ × ℕ)) (s : ℕ × ℕ × ℕ) : List (ℕ × ℕ × ℕ) := if canon s ∈ L then L else L ++ [canon s]

theorem addVertex_eq {s : ℕ × ℕ × ℕ} (hv : Valid s) {L : List (ℕ × ℕ × ℕ)} (hL : ∀ t ∈ L, t ∈ triples) :
    addVertex ((List.range 12).map face) (L.map item) s = .ok ((ins L s).map item) := by
  obtain ⟨ht, hk, hz⟩ := canon_spec hv
  have hmem : (({s.1, s.2.1, s.2.2} : Finset ℕ) ∈ (L.map item).map Prod.fst) ↔ canon s ∈ L := by
    rw [List.map_map, List.mem_map]
    constructor
    · rintro ⟨t', ht', e⟩
      have : t' = canon s := key_inj t' (hL t' ht') _ ht (by rw [hk]; exact e)
      rw [← this]; exact ht'
    · intro h; exact ⟨canon s, h, hk⟩
  unfold addVertex ins
  by_cases h : canon s ∈ L
  · rw [if_pos h]; exact if_pos (hmem.2 h)
  · rw [if_neg h]
    dsimp only
    have hn : ¬ (({s.1, s.2.1, s.2.2} : Finset ℕ) ∈ (L.map item).map Prod.fst) := fun hc => h (hmem.1 hc)
    rw [if_neg hn]
    have a2 := (face_table s.1 hv.1).2 s.2.1 hv.2.1
    have a3 := (face_table s.1 hv.1).2 s.2.2 hv.2.2.1
    rw [faceItem hv.1, faceItem a2.1, faceItem a3.1]
    simp only [bind, Except.bind, pure, Except.pure, List.map_append, List.map_cons, List.map_nil, Except.ok.injEq]
    congr 2
    have hn := vert_norm _ ht
    rw [hz] at hn
    rw [normalise hn]
    simp only [item, Prod.mk.injEq]
    exact ⟨hk.symm, (vertZ_vtx hz).symm⟩

theorem ins_mem {s : ℕ × ℕ × ℕ} (hv : Valid s) {L : List (ℕ × ℕ × ℕ)} (hL : ∀ t ∈ L, t ∈ triples) : ∀ t ∈ ins L s, t ∈ triples := by
  intro t ht
  unfold ins at ht
  split_ifs at ht with h
  · exact hL t ht
  · rcases List.mem_append.1 ht with h' | h'
    · exact hL t h'
    · rw [List.mem_singleton.1 h']; exact (canon_spec hv).1

theorem ins_nodup {s : ℕ × ℕ × ℕ} {L : List (ℕ × ℕ × ℕ)} (hL : L.Nodup) : (ins L s).Nodup := by
  unfold ins
  split_ifs with h
  · exact hL
  · rw [List.nodup_append]
    refine ⟨hL, by simp, ?_⟩
    intro a ha b hb
    rw [List.mem_singleton.1 hb]
    rintro rfl
    exact h ha

theorem canon_mem_ins (s : ℕ × ℕ × ℕ) (L : List (ℕ × ℕ × ℕ)) : canon s ∈ ins L s := by
  unfold ins
  split_ifs with h
  · exact h
  · simp

theorem fold_prefix (S L : List (ℕ × ℕ × ℕ)) : ∃ r, S.foldl ins L = L ++ r := by
  induction S generalizing L with
  | nil => exact ⟨[], by simp⟩
  | cons s S ih =>
    obtain ⟨r, hr⟩ := ih (ins L s)
    rw [List.foldl_cons, hr]
    unfold ins
    split_ifs
    · exact ⟨r, rfl⟩
    · exact ⟨canon s :: r, by simp⟩

/-- Filling the dictionary. -/
theorem fold_vertices (S : List (ℕ × ℕ × ℕ)) (hS : ∀ s ∈ S, Valid s) (L : List (ℕ × ℕ × ℕ)) (hL : ∀ t ∈ L, t ∈ triples)
    (hnd : L.Nodup) : pyFoldM (addVertex ((List.range 12).map face)) S (L.map item) = .ok ((S.foldl ins L).map item) ∧
      (∀ t ∈ S.foldl ins L, t ∈ triples) ∧ (S.foldl ins L).Nodup ∧ ∀ s ∈ S, canon s ∈ S.foldl ins L := by
  induction S generalizing L with
  | nil => exact ⟨rfl, hL, hnd, by simp⟩
  | cons s S ih =>
    have hv := hS s (by simp)
    obtain ⟨f1, f2, f3, f4⟩ := ih (fun s hs => hS s (by simp [hs])) (ins L s) (ins_mem hv hL) (ins_nodup hnd)
    refine ⟨?_, f2, f3, ?_⟩
    · simp only [pyFoldM, addVertex_eq hv hL, f1, List.foldl_cons]
    · intro s' hs'
      rcases List.mem_cons.1 hs' with rfl | hs'
      · obtain ⟨r, hr⟩ := fold_prefix S (ins L s')
        rw [List.foldl_cons, hr]
        simp [canon_mem_ins]
      · exact f4 s' hs'

/-- The triples, in the order in which the loops visit them. -/
def visited (o : SetOrder) : List (ℕ × ℕ × ℕ) :=
  (List.range 12).flatMap fun i => (o.close i (adj i)).flatMap fun j =>
    (o.shared i j ((adj i).filter fun k => decide (k ∈ adj j))).map fun k => (i, j, k)

theorem pyMapM_eq {α β : Type} {f : α → PyM β} {g : α → β} {l : List α} (h : ∀ a ∈ l, f a = .ok (g a)) :
    pyMapM f l = .ok (l.map g) := pyMapM_ok_of f g l h

/-- The triples of the vertices, in the order of the dictionary. -/
def vertexOrder (o : SetOrder) : List (ℕ × ℕ × ℕ) := (visited o).foldl ins []

/-- `_computeDodecahedronVertices` returns the 20 vertices, each once. -/
theorem vertices_eq {o : SetOrder} (ho : o.Ok) :
    computeDodecahedronVertices o ((List.range 12).map face) = .ok ((vertexOrder o).map vtx) ∧ (vertexOrder o).Perm triples := by
  have hclose : pyMapM (fun i : ℕ => do
      let closeIndSet ← findCloseIndexSet ((List.range 12).map face) i
      if closeIndSet.length ≠ 5 then throw .RuntimeError
      pure closeIndSet) (List.range 12) = .ok ((List.range 12).map adj) := by
    apply pyMapM_eq
    intro i hi
    have hi' := List.mem_range.1 hi
    rw [closeIndex_faces hi']
    simp only [bind, Except.bind]
    rw [if_neg (by rw [(face_table i hi').1]; simp)]
    rfl
  have hadj : ∀ i : ℕ, i < 12 → pyGetItem ((List.range 12).map adj) (i : ℤ) = .ok (adj i) := fun i hi =>
    getItem_map adj (List.getElem?_range hi)
  have htri : pyMapM (fun i : ℕ => do
      let iClose ← pyGetItem ((List.range 12).map adj) i
      let l ← pyMapM (fun j : ℕ => do
        let jClose ← pyGetItem ((List.range 12).map adj) j
        let sharedCloseIndSet := iClose.filter fun k => decide (k ∈ jClose)
        if sharedCloseIndSet.length ≠ 2 then throw .RuntimeError
        pure ((o.shared i j sharedCloseIndSet).map fun k => (i, j, k))) (o.close i iClose)
      pure l.flatten) (List.range 12) = .ok ((List.range 12).map fun i => (o.close i (adj i)).flatMap fun j =>
        (o.shared i j ((adj i).filter fun k => decide (k ∈ adj j))).map fun k => (i, j, k)) := by
    apply pyMapM_eq
    intro i hi
    have hi' := List.mem_range.1 hi
    rw [hadj i hi']
    simp only [bind, Except.bind]
    rw [pyMapM_eq (g := fun j => (o.shared i j ((adj i).filter fun k => decide (k ∈ adj j))).map fun k => (i, j, k))]
    · simp only [pure, Except.pure, List.flatMap]
    · intro j hj
      have hj' := (ho.close i (adj i)).mem_iff.1 hj
      have ht := (face_table i hi').2 j hj'
      rw [hadj j ht.1]
      simp only
      rw [if_neg (by rw [ht.2.2.2]; simp)]
      rfl
  have hvis : ∀ s, s ∈ visited o ↔ Valid s := by
    intro s
    simp only [visited, List.mem_flatMap, List.mem_map, List.mem_range]
    constructor
    · rintro ⟨i, hi, j, hj, k, hk, rfl⟩
      have hj' := (ho.close i (adj i)).mem_iff.1 hj
      have hk' := (ho.shared i j _).mem_iff.1 hk
      simp only [List.mem_filter, decide_eq_true_eq] at hk'
      exact ⟨hi, hj', hk'.1, hk'.2⟩
    · rintro ⟨h1, h2, h3, h4⟩
      refine ⟨s.1, h1, s.2.1, (ho.close _ _).mem_iff.2 h2, s.2.2, (ho.shared _ _ _).mem_iff.2 ?_, rfl⟩
      simp only [List.mem_filter, decide_eq_true_eq]
      exact ⟨h3, h4⟩
  obtain ⟨f1, f2, f3, f5⟩ := fold_vertices (visited o) (fun s hs => (hvis s).1 hs) [] (by simp) (by simp)
  refine ⟨?_, ?_⟩
  · unfold computeDodecahedronVertices
    rw [List.length_map, List.length_range, hclose]
    change (pyMapM _ (List.range ((List.range 12).map adj).length) >>= _) = _
    rw [List.length_map, List.length_range, htri]
    change (pyFoldM _ (List.flatten _) [] >>= _) = _
    have e : (List.map (fun i => (o.close i (adj i)).flatMap fun j =>
        (o.shared i j ((adj i).filter fun k => decide (k ∈ adj j))).map fun k => (i, j, k)) (List.range 12)).flatten = visited o := by
      simp only [visited, List.flatMap]
    rw [e]
    have f1' : pyFoldM (addVertex ((List.range 12).map face)) (visited o) [] = .ok ((vertexOrder o).map item) := f1
    rw [f1']
    simp only [bind, Except.bind, pure, Except.pure, List.map_map, Except.ok.injEq]
    rfl
  · change ((visited o).foldl ins []).Perm triples
    rw [List.perm_ext_iff_of_nodup f3 triples_nodup]
    intro t
    refine ⟨f2 t, fun ht => ?_⟩
    have hv : Valid t := triples_valid t ht
    obtain ⟨h1, h2, -⟩ := canon_spec hv
    have e : canon t = t := key_inj _ h1 t ht h2
    have := f5 t ((hvis t).2 hv)
    rwa [e] at this

/-- If 1 is the first neighbour of face 0 visited, the first two vertices lie on the edge between the faces 0 and 1. -/
theorem vertexOrder_start {o : SetOrder} (ho : o.Ok) (h : (o.close 0 (adj 0)).head? = some 1) :
    ∃ t t' r, vertexOrder o = t :: t' :: r ∧ ((t = (0, 1, 8) ∧ t' = (0, 1, 9)) ∨ (t = (0, 1, 9) ∧ t' = (0, 1, 8))) := by
  obtain ⟨c, hc⟩ : ∃ c, o.close 0 (adj 0) = 1 :: c := by
    cases hx : o.close 0 (adj 0) with
    | nil => rw [hx] at h; simp at h
    | cons a c => rw [hx] at h; simp at h; exact ⟨c, by rw [h]⟩
  have e : ((adj 0).filter fun k => decide (k ∈ adj 1)) = [8, 9] := by decide +kernel
  have hs := ho.shared 0 1 [8, 9]
  have hs' : o.shared 0 1 [8, 9] = [8, 9] ∨ o.shared 0 1 [8, 9] = [9, 8] := by
    have h1 : o.shared 0 1 [8, 9] ∈ List.permutations' [8, 9] := List.mem_permutations'.2 hs
    simpa using h1
  have hr : visited o = (o.shared 0 1 [8, 9]).map (fun k => (0, 1, k)) ++ (c.flatMap (fun j =>
    (o.shared 0 j ((adj 0).filter fun k => decide (k ∈ adj j))).map fun k => (0, j, k)) ++ ((List.range 11).map (· + 1)).flatMap fun i => (o.close i (adj i)).flatMap fun j =>
    (o.shared i j ((adj i).filter fun k => decide (k ∈ adj j))).map fun k => (i, j, k)) := by
    have : List.range 12 = 0 :: (List.range 11).map (· + 1) := by decide
    unfold visited
    rw [this, List.flatMap_cons, hc, List.flatMap_cons, e, List.append_assoc]
  unfold vertexOrder
  rw [hr]
  have c8 : canon (0, 1, 8) = (0, 1, 8) := by decide +kernel
  have c9 : canon (0, 1, 9) = (0, 1, 9) := by decide +kernel
  generalize c.flatMap (fun j => (o.shared 0 j ((adj 0).filter fun k => decide (k ∈ adj j))).map fun k => (0, j, k)) ++ ((List.range 11).map (· + 1)).flatMap (fun i => (o.close i (adj i)).flatMap fun j =>
    (o.shared i j ((adj i).filter fun k => decide (k ∈ adj j))).map fun k => (i, j, k)) = S
  rcases hs' with h' | h' <;> rw [h']
  · obtain ⟨r, hr⟩ := fold_prefix S [(0, 1, 8), (0, 1, 9)]
    refine ⟨(0, 1, 8), (0, 1, 9), r, ?_, Or.inl ⟨rfl, rfl⟩⟩
    simp only [List.map_cons, List.map_nil, List.cons_append, List.nil_append, List.foldl_cons]
    simp only [ins, c8, c9, List.not_mem_nil, if_false, List.nil_append]
    exact hr
  · obtain ⟨r, hr⟩ := fold_prefix S [(0, 1, 9), (0, 1, 8)]
    refine ⟨(0, 1, 9), (0, 1, 8), r, ?_, Or.inr ⟨rfl, rfl⟩⟩
    simp only [List.map_cons, List.map_nil, List.cons_append, List.nil_append, List.foldl_cons]
    simp only [ins, c8, c9, List.not_mem_nil, if_false, List.nil_append]
    exact hr

end Dodeca
end Skymap
