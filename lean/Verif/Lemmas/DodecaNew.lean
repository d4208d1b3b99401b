import Verif.Lemmas.DodecaSort

/-! # The constructor of `Dodecahedron` -/

namespace Skymap
namespace Dodeca
open Matrix Dodecahedron

theorem face_unit {i : ℕ} (hi : i < 12) : face i ⬝ᵥ face i = 1 := by
  have := g_lo
  rw [face_dot, face_cases i hi i hi, if_pos rfl]
  simp only [ev]; push_cast
  rw [one_mul, div_self (by linarith)]

theorem face_val {i j : ℕ} (hi : i < 12) (hj : j < 12) (hne : j ≠ i) :
    face j ⬝ᵥ face i = if j ∈ adj i then g / (2 + g) else if dotZ (faceZ j) (faceZ i) = (0, -1) then -(g / (2 + g)) else -1 := by
  have := g_lo
  have e := face_cases i hi j hj
  rw [if_neg hne] at e
  rw [face_dot]
  by_cases a : j ∈ adj i
  · rw [if_pos a] at e ⊢
    rw [e]; simp [ev]
  · rw [if_neg a] at e ⊢
    by_cases b : dotZ (faceZ j) (faceZ i) = (0, -1)
    · rw [if_pos b, b]; simp [ev, neg_div]
    · rw [if_neg b] at e ⊢
      rw [e]
      simp only [ev]; push_cast
      rw [div_eq_iff (by linarith)]; ring

theorem vtx_dot (t t' : ℕ × ℕ × ℕ) : vtx t ⬝ᵥ vtx t' = ev (dotZ (vertZ t) (vertZ t')) / (6 + 9 * g) := by
  unfold vtx
  rw [smul_dotProduct, dotProduct_smul, dot_toVec, smul_eq_mul, smul_eq_mul, ← mul_assoc, nv_sq]
  ring

theorem vtx_unit {t : ℕ × ℕ × ℕ} (ht : t ∈ triples) : vtx t ⬝ᵥ vtx t = 1 := by
  have := g_lo
  rw [vtx_dot, vert_norm t ht]
  simp only [ev]; push_cast
  rw [div_self (by linarith)]

theorem vert_cases : ∀ t ∈ triples, ∀ t' ∈ triples, t ≠ t' → dotZ (vertZ t) (vertZ t') = (4, 7) ∨ dotZ (vertZ t) (vertZ t') = (2, 3) ∨
    dotZ (vertZ t) (vertZ t') = (-4, -7) ∨ dotZ (vertZ t) (vertZ t') = (-6, -9) ∨ dotZ (vertZ t) (vertZ t') = (-2, -3) := by
  decide +kernel

theorem vert_near : ∀ t ∈ triples, ∃ t' ∈ triples, t ≠ t' ∧ dotZ (vertZ t') (vertZ t) = (4, 7) := by decide +kernel

theorem indep {u v : Vec3} (hu : u ⬝ᵥ u = 1) (hv : v ⬝ᵥ v = 1) (h : (u ⬝ᵥ v) ^ 2 < 1) : LinearIndependent ℝ ![u, v] := by
  rw [LinearIndependent.pair_iff]
  intro s t h0
  have h1 : s * 1 + t * (u ⬝ᵥ v) = 0 := by
    have := congrArg (fun w => u ⬝ᵥ w) h0
    simpa [dotProduct_add, dotProduct_smul, hu] using this
  have h2 : s * (u ⬝ᵥ v) + t * 1 = 0 := by
    have := congrArg (fun w => v ⬝ᵥ w) h0
    simpa [dotProduct_add, dotProduct_smul, hv, dotProduct_comm v u] using this
  set c := u ⬝ᵥ v
  have h3 : t * (1 - c ^ 2) = 0 := by linear_combination h2 - c * h1
  have ht : t = 0 := by
    rcases mul_eq_zero.1 h3 with h | h
    · exact h
    · linarith
  subst ht
  exact ⟨by linarith, rfl⟩

/-- `_findClosePair(vecList, 0)`. -/
theorem closePair {α : Type} (f : α → Vec3) (a b : α) (l : List α) : ∃ c ∈ b :: l, findClosePair ((a :: b :: l).map f) 0 = .ok (f a, f c) ∧
    (∀ d ∈ b :: l, f d ⬝ᵥ f a ≤ f c ⬝ᵥ f a) ∧ ((∀ d ∈ b :: l, f d ⬝ᵥ f a ≤ f b ⬝ᵥ f a) → c = b) := by
  have hl : ((b :: l).map f).map (fun v => v ⬝ᵥ f a) ≠ [] := by simp
  obtain ⟨k, m, hk, hm, hle⟩ := npArgmax_spec hl
  have hget : ∃ c, (b :: l)[k]? = some c ∧ f c ⬝ᵥ f a = m := by
    rw [List.getElem?_map, List.getElem?_map, Option.map_map, Option.map_eq_some_iff] at hm
    exact hm
  obtain ⟨c, hc, hcm⟩ := hget
  refine ⟨c, List.mem_of_getElem? hc, ?_, ?_, ?_⟩
  · unfold findClosePair
    have e0 : pyGetItem ((a :: b :: l).map f) ((0 : ℕ) : ℤ) = .ok (f a) := getItem_map f rfl
    rw [e0]
    simp only [bind, Except.bind, List.take_zero, List.nil_append, List.map_cons, zero_add, List.drop_succ_cons, List.drop_zero]
    have e1 : npArgmax (f b ⬝ᵥ f a :: List.map (fun v => v ⬝ᵥ f a) (l.map f)) = .ok k := hk
    rw [e1]
    simp only
    have e2 : pyGetItem (f b :: l.map f) (k : ℤ) = .ok (f c) := getItem_map f (l := b :: l) hc
    rw [e2]
    rfl
  · intro d hd
    obtain ⟨j, hj⟩ := List.getElem?_of_mem hd
    have := hle j (f d ⬝ᵥ f a) (by rw [List.getElem?_map, List.getElem?_map, hj]; rfl)
    rcases this with h | h
    · rw [hcm]; exact h.le
    · rw [hcm, h.1]
  · intro h
    have h0 := hle 0 (f b ⬝ᵥ f a) rfl
    rcases h0 with h0 | h0
    · have := h c (List.mem_of_getElem? hc)
      rw [hcm] at this; linarith
    · have : k = 0 := by omega
      subst this
      simpa using hc.symm

theorem third {M : Matrix (Fin 3) (Fin 3) ℝ} (hM : IsRotation M) {p : Vec3} (hp : M *ᵥ p = ![0, 0, 1]) (v : Vec3) :
    (M *ᵥ v) 2 = v ⬝ᵥ p := by
  rw [← hM.dot v p, hp]
  simp [dotProduct, Fin.sum_univ_three]

theorem face_le {i j : ℕ} (hi : i < 12) (hj : j < 12) (hne : j ≠ i) : face j ⬝ᵥ face i ≤ 1 / 2 := by
  have h1 := g_lo
  have h2 := g_hi
  rw [face_val hi hj hne]
  have h3 : g / (2 + g) ≤ 1 / 2 := by rw [div_le_iff₀ (by linarith)]; linarith
  have h4 : 0 ≤ g / (2 + g) := by positivity
  split_ifs <;> linarith

/-- The rotated and sorted faces, for a rotation that puts `p` on the pole. -/
theorem faces_sorted {M : Matrix (Fin 3) (Fin 3) ℝ} (hM : IsRotation M) {p : Vec3} (hp : M *ᵥ p = ![0, 0, 1])
    (hz : ∀ i < 12, ∀ j < 12, face i ⬝ᵥ p = face j ⬝ᵥ p ∨ face i ⬝ᵥ p + 1 / 10 < face j ⬝ᵥ p ∨ face j ⬝ᵥ p + 1 / 10 < face i ⬝ᵥ p) :
    ∃ P : List ℕ, P.Perm (List.range 12) ∧ sortedVectorList ((List.range 12).map fun i => M *ᵥ face i) = .ok (P.map fun i => M *ᵥ face i) ∧
      (P.map fun i => M *ᵥ face i).Pairwise fun u v => v 2 ≤ u 2 := by
  apply sorted_eq (f := fun i => M *ᵥ face i)
  · intro i hi; rw [hM.dot]; exact face_unit hi
  · intro i hi j hj hne; rw [hM.dot]; exact face_le hj hi hne
  · intro i hi j hj
    rw [third hM hp, third hM hp]
    exact hz i hi j hj


theorem vf_dot (t : ℕ × ℕ × ℕ) (i : ℕ) : face i ⬝ᵥ vtx t = (Real.sqrt (2 + g))⁻¹ * (Real.sqrt (6 + 9 * g))⁻¹ * ev (dotZ (faceZ i) (vertZ t)) := by
  unfold vtx face
  rw [smul_dotProduct, dotProduct_smul, dot_toVec, smul_eq_mul, smul_eq_mul, ← mul_assoc]

theorem vf_cases : ∀ t ∈ triples, ∀ i < 12, dotZ (faceZ i) (vertZ t) = if i ∈ keyOf t then (2, 3) else
    if dotZ (faceZ i) (vertZ t) = (0, 1) then (0, 1) else if dotZ (faceZ i) (vertZ t) = (0, -1) then (0, -1) else (-2, -3) := by
  decide +kernel

/-- The scale of the products of faces and vertices. -/
theorem nfv : 0.115 < (Real.sqrt (2 + g))⁻¹ * (Real.sqrt (6 + 9 * g))⁻¹ ∧ (Real.sqrt (2 + g))⁻¹ * (Real.sqrt (6 + 9 * g))⁻¹ < 0.117 := by
  have h1 := g_lo
  have h2 := g_hi
  rw [← mul_inv, ← Real.sqrt_mul (by linarith)]
  have e : (2 + g) * (6 + 9 * g) = 21 + 33 * g := by linear_combination 9 * g_sq
  rw [e]
  have l : (8.6 : ℝ) < Real.sqrt (21 + 33 * g) := Real.lt_sqrt_of_sq_lt (by linarith)
  have u : Real.sqrt (21 + 33 * g) < 8.65 := (Real.sqrt_lt' (by norm_num)).2 (by linarith)
  constructor
  · rw [lt_inv_comm₀ (by norm_num) (by linarith)]
    refine u.trans ?_
    norm_num
  · rw [inv_lt_comm₀ (by linarith) (by norm_num)]
    refine lt_trans ?_ l
    norm_num

theorem gap_faces {i j : ℕ} (hi : i < 12) (hj : j < 12) : face i ⬝ᵥ face 0 = face j ⬝ᵥ face 0 ∨
    face i ⬝ᵥ face 0 + 1 / 10 < face j ⬝ᵥ face 0 ∨ face j ⬝ᵥ face 0 + 1 / 10 < face i ⬝ᵥ face 0 := by
  have h1 := g_lo
  have h2 := g_hi
  have hlo : 0.4 < g / (2 + g) := by rw [lt_div_iff₀ (by linarith)]; linarith
  have hhi : g / (2 + g) < 0.5 := by rw [div_lt_iff₀ (by linarith)]; linarith
  have val : ∀ k < 12, face k ⬝ᵥ face 0 = 1 ∨ face k ⬝ᵥ face 0 = g / (2 + g) ∨ face k ⬝ᵥ face 0 = -(g / (2 + g)) ∨ face k ⬝ᵥ face 0 = -1 := by
    intro k hk
    by_cases h : k = 0
    · subst h; exact Or.inl (face_unit hk)
    · rw [face_val (by norm_num) hk h]
      split_ifs
      · exact Or.inr (Or.inl rfl)
      · exact Or.inr (Or.inr (Or.inl rfl))
      · exact Or.inr (Or.inr (Or.inr rfl))
  set x := g / (2 + g)
  rcases val i hi with h | h | h | h <;> rcases val j hj with h' | h' | h' | h' <;> rw [h, h'] <;>
    first | exact Or.inl rfl | (right; left; linarith) | (right; right; linarith)

theorem gap_vertex {t : ℕ × ℕ × ℕ} (ht : t ∈ triples) {i j : ℕ} (hi : i < 12) (hj : j < 12) : face i ⬝ᵥ vtx t = face j ⬝ᵥ vtx t ∨
    face i ⬝ᵥ vtx t + 1 / 10 < face j ⬝ᵥ vtx t ∨ face j ⬝ᵥ vtx t + 1 / 10 < face i ⬝ᵥ vtx t := by
  have h1 := g_lo
  have h2 := g_hi
  obtain ⟨n1, n2⟩ := nfv
  rw [vf_dot, vf_dot]
  set n := (Real.sqrt (2 + g))⁻¹ * (Real.sqrt (6 + 9 * g))⁻¹
  have val : ∀ k < 12, ev (dotZ (faceZ k) (vertZ t)) = 2 + 3 * g ∨ ev (dotZ (faceZ k) (vertZ t)) = g ∨
      ev (dotZ (faceZ k) (vertZ t)) = -g ∨ ev (dotZ (faceZ k) (vertZ t)) = -(2 + 3 * g) := by
    intro k hk
    rw [vf_cases t ht k hk]
    split_ifs
    · left; simp [ev]
    · right; left; simp [ev]
    · right; right; left; simp [ev]
    · right; right; right; simp only [ev]; push_cast; ring
  rcases val i hi with h | h | h | h <;> rcases val j hj with h' | h' | h' | h' <;> rw [h, h'] <;>
    first | exact Or.inl rfl | (right; left; nlinarith) | (right; right; nlinarith)

end Dodeca
end Skymap
