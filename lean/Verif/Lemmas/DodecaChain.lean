import Verif.Lemmas.DodecaStructure

/-! # The vertices of a face, in order -/

namespace Skymap
namespace Dodeca
open Matrix Dodecahedron

/-- Two vertices on a common edge. -/
def nb (t t' : ℕ × ℕ × ℕ) : Bool := decide (dotZ (vertZ t') (vertZ t) = (4, 7))

/-- The vertices of a face. -/
def five (i : ℕ) : List (ℕ × ℕ × ℕ) := triples.filter fun t => decide (i ∈ keyOf t)

/-- The loop of `getVertices` on triples. -/
def chainZ : ℕ → (ℕ × ℕ × ℕ) → List (ℕ × ℕ × ℕ) → Option (List (ℕ × ℕ × ℕ))
  | _, _, [] => some []
  | 0, _, _ :: _ => none
  | n + 1, last, v :: l =>
    match (v :: l).find? (nb last) with
    | none => none
    | some t => (chainZ n t ((v :: l).eraseIdx ((v :: l).findIdx (nb last)))).map (t :: ·)

theorem range_filter_head {α : Type} (l : List α) (p : α → Bool) (h : ∃ x ∈ l, p x = true) :
    ((List.range l.length).filter fun i => decide (l[i]?.map p = some true)).head? = some (l.findIdx p) := by
  induction l with
  | nil => obtain ⟨x, hx, -⟩ := h; simp at hx
  | cons a l ih =>
    rw [List.length_cons, List.range_succ_eq_map]
    cases hp : p a with
    | true =>
      rw [List.filter_cons_of_pos (by simp [hp]), List.findIdx_cons, hp]
      rfl
    | false =>
      rw [List.filter_cons_of_neg (by simp [hp]), List.findIdx_cons, hp, List.filter_map, List.head?_map]
      have h' : ∃ x ∈ l, p x = true := by
        obtain ⟨x, hx, hpx⟩ := h
        rcases List.mem_cons.1 hx with rfl | hx
        · rw [hp] at hpx; simp at hpx
        · exact ⟨x, hx, hpx⟩
      have := ih h'
      have e : ((fun i : ℕ => decide ((a :: l)[i]?.map p = some true)) ∘ Nat.succ) = fun i : ℕ => decide (l[i]?.map p = some true) := by
        funext i
        simp
      rw [e, this]
      rfl

theorem pair_cases : ∀ i < 12, ∀ t ∈ five i, ∀ t' ∈ five i, t ≠ t' → dotZ (vertZ t') (vertZ t) = (4, 7) ∨ dotZ (vertZ t') (vertZ t) = (2, 3) := by
  decide +kernel

theorem five_triples {i : ℕ} {t : ℕ × ℕ × ℕ} (h : t ∈ five i) : t ∈ triples := List.mem_of_mem_filter h

theorem head_getItem {α : Type} {l : List α} {a : α} (h : l.head? = some a) : pyGetItem l 0 = .ok a := by
  cases l with
  | nil => simp at h
  | cons b l => simp at h; subst h; rfl

theorem chain_eq {M : Matrix (Fin 3) (Fin 3) ℝ} (hM : IsRotation M) {i : ℕ} (hi : i < 12) (n : ℕ) (last : ℕ × ℕ × ℕ)
    (l r : List (ℕ × ℕ × ℕ)) (hlast : last ∈ five i) (hl : ∀ t ∈ l, t ∈ five i ∧ t ≠ last) (hnd : l.Nodup)
    (h : chainZ n last l = some r) : chain n (M *ᵥ vtx last) (l.map fun t => M *ᵥ vtx t) = .ok (r.map fun t => M *ᵥ vtx t) := by
  have hg1 := g_lo
  have hg2 := g_hi
  have hp : (0 : ℝ) < 6 + 9 * g := by linarith
  induction n generalizing last l r with
  | zero =>
    cases l with
    | nil => simp only [chainZ, Option.some.injEq] at h; subst h; simp [chain]
    | cons v l => simp [chainZ] at h
  | succ n ih =>
    cases l with
    | nil => simp only [chainZ, Option.some.injEq] at h; subst h; simp [chain]
    | cons v l =>
      simp only [chainZ] at h
      cases hf : (v :: l).find? (nb last) with
      | none => rw [hf] at h; simp at h
      | some t =>
        rw [hf] at h
        simp only [Option.map_eq_some_iff] at h
        obtain ⟨r', hr', rfl⟩ := h
        have htm := List.mem_of_find?_eq_some hf
        have htn : nb last t = true := List.find?_some hf
        have hdot : ∀ s ∈ v :: l, ((M *ᵥ vtx s) ⬝ᵥ (M *ᵥ vtx last) = (4 + 7 * g) / (6 + 9 * g) ↔ nb last s = true) ∧
            ((M *ᵥ vtx s) ⬝ᵥ (M *ᵥ vtx last) = (4 + 7 * g) / (6 + 9 * g) ∨ (M *ᵥ vtx s) ⬝ᵥ (M *ᵥ vtx last) + 1 / 100 < (4 + 7 * g) / (6 + 9 * g)) := by
          intro s hs
          obtain ⟨h5, hne⟩ := hl s hs
          rw [hM.dot, vtx_dot]
          rcases pair_cases i hi last hlast s h5 (Ne.symm hne) with e | e
          · rw [e]; simp [nb, e, ev]
          · have hlt : ev (2, 3) / (6 + 9 * g) + 1 / 100 < (4 + 7 * g) / (6 + 9 * g) := by
              have : ev (2, 3) = 2 + 3 * g := by simp [ev]
              rw [this, div_add_div _ _ hp.ne' (by norm_num), div_lt_div_iff₀ (by positivity) hp]
              nlinarith
            rw [e]
            refine ⟨⟨fun h => by linarith, fun h => ?_⟩, Or.inr hlt⟩
            simp [nb, e] at h
        have hclose := findCloseList_eq (vl := (v :: l).map fun t => M *ᵥ vtx t) (v := M *ᵥ vtx last) (m := (4 + 7 * g) / (6 + 9 * g))
          ⟨M *ᵥ vtx t, List.mem_map.2 ⟨t, htm, rfl⟩, (hdot t htm).1.2 htn⟩
          (by
            intro u hu
            obtain ⟨s, hs, rfl⟩ := List.mem_map.1 hu
            exact (hdot s hs).2)
        have e1 : (((v :: l).map fun t => M *ᵥ vtx t).filter fun u => decide (u ⬝ᵥ (M *ᵥ vtx last) = (4 + 7 * g) / (6 + 9 * g))) =
            ((v :: l).filter (nb last)).map fun t => M *ᵥ vtx t := by
          rw [List.filter_map]
          congr 1
          apply List.filter_congr
          intro s hs
          have := (hdot s hs).1
          simp only [Function.comp]
          cases hb : nb last s <;> simp [this, hb]
        have e2 : (List.range ((v :: l).map fun t => M *ᵥ vtx t).length).filter (fun j => decide
            ((((v :: l).map fun t => M *ᵥ vtx t)[j]?.map fun u => u ⬝ᵥ (M *ᵥ vtx last)) = some ((4 + 7 * g) / (6 + 9 * g)))) =
            (List.range (v :: l).length).filter fun j => decide ((v :: l)[j]?.map (nb last) = some true) := by
          rw [List.length_map]
          apply List.filter_congr
          intro j hj
          have hj' := List.mem_range.1 hj
          rw [List.getElem?_map, List.getElem?_eq_getElem hj']
          simp only [Option.map_some, Option.some.injEq]
          have := (hdot _ (List.getElem_mem hj')).1
          simp only [this]
        rw [e1, e2] at hclose
        have hidx := range_filter_head (v :: l) (nb last) ⟨t, htm, htn⟩
        have hhead : (((v :: l).filter (nb last)).map fun t => M *ᵥ vtx t).head? = some (M *ᵥ vtx t) := by
          rw [List.head?_map, List.head?_filter, hf]; rfl
        have hlt : (v :: l).findIdx (nb last) < (v :: l).length := List.findIdx_lt_length_of_exists ⟨t, htm, htn⟩
        have hget : (v :: l)[(v :: l).findIdx (nb last)]? = some t := by
          rw [← List.find?_eq_getElem?_findIdx, hf]
        have hrest := ih t ((v :: l).eraseIdx ((v :: l).findIdx (nb last))) r' (hl t htm).1
          (by
            intro s hs
            refine ⟨(hl s (List.mem_of_mem_eraseIdx hs)).1, ?_⟩
            rintro rfl
            rw [List.mem_eraseIdx_iff_getElem] at hs
            obtain ⟨k, hk, hne, hks⟩ := hs
            rw [List.getElem?_eq_getElem hlt] at hget
            simp only [Option.some.injEq] at hget
            exact hne ((hnd.getElem_inj_iff).1 (hks.trans hget.symm)))
          (hnd.sublist (List.eraseIdx_sublist _ _)) hr'
        have hstep : chain (n + 1) (M *ᵥ vtx last) ((v :: l).map fun t => M *ᵥ vtx t) = (do
            let near ← findCloseList ((v :: l).map fun t => M *ᵥ vtx t) (M *ᵥ vtx last)
            let next ← pyGetItem near.1 0
            let ind ← pyGetItem near.2 0
            let rest ← chain n next (((v :: l).map fun t => M *ᵥ vtx t).eraseIdx ind)
            return next :: rest) := rfl
        rw [hstep, hclose]
        simp only [bind, Except.bind]
        rw [head_getItem hhead]
        simp only
        rw [head_getItem hidx]
        simp only
        rw [List.eraseIdx_map, hrest]
        rfl

/-- Consecutive vertices, also the last and the first, share an edge. -/
def cyclic : List (ℕ × ℕ × ℕ) → Bool
  | [a, b, c, d, e] => nb a b && nb b c && nb c d && nb d e && nb e a
  | _ => false

def startChain : List (ℕ × ℕ × ℕ) → Bool
  | [] => false
  | s :: S => match chainZ S.length s S with
    | none => false
    | some r => cyclic (s :: r) && decide ((s :: r).Perm (s :: S))

set_option maxRecDepth 100000 in
theorem chain_table : ∀ i < 12, ∀ S ∈ (five i).permutations', startChain S = true := by decide +kernel

/-- The list of the vertices of a face found by `getVertices`. -/
theorem getVertices_eq {o : SetOrder} (ho : o.Ok) {M : Matrix (Fin 3) (Fin 3) ℝ} (hM : IsRotation M) {P : List ℕ} {w : Bool}
    {p i : ℕ} (hp : P[p]? = some i) (hi : i < 12) : ∃ R, R.Perm (five i) ∧ cyclic R = true ∧
    getVertices ⟨w, (vertexOrder o).map fun t => M *ᵥ vtx t, P.map fun i => M *ᵥ face i⟩ (p : ℤ) = .ok (R.map fun t => M *ᵥ vtx t) := by
  have hg1 := g_lo
  have hg2 := g_hi
  obtain ⟨n1, n2⟩ := nfv
  have hperm := (vertices_eq ho).2
  set S := (vertexOrder o).filter fun t => decide (i ∈ keyOf t)
  have hS : S.Perm (five i) := hperm.filter _
  have htab := chain_table i hi S (List.mem_permutations'.2 hS)
  have hdot : ∀ t ∈ vertexOrder o, ((M *ᵥ vtx t) ⬝ᵥ (M *ᵥ face i) = (Real.sqrt (2 + g))⁻¹ * (Real.sqrt (6 + 9 * g))⁻¹ * (2 + 3 * g) ↔ i ∈ keyOf t) ∧
      ((M *ᵥ vtx t) ⬝ᵥ (M *ᵥ face i) = (Real.sqrt (2 + g))⁻¹ * (Real.sqrt (6 + 9 * g))⁻¹ * (2 + 3 * g) ∨
        (M *ᵥ vtx t) ⬝ᵥ (M *ᵥ face i) + 1 / 100 < (Real.sqrt (2 + g))⁻¹ * (Real.sqrt (6 + 9 * g))⁻¹ * (2 + 3 * g)) := by
    intro t ht
    have htT := hperm.mem_iff.1 ht
    rw [hM.dot, dotProduct_comm, vf_dot]
    have e := vf_cases t htT i hi
    set n := (Real.sqrt (2 + g))⁻¹ * (Real.sqrt (6 + 9 * g))⁻¹
    by_cases hk : i ∈ keyOf t
    · rw [if_pos hk] at e
      rw [e]
      simp [ev, hk]
    · rw [if_neg hk] at e
      have hle : ev (dotZ (faceZ i) (vertZ t)) ≤ g := by
        rw [e]
        split_ifs <;> simp only [ev] <;> push_cast <;> linarith
      have hlt : n * ev (dotZ (faceZ i) (vertZ t)) + 1 / 100 < n * (2 + 3 * g) := by nlinarith
      exact ⟨⟨fun h => by linarith, fun h => absurd h hk⟩, Or.inr hlt⟩
  have hne : S ≠ [] := by
    intro h
    rw [h] at htab
    simp [startChain] at htab
  obtain ⟨s, S', hsS⟩ := List.exists_cons_of_ne_nil hne
  have hmemS : ∀ t ∈ S, t ∈ five i := fun t ht => hS.mem_iff.1 ht
  have hs5 : s ∈ five i := hmemS s (by rw [hsS]; simp)
  rw [hsS] at htab
  simp only [startChain] at htab
  cases hr : chainZ S'.length s S' with
  | none => rw [hr] at htab; simp at htab
  | some r =>
    rw [hr] at htab
    simp only [Bool.and_eq_true, decide_eq_true_eq] at htab
    refine ⟨s :: r, htab.2.trans (hsS ▸ hS), htab.1, ?_⟩
    have hclose := findCloseList_eq (vl := (vertexOrder o).map fun t => M *ᵥ vtx t) (v := M *ᵥ face i)
      (m := (Real.sqrt (2 + g))⁻¹ * (Real.sqrt (6 + 9 * g))⁻¹ * (2 + 3 * g))
      (by
        have hso : s ∈ S := by rw [hsS]; simp
        obtain ⟨h1, h2⟩ := List.mem_filter.1 hso
        exact ⟨M *ᵥ vtx s, List.mem_map.2 ⟨s, h1, rfl⟩, (hdot s h1).1.2 (by simpa using h2)⟩)
      (by
        intro u hu
        obtain ⟨t, ht, rfl⟩ := List.mem_map.1 hu
        exact (hdot t ht).2)
    have e1 : (((vertexOrder o).map fun t => M *ᵥ vtx t).filter fun u => decide (u ⬝ᵥ (M *ᵥ face i) =
        (Real.sqrt (2 + g))⁻¹ * (Real.sqrt (6 + 9 * g))⁻¹ * (2 + 3 * g))) = (s :: S').map fun t => M *ᵥ vtx t := by
      rw [← hsS, List.filter_map]
      congr 1
      apply List.filter_congr
      intro t ht
      simp only [Function.comp, (hdot t ht).1]
    rw [e1] at hclose
    have hnd : (s :: S').Nodup := by
      rw [← hsS]
      exact (hperm.nodup_iff.2 triples_nodup).filter _
    have hc := chain_eq hM hi S'.length s S' r hs5
      (by
        intro t ht
        refine ⟨hmemS t (by rw [hsS]; simp [ht]), ?_⟩
        rintro rfl
        exact (List.nodup_cons.1 hnd).1 ht)
      (List.nodup_cons.1 hnd).2 hr
    unfold getVertices getFaceCtr
    dsimp only
    rw [getItem_map _ hp]
    simp only [bind, Except.bind]
    rw [hclose]
    simp only [List.map_cons]
    have e0 : pyGetItem (M *ᵥ vtx s :: S'.map fun t => M *ᵥ vtx t) 0 = .ok (M *ᵥ vtx s) := rfl
    rw [e0]
    simp only [List.drop_succ_cons, List.drop_zero, List.length_map]
    rw [hc]
    rfl

end Dodeca
end Skymap
