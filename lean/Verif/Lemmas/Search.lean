import Verif.Lemmas.SkyMap
import Verif.Lemmas.FindPatch

/-! # Lemmas about loops over tracts and about the generic searches -/

set_option linter.unusedSectionVars false

namespace Skymap
open BaseSkyMap

variable {Sky K σ β : Type} {M : SkyMapOps σ Sky K}

theorem SkyMapOps.Permanent.mono {s s' : σ} (h : M.Permanent s) (ha : M.After s s') : M.Permanent s' :=
  fun s₁ h1 => h s₁ (ha.trans h1)

/-- A loop over accesses with a body that only reads the state. -/
theorem loop_spec (body : Nat → TractRef Sky K → PyS σ β) (h : Nat → TractRef Sky K → σ → PyM β)
    (hb : ∀ i t s, body i t s = (h i t s, s)) (L : List Nat) (s s' : σ) (l : List β)
    (he : PyS.mapM (fun i : Nat => M.getItem (i : Int) >>= body i) L s = (.ok l, s')) :
    M.After s s' ∧ List.Forall₂ (fun (i : Nat) x => ∃ r s₀ s₁, M.After s s₀ ∧ M.getItem i s₀ = (.ok r, s₁) ∧
      M.After s₁ s' ∧ h i r s₁ = .ok x) L l := by
  induction L generalizing s l with
  | nil =>
    change (Except.ok [], s) = _ at he
    simp only [Prod.mk.injEq, Except.ok.injEq] at he
    obtain ⟨rfl, rfl⟩ := he
    exact ⟨SkyMapOps.After.refl _, .nil⟩
  | cons i L ih =>
    rw [PyS.mapM_cons] at he
    obtain ⟨x, s₁, h1, h2⟩ := PyS.bind_inv he
    obtain ⟨r, s₁', h3, h4⟩ := PyS.bind_inv h1
    obtain ⟨xs, s₂, h5, h6⟩ := PyS.bind_inv h2
    rw [hb] at h4
    simp only [Prod.mk.injEq] at h4
    obtain ⟨h4, rfl⟩ := h4
    rw [PyS.pure_apply] at h6
    simp only [Prod.mk.injEq, Except.ok.injEq] at h6
    obtain ⟨rfl, rfl⟩ := h6
    obtain ⟨i1, i2⟩ := ih _ _ h5
    have hst : M.After s s₁' := SkyMapOps.After.step' h3
    refine ⟨hst.trans i1, .cons ⟨r, s, s₁', SkyMapOps.After.refl _, h3, i1, h4⟩ ?_⟩
    refine List.Forall₂.imp ?_ i2
    rintro k x ⟨r', t0, t1, g1, g2, g3, g4⟩
    exact ⟨r', t0, t1, hst.trans g1, g2, g3, g4⟩

/-- A loop whose body never fails succeeds if every access does. -/
theorem loop_ok (body : Nat → TractRef Sky K → PyS σ β) (hb : ∀ i t s, ∃ x, body i t s = (.ok x, s))
    (L : List Nat) (s : σ) (hg : ∀ i ∈ L, ∀ s₁, M.After s s₁ → ∃ r s₂, M.getItem i s₁ = (.ok r, s₂)) :
    ∃ l s', PyS.mapM (fun i : Nat => M.getItem (i : Int) >>= body i) L s = (.ok l, s') := by
  induction L generalizing s with
  | nil => exact ⟨[], s, rfl⟩
  | cons i L ih =>
    obtain ⟨r, s₂, h1⟩ := hg i (by simp) s (SkyMapOps.After.refl _)
    obtain ⟨x, h2⟩ := hb i r s₂
    have ha : M.After s s₂ := SkyMapOps.After.step' h1
    obtain ⟨l, s', h3⟩ := ih s₂ fun j hj s₁ h => hg j (by simp [hj]) s₁ (ha.trans h)
    refine ⟨x :: l, s', ?_⟩
    rw [PyS.mapM_cons, PyS.bind_ok (s' := s₂) (a := x), PyS.bind_ok h3]
    · rfl
    · rw [PyS.bind_ok h1, h2]

/-- A failing loop with a body that never fails fails at an access. -/
theorem loop_err (body : Nat → TractRef Sky K → PyS σ β) (hb : ∀ i t s, ∃ x, body i t s = (.ok x, s))
    (L : List Nat) (s s' : σ) (e : PyErr)
    (he : PyS.mapM (fun i : Nat => M.getItem (i : Int) >>= body i) L s = (.error e, s')) :
    ∃ i ∈ L, ∃ s₁, M.After s s₁ ∧ M.getItem i s₁ = (.error e, s') := by
  induction L generalizing s with
  | nil => change (Except.ok [], s) = _ at he; simp at he
  | cons i L ih =>
    rw [PyS.mapM_cons] at he
    rcases hg : M.getItem i s with ⟨x, s₁⟩
    cases x with
    | error e' =>
      rw [PyS.bind_err (s' := s₁) (e := e')] at he
      · simp only [Prod.mk.injEq, Except.error.injEq] at he
        obtain ⟨rfl, rfl⟩ := he
        exact ⟨i, by simp, s, SkyMapOps.After.refl _, hg⟩
      · rw [PyS.bind_err hg]
    | ok r =>
      obtain ⟨x, hx⟩ := hb i r s₁
      rw [PyS.bind_ok (s' := s₁) (a := x)] at he
      · rcases hl : PyS.mapM (fun i : Nat => M.getItem (i : Int) >>= body i) L s₁ with ⟨y, s₂⟩
        cases y with
        | ok l =>
          rw [PyS.bind_ok hl, PyS.pure_apply] at he; simp at he
        | error e' =>
          rw [PyS.bind_err hl] at he
          simp only [Prod.mk.injEq, Except.error.injEq] at he
          obtain ⟨rfl, rfl⟩ := he
          obtain ⟨j, hj, s₃, h3, h4⟩ := ih _ hl
          exact ⟨j, by simp [hj], s₃, (SkyMapOps.After.step' hg).trans h3, h4⟩
      · rw [PyS.bind_ok hg, hx]

theorem forall₂_range {α : Type} {R : Nat → α → Prop} {n : Nat} {l : List α}
    (h : List.Forall₂ R (List.range n) l) : l.length = n ∧ ∀ k, k < n → ∃ x, l[k]? = some x ∧ R k x := by
  have hl : l.length = n := by rw [← h.length_eq, List.length_range]
  refine ⟨hl, fun k hk => ?_⟩
  have hk' : k < l.length := by omega
  refine ⟨l[k], List.getElem?_eq_getElem hk', ?_⟩
  have := (List.forall₂_iff_get.1 h).2 k (by simpa using hk) hk'
  simpa using this

variable [Field K] [LinearOrder K] [FloorRing K]

theorem tupleLe_iff (a b : K × Nat × TractRef Sky K) : tupleLe a b = true ↔ a.1 < b.1 ∨ (a.1 = b.1 ∧ a.2.1 ≤ b.2.1) := by
  simp [tupleLe]

theorem mem_insertBy {α : Type} (le : α → α → Bool) (a x : α) (l : List α) :
    x ∈ insertBy le a l ↔ x = a ∨ x ∈ l := by
  induction l with
  | nil => simp [insertBy]
  | cons b l ih =>
    unfold insertBy
    split
    · simp
    · simp only [List.mem_cons, ih]; tauto

theorem mem_pySort {α : Type} (le : α → α → Bool) (x : α) (l : List α) : x ∈ pySort le l ↔ x ∈ l := by
  induction l with
  | nil => simp [pySort]
  | cons b l ih =>
    change x ∈ insertBy le b (pySort le l) ↔ _
    rw [mem_insertBy, ih, List.mem_cons]

theorem sorted_insertBy {α : Type} (le : α → α → Bool) (htr : ∀ a b c, le a b = true → le b c = true → le a c = true)
    (htot : ∀ a b, le a b = true ∨ le b a = true) (a : α) (l : List α)
    (h : l.Pairwise fun x y => le x y = true) : (insertBy le a l).Pairwise fun x y => le x y = true := by
  induction l with
  | nil => simp [insertBy]
  | cons b l ih =>
    obtain ⟨h1, h2⟩ := List.pairwise_cons.1 h
    unfold insertBy
    split
    · rename_i hab
      refine List.pairwise_cons.2 ⟨?_, h⟩
      intro y hy
      rcases List.mem_cons.1 hy with rfl | hy
      · exact hab
      · exact htr _ _ _ hab (h1 y hy)
    · rename_i hab
      refine List.pairwise_cons.2 ⟨?_, ih h2⟩
      intro y hy
      rcases (mem_insertBy le a y l).1 hy with rfl | hy
      · exact (htot y b).resolve_left hab
      · exact h1 y hy

theorem sorted_pySort {α : Type} (le : α → α → Bool) (htr : ∀ a b c, le a b = true → le b c = true → le a c = true)
    (htot : ∀ a b, le a b = true ∨ le b a = true) (l : List α) : (pySort le l).Pairwise fun x y => le x y = true := by
  induction l with
  | nil => exact List.Pairwise.nil
  | cons b l ih => exact sorted_insertBy le htr htot b _ ih

/-- The head of the sorted list is its least element. -/
theorem sort_head {l : List (K × Nat × TractRef Sky K)} {x : K × Nat × TractRef Sky K}
    (h : (pySort tupleLe l).head? = some x) : x ∈ l ∧ ∀ y ∈ l, tupleLe x y = true := by
  have hp : (pySort tupleLe l).Pairwise (fun a b => tupleLe a b = true) := by
    apply sorted_pySort
    · intro a b c h1 h2
      rw [tupleLe_iff] at *
      rcases h1 with h1 | ⟨h1, h1'⟩ <;> rcases h2 with h2 | ⟨h2, h2'⟩
      · exact Or.inl (lt_trans h1 h2)
      · exact Or.inl (h2 ▸ h1)
      · exact Or.inl (h1 ▸ h2)
      · exact Or.inr ⟨h1.trans h2, by omega⟩
    · intro a b
      rw [tupleLe_iff, tupleLe_iff]
      rcases lt_trichotomy a.1 b.1 with h | h | h
      · exact Or.inl (Or.inl h)
      · rcases Nat.le_total a.2.1 b.2.1 with h' | h'
        · exact Or.inl (Or.inr ⟨h, h'⟩)
        · exact Or.inr (Or.inr ⟨h.symm, h'⟩)
      · exact Or.inr (Or.inl h)
  have hm : ∀ y, y ∈ pySort tupleLe l ↔ y ∈ l := fun y => mem_pySort _ _ _
  cases hl : pySort tupleLe l with
  | nil => rw [hl] at h; simp at h
  | cons a t =>
    rw [hl] at h hp hm
    simp only [List.head?_cons, Option.some.injEq] at h
    subst h
    refine ⟨(hm a).1 (by simp), fun y hy => ?_⟩
    rcases List.mem_cons.1 ((hm y).2 hy) with rfl | hy'
    · rw [tupleLe_iff]; exact Or.inr ⟨rfl, le_refl _⟩
    · exact (List.pairwise_cons.1 hp).1 y hy'

theorem sort_head_none {l : List (K × Nat × TractRef Sky K)} (h : (pySort tupleLe l).head? = none) : l = [] := by
  rw [List.head?_eq_none_iff] at h
  rw [List.eq_nil_iff_forall_not_mem]
  intro x hx
  have := (mem_pySort tupleLe x l).2 hx
  rw [h] at this
  simp at this

end Skymap
