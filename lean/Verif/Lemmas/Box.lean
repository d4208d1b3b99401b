import Verif.Spec.Basic
import Mathlib.Tactic.Linarith
import Mathlib.Tactic.Ring
import Mathlib.Tactic.NormNum
import Mathlib.Data.List.Nodup
import Mathlib.Data.List.Forall2

/-! # Lemmas about `Box2I`, `pyRange` and `pyMapM` -/

namespace Skymap

theorem I2.ext' {a b : I2} (hx : a.x = b.x) (hy : a.y = b.y) : a = b := by
  cases a; cases b; simp_all

namespace Box2I

theorem contains_iff (b : Box2I) (p : Point2I) : b.contains p = true ↔
    b.min.x ≤ p.x ∧ p.x < b.min.x + b.dim.x ∧ b.min.y ≤ p.y ∧ p.y < b.min.y + b.dim.y := by
  simp [contains]

theorem isEmpty_iff (b : Box2I) : b.isEmpty = true ↔ b.dim.x = 0 := by simp [isEmpty]

theorem mk'_pos (c : Point2I) (d : Extent2I) (hx : 0 < d.x) (hy : 0 < d.y) : mk' c d = ⟨c, d⟩ := by
  have h1 : ¬ (d.x = 0 ∨ d.y = 0) := by omega
  have h2 : ¬ d.x < 0 := by omega
  have h3 : ¬ d.y < 0 := by omega
  simp [mk', h1, h2, h3]

theorem mk'_zero (c : Point2I) (d : Extent2I) (h : d.x = 0 ∨ d.y = 0) : mk' c d = empty := by
  simp [mk', h]

theorem mk'_wf (c : Point2I) (d : Extent2I) : (mk' c d).WF := by
  unfold mk'
  split
  · left; simp [empty]
  · right
    dsimp only
    constructor <;> split <;> simp <;> omega

theorem empty_wf : empty.WF := Or.inl ⟨rfl, rfl⟩

theorem grow_wf (b : Box2I) (h : b.WF) (n : Int) : (b.grow n).WF := by
  unfold grow
  split
  · exact h
  · dsimp only
    split
    · exact empty_wf
    · right; constructor <;> simp <;> omega

theorem clip_wf (b o : Box2I) (h : b.WF) : (b.clip o).WF := by
  unfold clip
  split
  · exact h
  · split
    · exact empty_wf
    · dsimp only
      split
      · exact empty_wf
      · right; constructor <;> simp <;> omega

/-- Growing by a non-negative amount. -/
theorem grow_pos (b : Box2I) (hx : 0 < b.dim.x) (hy : 0 < b.dim.y) (n : Int) (hn : 0 ≤ n) :
    b.grow n = ⟨⟨b.min.x - n, b.min.y - n⟩, ⟨b.dim.x + 2 * n, b.dim.y + 2 * n⟩⟩ := by
  have h1 : b.isEmpty = false := by simp [isEmpty]; omega
  have h2 : ¬ (b.dim.x + 2 * n ≤ 0 ∨ b.dim.y + 2 * n ≤ 0) := by omega
  simp [grow, h1, h2]

theorem contains_grow (b : Box2I) (h : b.WF) (n : Int) (hn : 0 ≤ n) (p : Point2I) :
    (b.grow n).contains p = true ↔ b.Near n p := by
  rcases h with ⟨hx, hy⟩ | ⟨hx, hy⟩
  · have h1 : b.isEmpty = true := by simp [isEmpty, hx]
    have : b.grow n = b := by simp [grow, h1]
    rw [this]
    constructor
    · intro hc; rw [contains_iff] at hc; omega
    · rintro ⟨q, hq, -⟩; rw [contains_iff] at hq; omega
  · rw [grow_pos b hx hy n hn, contains_iff]
    dsimp only
    constructor
    · rintro ⟨h1, h2, h3, h4⟩
      refine ⟨⟨max b.min.x (Min.min p.x (b.min.x + b.dim.x - 1)),
        max b.min.y (Min.min p.y (b.min.y + b.dim.y - 1))⟩, ?_, ?_, ?_⟩
      · rw [contains_iff]; dsimp only; omega
      · dsimp only; rw [abs_le]; omega
      · dsimp only; rw [abs_le]; omega
    · rintro ⟨q, hq, hx', hy'⟩
      rw [contains_iff] at hq
      rw [abs_le] at hx' hy'
      omega

theorem contains_clip (b o : Box2I) (p : Point2I) :
    (b.clip o).contains p = true ↔ b.contains p = true ∧ o.contains p = true := by
  unfold clip
  by_cases h1 : b.isEmpty = true
  · rw [if_pos h1]
    rw [isEmpty_iff] at h1
    simp only [contains_iff]
    omega
  · rw [if_neg h1]
    rw [isEmpty_iff] at h1
    by_cases h2 : o.isEmpty = true
    · rw [if_pos h2]
      rw [isEmpty_iff] at h2
      simp only [contains_iff, empty]
      omega
    · rw [if_neg h2]
      dsimp only
      split
      · rename_i h3
        simp only [contains_iff, empty, getMax] at *
        omega
      · rename_i h3
        simp only [contains_iff, getMax] at *
        omega

theorem containsBox_of (b o : Box2I) (ho : o.WF) (h : ∀ p, o.contains p = true → b.contains p = true) :
    b.containsBox o = true := by
  unfold containsBox
  rcases ho with ⟨hx, hy⟩ | ⟨hx, hy⟩
  · simp [isEmpty, hx]
  · have h1 := h o.getMin (by rw [contains_iff]; simp [getMin]; omega)
    have h2 := h o.getMax (by rw [contains_iff]; simp [getMax]; omega)
    simp [h1, h2]

theorem contains_of_containsBox (b o : Box2I) (h : b.containsBox o = true)
    (p : Point2I) (hp : o.contains p = true) : b.contains p = true := by
  unfold containsBox at h
  rw [contains_iff] at hp
  have h1 : o.isEmpty = false := by simp [isEmpty]; omega
  simp only [h1, Bool.false_or, Bool.and_eq_true, contains_iff, getMin, getMax] at h
  rw [contains_iff]
  omega

end Box2I

/-! ### ranges -/

theorem mem_pyRange {a b k : Int} : k ∈ pyRange a b ↔ a ≤ k ∧ k < b := by
  unfold pyRange
  simp only [List.mem_map, List.mem_range]
  constructor
  · rintro ⟨n, hn, rfl⟩; omega
  · rintro ⟨h1, h2⟩; exact ⟨(k - a).toNat, by omega, by omega⟩

theorem pyRange_nodup (a b : Int) : (pyRange a b).Nodup := by
  unfold pyRange
  apply List.Nodup.map _ List.nodup_range
  intro x y h
  simp at h
  exact h

theorem length_pyRange (a b : Int) : (pyRange a b).length = (b - a).toNat := by simp [pyRange]

theorem pyRange_getElem? (a b : Int) (k : Nat) (h : (k : Int) < b - a) : (pyRange a b)[k]? = some (a + k) := by
  unfold pyRange
  rw [List.getElem?_map, List.getElem?_range (by omega)]
  rfl

/-! ### pyMapM -/

theorem pyMapM_ok_iff {α β : Type} (f : α → PyM β) (l : List α) (r : List β) :
    pyMapM f l = .ok r ↔ List.Forall₂ (fun a b => f a = .ok b) l r := by
  induction l generalizing r with
  | nil =>
    simp only [pyMapM, Except.ok.injEq, List.forall₂_nil_left_iff]
    exact eq_comm
  | cons a l ih =>
    unfold pyMapM
    cases hf : f a with
    | error e => simp [List.forall₂_cons_left_iff, hf]
    | ok b =>
      cases hl : pyMapM f l with
      | error e =>
        simp only [reduceCtorEq, false_iff]
        intro hc
        rw [List.forall₂_cons_left_iff] at hc
        obtain ⟨b', r', h1, h2, rfl⟩ := hc
        rw [← ih, hl] at h2
        exact absurd h2 (by simp)
      | ok bs =>
        simp only [Except.ok.injEq]
        constructor
        · rintro rfl
          exact .cons hf ((ih bs).1 hl)
        · intro hc
          rw [List.forall₂_cons_left_iff] at hc
          obtain ⟨b', r', h1, h2, rfl⟩ := hc
          rw [← ih, hl] at h2
          rw [hf] at h1
          simp_all

theorem pyMapM_ok_of {α β : Type} (f : α → PyM β) (g : α → β) (l : List α)
    (h : ∀ a ∈ l, f a = .ok (g a)) : pyMapM f l = .ok (l.map g) := by
  rw [pyMapM_ok_iff]
  induction l with
  | nil => simp
  | cons a l ih =>
    rw [List.map_cons]
    exact .cons (h a (by simp)) (ih fun a ha => h a (by simp [ha]))

theorem pyMapM_mem {α β : Type} {f : α → PyM β} {l : List α} {r : List β} (h : pyMapM f l = .ok r) (b : β) :
    b ∈ r ↔ ∃ a ∈ l, f a = .ok b := by
  rw [pyMapM_ok_iff] at h
  induction h with
  | nil => simp
  | cons hab _ ih =>
    simp only [List.mem_cons, exists_eq_or_imp, ih, hab, Except.ok.injEq]
    constructor
    · rintro (h | h)
      · exact Or.inl h.symm
      · exact Or.inr h
    · rintro (h | h)
      · exact Or.inl h.symm
      · exact Or.inr h

end Skymap
