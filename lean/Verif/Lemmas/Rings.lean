import Verif.Spec.Rings
import Verif.Lemmas.SkyMap
import Mathlib.Tactic.Linarith

/-! # Lemmas about the numbering of rings -/

set_option linter.unusedSectionVars false

namespace Skymap
namespace Rings
variable {K : Type}

theorem sum_nonneg {l : List Int} (hp : ∀ n ∈ l, 0 < n) : 0 ≤ l.sum := by
  induction l with
  | nil => simp
  | cons a l ih =>
    have := ih fun n h => hp n (by simp [h])
    have := hp a (by simp)
    simp; omega

theorem sum_take_succ {l : List Int} {k : Nat} {n : Int} (h : l[k]? = some n) :
    (l.take (k + 1)).sum = (l.take k).sum + n := by
  rw [List.take_add_one, h]; simp

theorem sum_take_mono {l : List Int} (hp : ∀ n ∈ l, 0 < n) {j k : Nat} (h : j ≤ k) :
    (l.take j).sum ≤ (l.take k).sum := by
  obtain ⟨d, rfl⟩ := Nat.exists_eq_add_of_le h
  rw [List.take_add, List.sum_append]
  have : 0 ≤ ((l.drop j).take d).sum := sum_nonneg fun n hn => hp n (List.mem_of_mem_drop (List.mem_of_mem_take hn))
  omega

theorem sum_take_le {l : List Int} (hp : ∀ n ∈ l, 0 < n) (k : Nat) : (l.take k).sum ≤ l.sum := by
  have := List.sum_append (l₁ := l.take k) (l₂ := l.drop k)
  rw [List.take_append_drop] at this
  have h : 0 ≤ (l.drop k).sum := sum_nonneg fun n hn => hp n (List.mem_of_mem_drop hn)
  omega

/-- Every number below the sum is in one of the blocks. -/
theorem exists_block (l : List Int) (hp : ∀ n ∈ l, 0 < n) {t : Int} (h0 : 0 ≤ t) (h1 : t < l.sum) :
    ∃ (k : Nat) (n u : Int), l[k]? = some n ∧ 0 ≤ u ∧ u < n ∧ t = (l.take k).sum + u := by
  induction l generalizing t with
  | nil => simp at h1; omega
  | cons a l ih =>
    by_cases ha : t < a
    · exact ⟨0, a, t, by simp, h0, ha, by simp⟩
    · simp only [List.sum_cons] at h1
      obtain ⟨k, n, u, h2, h3, h4, h5⟩ := ih (fun n h => hp n (by simp [h])) (t := t - a) (by omega) (by omega)
      exact ⟨k + 1, n, u, by simpa using h2, h3, h4, by simp; omega⟩

/-- Version 1: the loop finds the block. -/
theorem ringLoop_ge (l : List Int) (hp : ∀ n ∈ l, 0 < n) {k : Nat} {n u : Int} (hk : l[k]? = some n) (h0 : 0 ≤ u)
    (h1 : u < n) (ring : Int) :
    ringLoop (fun t n => decide (t ≥ n)) l ring ((l.take k).sum + u) = (ring + k, u) := by
  induction l generalizing k ring with
  | nil => simp at hk
  | cons a l ih =>
    have ha := hp a (by simp)
    cases k with
    | zero =>
      simp only [List.getElem?_cons_zero, Option.some.injEq] at hk
      subst hk
      simp only [ringLoop]
      rw [if_neg] <;> simp; omega
    | succ k =>
      simp only [List.getElem?_cons_succ] at hk
      have hs : 0 ≤ (l.take k).sum := sum_nonneg fun n hn => hp n (by simp [List.mem_of_mem_take hn])
      simp only [ringLoop]
      rw [if_pos (by simp; omega)]
      have := ih (fun n h => hp n (by simp [h])) hk (ring + 1)
      rw [show (List.take (k + 1) (a :: l)).sum + u - a = (l.take k).sum + u by simp; omega, this]
      simp; omega

/-- Version 0: the loop finds the block for `0 < u ≤ n`. -/
theorem ringLoop_gt (l : List Int) (hp : ∀ n ∈ l, 0 < n) {k : Nat} {n u : Int} (hk : l[k]? = some n) (h0 : 0 < u)
    (h1 : u ≤ n) (ring : Int) :
    ringLoop (fun t n => decide (t > n)) l ring ((l.take k).sum + u) = (ring + k, u) := by
  induction l generalizing k ring with
  | nil => simp at hk
  | cons a l ih =>
    have ha := hp a (by simp)
    cases k with
    | zero =>
      simp only [List.getElem?_cons_zero, Option.some.injEq] at hk
      subst hk
      simp only [ringLoop]
      rw [if_neg] <;> simp; omega
    | succ k =>
      simp only [List.getElem?_cons_succ] at hk
      have hs : 0 ≤ (l.take k).sum := sum_nonneg fun n hn => hp n (by simp [List.mem_of_mem_take hn])
      simp only [ringLoop]
      rw [if_pos (by simp; omega)]
      have := ih (fun n h => hp n (by simp [h])) hk (ring + 1)
      rw [show (List.take (k + 1) (a :: l)).sum + u - a = (l.take k).sum + u by simp; omega, this]
      simp; omega

theorem ringLoop_gt_zero (l : List Int) (hp : ∀ n ∈ l, 0 < n) (ring : Int) :
    ringLoop (fun t n => decide (t > n)) l ring 0 = (ring, 0) := by
  cases l with
  | nil => rfl
  | cons a l =>
    have ha := hp a (by simp)
    simp only [ringLoop]
    rw [if_neg] ; simp; omega

variable {R : Rings K}

theorem WF.numTracts_ge (h : R.WF) : 2 ≤ R.numTracts := by
  have := sum_nonneg h.pos
  simp only [numTracts]; omega

theorem sumTo_nat (R : Rings K) (r : Nat) (a : Int) : R.sumTo r a = a + (R.ringNums.take r).sum := by
  simp [sumTo]

/-- A block's indices are in range. -/
theorem WF.block_range (h : R.WF) {k : Nat} {n u : Int} (hk : R.ringNums[k]? = some n) (h0 : 0 ≤ u) (h1 : u < n) :
    0 < 1 + (R.ringNums.take k).sum + u ∧ 1 + (R.ringNums.take k).sum + u < R.numTracts - 1 := by
  have h2 := sum_take_le h.pos (k + 1)
  rw [sum_take_succ hk] at h2
  have h3 : 0 ≤ (R.ringNums.take k).sum := sum_nonneg fun n hn => h.pos n (List.mem_of_mem_take hn)
  simp only [numTracts]; omega

theorem WF.lt_numRings (h : R.WF) {k : Nat} {n : Int} (hk : R.ringNums[k]? = some n) : k < R.config.numRings := by
  rw [← h.length]; exact (List.getElem?_eq_some_iff.mp hk).1

theorem getRingIndices_south (R : Rings K) : R.getRingIndices 0 = .ok (-1, 0) := by simp [getRingIndices]

theorem WF.getRingIndices_north (h : R.WF) : R.getRingIndices (R.numTracts - 1) = .ok ((R.config.numRings : Int), 0) := by
  have := h.numTracts_ge
  unfold getRingIndices
  rw [if_neg (by omega), if_pos rfl]

theorem getRingIndices_out (R : Rings K) (h2 : 2 ≤ R.numTracts) {i : Int} (hi : ¬ (0 ≤ i ∧ i < R.numTracts)) :
    R.getRingIndices i = .error .IndexError := by
  unfold getRingIndices
  rw [if_neg (by omega), if_neg (by omega), if_pos (by omega)]

theorem WF.getRingIndices_ring (h : R.WF) (hv : R.version = 1) {k : Nat} {n u : Int} (hk : R.ringNums[k]? = some n)
    (h0 : 0 ≤ u) (h1 : u < n) : R.getRingIndices (1 + (R.ringNums.take k).sum + u) = .ok ((k : Int), u) := by
  have hb := h.block_range hk h0 h1
  unfold getRingIndices
  rw [if_neg (by omega), if_neg (by omega), if_neg (by omega), if_neg (by omega)]
  rw [show 1 + (R.ringNums.take k).sum + u - 1 = (R.ringNums.take k).sum + u by omega, ringLoop_ge _ h.pos hk h0 h1]
  simp

/-- The three kinds of indices in range. -/
theorem WF.index_cases (h : R.WF) {i : Int} (hi : 0 ≤ i ∧ i < R.numTracts) : i = 0 ∨ i = R.numTracts - 1 ∨
    ∃ (k : Nat) (n u : Int), R.ringNums[k]? = some n ∧ 0 ≤ u ∧ u < n ∧ i = 1 + (R.ringNums.take k).sum + u := by
  by_cases h0 : i = 0
  · exact .inl h0
  by_cases h1 : i = R.numTracts - 1
  · exact .inr (.inl h1)
  obtain ⟨k, n, u, h2, h3, h4, h5⟩ := exists_block R.ringNums h.pos (t := i - 1) (by omega) (by
    have := hi.2; simp only [numTracts] at *; omega)
  exact .inr (.inr ⟨k, n, u, h2, h3, h4, by omega⟩)

end Rings
end Skymap

namespace Skymap
namespace Rings
variable {K : Type} {R : Rings K}

theorem WF.getRingIndices_ring0 (h : R.WF) (hv : R.version = 0) {k : Nat} {n u : Int} (hk : R.ringNums[k]? = some n)
    (h0 : 0 < u) (h1 : u ≤ n) (hi : 1 + (R.ringNums.take k).sum + u < R.numTracts - 1) :
    R.getRingIndices (1 + (R.ringNums.take k).sum + u) = .ok ((k : Int), u) := by
  have h3 : 0 ≤ (R.ringNums.take k).sum := sum_nonneg fun n hn => h.pos n (List.mem_of_mem_take hn)
  unfold getRingIndices
  rw [if_neg (by omega), if_neg (by omega), if_neg (by omega), if_pos hv]
  rw [show 1 + (R.ringNums.take k).sum + u - 1 = (R.ringNums.take k).sum + u by omega, ringLoop_gt _ h.pos hk h0 h1]
  simp

theorem WF.getRingIndices_one (h : R.WF) (hv : R.version = 0) (hN : 0 < R.config.numRings) :
    R.getRingIndices 1 = .ok (0, 0) := by
  have h3 : 0 < R.ringNums.sum := by
    have := h.length
    cases hl : R.ringNums with
    | nil => rw [hl] at this; simp at this; omega
    | cons a l =>
      have hp := h.pos
      rw [hl] at hp
      have := sum_nonneg (l := l) fun n hn => hp n (by simp [hn])
      have := hp a (by simp)
      simp; omega
  unfold getRingIndices
  rw [if_neg (by omega), if_neg (by simp only [numTracts]; omega), if_neg (by simp only [numTracts]; omega), if_pos hv]
  rw [show (1 : Int) - 1 = 0 by rfl, ringLoop_gt_zero _ h.pos]

/-- The four kinds of indices in range in version 0. -/
theorem WF.index_cases0 (h : R.WF) {i : Int} (hi : 0 ≤ i ∧ i < R.numTracts) : i = 0 ∨ i = R.numTracts - 1 ∨
    (i = 1 ∧ 1 < R.numTracts - 1) ∨
    ∃ (k : Nat) (n u : Int), R.ringNums[k]? = some n ∧ 0 < u ∧ u ≤ n ∧ i = 1 + (R.ringNums.take k).sum + u ∧ i < R.numTracts - 1 := by
  by_cases h0 : i = 0
  · exact .inl h0
  by_cases h1 : i = R.numTracts - 1
  · exact .inr (.inl h1)
  by_cases h2 : i = 1
  · exact .inr (.inr (.inl ⟨h2, by omega⟩))
  obtain ⟨k, n, u, h2, h3, h4, h5⟩ := exists_block R.ringNums h.pos (t := i - 2) (by omega) (by
    have := hi.2; simp only [numTracts] at *; omega)
  exact .inr (.inr (.inr ⟨k, n, u + 1, h2, by omega, by omega, by omega, by omega⟩))

/-- The sizes of the rings before `k`, in two ways. -/
theorem WF.take_all (h : R.WF) {k : Nat} (hk : R.config.numRings ≤ k) : (R.ringNums.take k).sum = R.ringNums.sum := by
  rw [List.take_of_length_le (by rw [h.length]; exact hk)]

theorem WF.take_lt (h : R.WF) {k : Nat} (hk : k < R.config.numRings) : (R.ringNums.take k).sum < R.ringNums.sum := by
  have hk' : k < R.ringNums.length := by rw [h.length]; exact hk
  have h1 := sum_take_succ (List.getElem?_eq_getElem hk')
  have h2 := h.pos _ (List.getElem_mem hk')
  have h3 := sum_take_le h.pos (k + 1)
  omega

/-- Blocks are disjoint. -/
theorem WF.block_inj (h : R.WF) {k k' : Nat} {n n' u u' : Int} (hk : R.ringNums[k]? = some n) (hk' : R.ringNums[k']? = some n')
    (h0 : 0 ≤ u ∧ u < n) (h0' : 0 ≤ u' ∧ u' < n') (he : (R.ringNums.take k).sum + u = (R.ringNums.take k').sum + u') :
    k = k' ∧ u = u' := by
  have e1 := ringLoop_ge R.ringNums h.pos hk h0.1 h0.2 0
  rw [he, ringLoop_ge R.ringNums h.pos hk' h0'.1 h0'.2 0] at e1
  simp only [Prod.mk.injEq] at e1
  omega

end Rings
end Skymap
