import Verif.Lemmas.Rings
import Mathlib.Data.Rat.Floor
import Mathlib.Algebra.Order.Ring.Rat

/-! # C26, C29: numbering of the tracts of a rings sky map -/

set_option linter.unusedSectionVars false

namespace Skymap
namespace Rings
variable {K : Type} {R : Rings K}

/-- C26: every index in range is in a place, every place has exactly one index, indices increase with ring and then tract, and
other indices are an `IndexError`. -/
theorem C26_bijection (h : R.WF) (hv : R.version = 1) :
    (∀ i, 0 ≤ i ∧ i < R.numTracts → ∃ p, R.getRingIndices i = .ok p ∧ RingPlace R.ringNums p.1 p.2) ∧
    (∀ r t, RingPlace R.ringNums r t → ∃! i, (0 ≤ i ∧ i < R.numTracts) ∧ R.getRingIndices i = .ok (r, t)) ∧
    (∀ i j p q, 0 ≤ i → i < j → j < R.numTracts → R.getRingIndices i = .ok p → R.getRingIndices j = .ok q → RingBefore p q) ∧
    (∀ i, ¬ (0 ≤ i ∧ i < R.numTracts) → R.getRingIndices i = .error .IndexError) := by
  have h2 := h.numTracts_ge
  have key : ∀ i j p q, 0 ≤ i → i < j → j < R.numTracts → R.getRingIndices i = .ok p → R.getRingIndices j = .ok q →
      RingBefore p q := by
    intro i j p q hi hij hj hp hq
    have rows : ∀ {k : Nat} {n u : Int}, R.ringNums[k]? = some n → 0 ≤ u → u < n →
        (k : Int) < R.config.numRings := fun hk _ _ => by exact_mod_cast h.lt_numRings hk
    rcases h.index_cases ⟨hi, by omega⟩ with rfl | rfl | ⟨k, n, u, hk, h3, h4, rfl⟩
    · rw [getRingIndices_south] at hp
      obtain rfl := Except.ok.inj hp
      rcases h.index_cases (i := j) ⟨by omega, hj⟩ with rfl | rfl | ⟨k', n', u', hk', h3', h4', rfl⟩
      · omega
      · rw [h.getRingIndices_north] at hq
        obtain rfl := Except.ok.inj hq
        left; simp; omega
      · rw [h.getRingIndices_ring hv hk' h3' h4'] at hq
        obtain rfl := Except.ok.inj hq
        left; simp; omega
    · omega
    · rw [h.getRingIndices_ring hv hk h3 h4] at hp
      obtain rfl := Except.ok.inj hp
      rcases h.index_cases (i := j) ⟨by omega, hj⟩ with rfl | rfl | ⟨k', n', u', hk', h3', h4', rfl⟩
      · omega
      · rw [h.getRingIndices_north] at hq
        obtain rfl := Except.ok.inj hq
        left; exact rows hk h3 h4
      · rw [h.getRingIndices_ring hv hk' h3' h4'] at hq
        obtain rfl := Except.ok.inj hq
        rcases lt_trichotomy k k' with hlt | rfl | hgt
        · left; simpa using hlt
        · right; exact ⟨rfl, by simp only; omega⟩
        · have := sum_take_mono h.pos (show k' + 1 ≤ k by omega)
          rw [sum_take_succ hk'] at this
          omega
  refine ⟨?_, ?_, key, fun i hi => getRingIndices_out R h2 hi⟩
  · intro i hi
    rcases h.index_cases hi with rfl | rfl | ⟨k, n, u, hk, h3, h4, rfl⟩
    · exact ⟨_, getRingIndices_south R, .south⟩
    · exact ⟨_, h.getRingIndices_north, by rw [← h.length]; exact .north⟩
    · exact ⟨_, h.getRingIndices_ring hv hk h3 h4, .ring k n u hk ⟨h3, h4⟩⟩
  · intro r t hp
    have ex : ∃ i, (0 ≤ i ∧ i < R.numTracts) ∧ R.getRingIndices i = .ok (r, t) := by
      cases hp with
      | south => exact ⟨0, ⟨by omega, by omega⟩, getRingIndices_south R⟩
      | ring k n t hk ht =>
        have := h.block_range hk ht.1 ht.2
        exact ⟨_, ⟨by omega, by omega⟩, h.getRingIndices_ring hv hk ht.1 ht.2⟩
      | north => exact ⟨R.numTracts - 1, ⟨by omega, by omega⟩, by rw [h.length]; exact h.getRingIndices_north⟩
    obtain ⟨i, hi, hi'⟩ := ex
    refine ⟨i, ⟨hi, hi'⟩, ?_⟩
    rintro j ⟨hj, hj'⟩
    rcases lt_trichotomy i j with hlt | rfl | hgt
    · have := key i j _ _ hi.1 hlt hj.2 hi' hj'
      simp [RingBefore] at this
    · rfl
    · have := key j i _ _ hj.1 hgt hi.2 hj' hi'
      simp [RingBefore] at this

/-- C26: the index of tract `t` of ring `r` is one for the south cap, plus the sizes of the rings before, plus `t`; the caps are first
and last. -/
theorem C26_index (h : R.WF) (hv : R.version = 1) {i r t : Int} :
    R.getRingIndices i = .ok (r, t) ↔ (i = 0 ∧ r = -1 ∧ t = 0) ∨
      (i = R.ringNums.sum + 1 ∧ r = R.config.numRings ∧ t = 0) ∨
      (∃ n, 0 ≤ r ∧ R.ringNums[r.toNat]? = some n ∧ 0 ≤ t ∧ t < n ∧ i = 1 + (R.ringNums.take r.toNat).sum + t) := by
  have h2 := h.numTracts_ge
  have e1 : R.numTracts - 1 = R.ringNums.sum + 1 := by simp only [numTracts]; omega
  constructor
  · intro hi
    by_cases hr : 0 ≤ i ∧ i < R.numTracts
    · rcases h.index_cases hr with rfl | rfl | ⟨k, n, u, hk, h3, h4, rfl⟩
      · rw [getRingIndices_south] at hi
        simp at hi; exact .inl ⟨rfl, by omega, by omega⟩
      · rw [h.getRingIndices_north] at hi
        simp at hi; exact .inr (.inl ⟨e1, by omega, by omega⟩)
      · rw [h.getRingIndices_ring hv hk h3 h4] at hi
        simp at hi
        obtain ⟨rfl, rfl⟩ := hi
        exact .inr (.inr ⟨n, by omega, by simpa using hk, h3, h4, by simp⟩)
    · rw [getRingIndices_out R h2 hr] at hi; cases hi
  · rintro (⟨rfl, rfl, rfl⟩ | ⟨rfl, rfl, rfl⟩ | ⟨n, h3, h4, h5, h6, rfl⟩)
    · exact getRingIndices_south R
    · rw [← e1]; exact h.getRingIndices_north
    · rw [h.getRingIndices_ring hv h4 h5 h6]
      simp; omega

/-- A rings sky map with rings of 5, 6 and 5 tracts. -/
def Ex.three (version : Int) : Rings ℚ := ⟨⟨3, 0, 1⟩, version, 1, [5, 6, 5], 0⟩

theorem Ex.three_wf (v : Int) : (Ex.three v).WF := ⟨rfl, by simp [Ex.three]⟩

example : (Ex.three 1).getRingIndices 6 = .ok (1, 0) ∧ (Ex.three 1).getRingIndices 12 = .ok (2, 0) ∧
    (Ex.three 1).getRingIndices 17 = .ok (3, 0) ∧ (Ex.three 1).getRingIndices 18 = .error .IndexError := by decide

end Rings
end Skymap
