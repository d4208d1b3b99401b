import Verif.Props.RingsSky

/-! # C29: version 0 of the rings sky map -/

set_option linter.unusedSectionVars false

namespace Skymap
namespace Rings
open FloatArith (exact)
variable {c : RingsConfig ℝ} {R R' : Rings ℝ}

/-- The two versions have the same attributes. -/
theorem versions {A : FloatArith ℝ} (h : Rings.new A c 0 = .ok R) (h' : Rings.new A c 1 = .ok R') :
    R.config = R'.config ∧ R.ringNums = R'.ringNums ∧ R.ringSize = R'.ringSize ∧ R.raStart = R'.raStart ∧
      R.numTracts = R'.numTracts := by
  unfold Rings.new at h h'
  rw [if_neg (by decide), Except.ok.injEq] at h h'
  subst h h'
  exact ⟨rfl, rfl, rfl, rfl, rfl⟩

/-- `t` and `t + n` are the same tract of a ring of `n`. -/
theorem wrap_turn (x : ℝ) : wrapAngle Real.pi (x + 2 * Real.pi) = wrapAngle Real.pi x := by
  have hp := Real.pi_pos
  have e : (x + 2 * Real.pi) / (2 * Real.pi) = x / (2 * Real.pi) + 1 := by field_simp
  simp only [wrapAngle]
  rw [e, Int.floor_add_one]; push_cast; ring

/-- Where version 1 has tract `u % n` of ring `k` at index `j`, the version 0 tract numbered `u` is the same. -/
theorem same_tract (h : Rings.new exact c 0 = .ok R) (h' : Rings.new exact c 1 = .ok R') {k : Nat} {n u : Int} {i : Int}
    (hk : R.ringNums[k]? = some n) (hu : 0 ≤ u ∧ u ≤ n) (hi : R.getRingIndices i = .ok ((k : Int), u)) :
    let j := 1 + (R.ringNums.take k).sum + (if u = n then 0 else u)
    R.center exact i = R'.center exact j ∧ R.getRaDecRange exact i = R'.getRaDecRange exact j := by
  intro j
  obtain ⟨e1, e2, e3, e4, e5⟩ := versions h h'
  obtain ⟨wf, w3⟩ := new_wf h
  obtain ⟨wf', w3'⟩ := new_wf h'
  obtain ⟨-, hv, -⟩ := new_exact h
  obtain ⟨-, hv', -⟩ := new_exact h'
  have hk' : R'.ringNums[k]? = some n := by rw [← e2]; exact hk
  have hn := w3 n (List.mem_of_getElem? hk)
  have hn' : (n : ℝ) ≠ 0 := by exact_mod_cast (by omega : n ≠ 0)
  have hj : R'.getRingIndices j = .ok ((k : Int), if u = n then 0 else u) := by
    simp only [j, e2]
    exact wf'.getRingIndices_ring hv' hk' (by split <;> omega) (by split <;> omega)
  rw [center_ring h hi hk, center_ring h' hj hk', range_ring wf hi hk, range_ring wf' hj hk', e3, e4]
  split
  · next hun =>
    subst hun
    have q1 : 2 * Real.pi * (u : ℝ) / u + R'.raStart = 2 * Real.pi * ((0 : Int) : ℝ) / u + R'.raStart + 2 * Real.pi := by
      field_simp; push_cast; ring
    have q2 : R'.raStart + ((u : ℝ) - 1 / 2) * 2 * Real.pi / u =
        R'.raStart + (((0 : Int) : ℝ) - 1 / 2) * 2 * Real.pi / u + 2 * Real.pi := by field_simp; push_cast; ring
    have q3 : R'.raStart + ((u : ℝ) + 1 / 2) * 2 * Real.pi / u =
        R'.raStart + (((0 : Int) : ℝ) + 1 / 2) * 2 * Real.pi / u + 2 * Real.pi := by field_simp; push_cast; ring
    rw [q1, q2, q3, wrap_turn, wrap_turn, wrap_turn]
    exact ⟨rfl, rfl⟩
  · exact ⟨rfl, rfl⟩

/-- C29: which tracts version 0 has, compared with version 1.  For each tract `j` of version 1, the tracts `i` of version 0 with its
centre are: the same index, for the caps and for the tracts of a ring other than the first; for the first tract of ring `r` (`t = 0`):
index 1 if `r = 0`, and the index after ring `r` unless that is the north cap.  So the first tract of the first ring is there twice
and that of the last ring not at all, if there are two rings or more, and all others once. -/
theorem C29_centers (h : Rings.new exact c 0 = .ok R) (h' : Rings.new exact c 1 = .ok R') :
    R.numTracts = R'.numTracts ∧
    ∀ i, 0 ≤ i ∧ i < R.numTracts →
      (R.center exact i = R'.center exact 0 ↔ i = 0) ∧
      (R.center exact i = R'.center exact (R'.numTracts - 1) ↔ i = R.numTracts - 1) ∧
      ∀ (r : Nat) (n t : Int), R.ringNums[r]? = some n → 0 ≤ t → t < n →
        (R.center exact i = R'.center exact (1 + (R.ringNums.take r).sum + t) ↔
          if t = 0 then (i = 1 ∧ r = 0) ∨ (i = 1 + (R.ringNums.take (r + 1)).sum ∧ r + 1 < c.numRings)
          else i = 1 + (R.ringNums.take r).sum + t) := by
  obtain ⟨e1, e2, e3, e4, e5⟩ := versions h h'
  obtain ⟨wf, w3⟩ := new_wf h
  obtain ⟨wf', w3'⟩ := new_wf h'
  obtain ⟨f1, hv, -⟩ := new_exact h
  obtain ⟨f1', hv', -⟩ := new_exact h'
  refine ⟨e5, ?_⟩
  intro i hi
  have h2 := wf.numTracts_ge
  -- the index in version 1
  have key : ∃ j, (0 ≤ j ∧ j < R'.numTracts) ∧ R.center exact i = R'.center exact j ∧
      ((i = 0 ∧ j = 0) ∨ (i = R.numTracts - 1 ∧ j = R.numTracts - 1) ∨
        ∃ (k : Nat) (n u : Int), R.ringNums[k]? = some n ∧ (0 ≤ u ∧ u ≤ n) ∧ (u = 0 → k = 0) ∧ i < R.numTracts - 1 ∧
          i = 1 + (R.ringNums.take k).sum + u ∧ j = 1 + (R.ringNums.take k).sum + (if u = n then 0 else u)) := by
    have blk : ∀ (k : Nat) (n u : Int), R.ringNums[k]? = some n → (0 ≤ u ∧ u ≤ n) →
        0 ≤ 1 + (R.ringNums.take k).sum + (if u = n then 0 else u) ∧
        1 + (R.ringNums.take k).sum + (if u = n then 0 else u) < R'.numTracts := by
      intro k n u hk hu
      have := w3 n (List.mem_of_getElem? hk)
      have := wf.block_range hk (u := if u = n then 0 else u) (by split <;> omega) (by split <;> omega)
      omega
    rcases wf.index_cases0 hi with rfl | rfl | ⟨rfl, h3⟩ | ⟨k, n, u, hk, h3, h4, rfl, h5⟩
    · exact ⟨0, by omega, by rw [center_south, center_south], .inl ⟨rfl, rfl⟩⟩
    · exact ⟨R.numTracts - 1, by omega, by rw [center_north h, e5, center_north h'], .inr (.inl ⟨rfl, rfl⟩)⟩
    · have hN : 0 < R.config.numRings := by
        by_contra hc
        have := wf.length
        have h0 : R.ringNums = [] := List.length_eq_zero_iff.mp (by omega)
        simp [numTracts, h0] at h3
      have hk0 : R.ringNums[0]? = some (R.ringNums[0]'(by rw [wf.length]; exact hN)) := List.getElem?_eq_getElem _
      have hn := w3 _ (List.mem_of_getElem? hk0)
      refine ⟨_, ?_, (same_tract h h' (u := 0) hk0 ⟨le_refl _, by omega⟩ (wf.getRingIndices_one hv hN)).1, .inr (.inr ?_)⟩
      · exact blk _ _ _ hk0 ⟨le_refl _, by omega⟩
      · exact ⟨0, _, 0, hk0, ⟨le_refl _, by omega⟩, fun _ => rfl, h3, by simp, rfl⟩
    · refine ⟨_, blk k n u hk ⟨by omega, h4⟩, (same_tract h h' hk ⟨by omega, h4⟩ (wf.getRingIndices_ring0 hv hk h3 h4 h5)).1,
        .inr (.inr ⟨k, n, u, hk, ⟨by omega, h4⟩, by omega, h5, rfl, rfl⟩)⟩
  obtain ⟨j, hj, hc, hcase⟩ := key
  have iff : ∀ j', (0 ≤ j' ∧ j' < R'.numTracts) → (R.center exact i = R'.center exact j' ↔ j = j') := by
    intro j' hj'
    rw [hc]
    exact ⟨fun he => C28_distinct h' hj hj' he, fun he => by rw [he]⟩
  refine ⟨?_, ?_, ?_⟩
  · rw [iff 0 (by omega)]
    rcases hcase with ⟨a, b⟩ | ⟨a, b⟩ | ⟨k, n, u, hk, hu, hz, hlt, a, b⟩
    · omega
    · omega
    · have := w3 n (List.mem_of_getElem? hk)
      have := wf.block_range hk (u := if u = n then 0 else u) (by split <;> omega) (by split <;> omega)
      have h3 : 0 ≤ (R.ringNums.take k).sum := sum_nonneg fun n hn => wf.pos n (List.mem_of_mem_take hn)
      omega
  · rw [iff _ (by omega)]
    rcases hcase with ⟨a, b⟩ | ⟨a, b⟩ | ⟨k, n, u, hk, hu, hz, hlt, a, b⟩
    · omega
    · omega
    · have := w3 n (List.mem_of_getElem? hk)
      have := wf.block_range hk (u := if u = n then 0 else u) (by split <;> omega) (by split <;> omega)
      omega
  · intro r n t hr ht0 ht1
    have hbr := wf.block_range hr ht0 ht1
    rw [iff _ (by omega)]
    have hrN := wf.lt_numRings hr
    rw [f1] at hrN
    have hs1 := sum_take_succ hr
    have hlast : ∀ q : Nat, q < c.numRings → 1 + (R.ringNums.take q).sum < R.numTracts - 1 := by
      intro q hq
      have := wf.take_lt (k := q) (by rw [f1]; exact hq)
      simp only [numTracts]; omega
    have hlast' : ∀ q : Nat, c.numRings ≤ q → 1 + (R.ringNums.take q).sum = R.numTracts - 1 := by
      intro q hq
      have := wf.take_all (k := q) (by rw [f1]; exact hq)
      simp only [numTracts]; omega
    rcases hcase with ⟨a, b⟩ | ⟨a, b⟩ | ⟨k, m, u, hk, hu, hz, hlt, a, b⟩
    · constructor
      · intro; omega
      · intro hh
        exfalso
        split at hh
        · rcases hh with ⟨h3, -⟩ | ⟨h3, h4⟩
          · omega
          · omega
        · omega
    · constructor
      · intro; omega
      · intro hh
        exfalso
        split at hh
        · rcases hh with ⟨h3, -⟩ | ⟨h3, h4⟩
          · omega
          · have := hlast _ h4
            omega
        · omega
    · have hm := w3 m (List.mem_of_getElem? hk)
      have hkN := wf.lt_numRings hk
      rw [f1] at hkN
      have hks := sum_take_succ hk
      have hu' : 0 ≤ (if u = m then 0 else u) ∧ (if u = m then 0 else u) < m := by split <;> omega
      have inj : j = 1 + (R.ringNums.take r).sum + t ↔ k = r ∧ (if u = m then 0 else u) = t := by
        constructor
        · intro he
          exact wf.block_inj hk hr hu' ⟨ht0, ht1⟩ (by omega)
        · rintro ⟨rfl, he⟩
          omega
      rw [inj]
      constructor
      · rintro ⟨rfl, he⟩
        rw [hk, Option.some.injEq] at hr
        subst hr
        split
        · next h0 =>
          by_cases hum : u = m
          · right
            have hkk : k + 1 < c.numRings := by
              by_contra hge
              have := hlast' (k + 1) (by omega)
              omega
            exact ⟨by omega, hkk⟩
          · left
            rw [if_neg hum] at he
            have hk0 := hz (by omega)
            subst hk0
            simp at a
            omega
        · next h0 =>
          by_cases hum : u = m
          · rw [if_pos hum] at he; omega
          · rw [if_neg hum] at he; omega
      · intro hh
        split at hh
        · next h0 =>
          rcases hh with ⟨h3, rfl⟩ | ⟨h3, h4⟩
          · -- index 1
            have h6 : 0 ≤ (R.ringNums.take k).sum := sum_nonneg fun n hn => wf.pos n (List.mem_of_mem_take hn)
            obtain rfl : u = 0 := by omega
            have hk0 := hz rfl
            refine ⟨hk0, ?_⟩
            rw [if_neg (by omega)]
            exact h0.symm
          · -- the index after ring r
            by_cases hum : u = m
            · have e7 : (R.ringNums.take (k + 1)).sum = (R.ringNums.take (r + 1)).sum := by omega
              have h8 : k = r := by
                rcases lt_trichotomy k r with hlt | he | hgt
                · have := sum_take_mono wf.pos (show k + 1 ≤ r by omega)
                  omega
                · exact he
                · have := sum_take_mono wf.pos (show r + 1 ≤ k by omega)
                  omega
              exact ⟨h8, by rw [if_pos hum]; exact h0.symm⟩
            · exfalso
              have hq : r + 1 < R.ringNums.length := by rw [wf.length, f1]; exact h4
              have hr1 := List.getElem?_eq_getElem hq
              have hp := wf.pos _ (List.getElem_mem hq)
              have := wf.block_inj hk hr1 (u := u) (u' := 0) ⟨by omega, by omega⟩ ⟨by omega, by omega⟩ (by omega)
              have := hz (by omega)
              omega
        · next h0 =>
          by_cases hum : u = m
          · exfalso
            by_cases hkk : k + 1 < c.numRings
            · have hq : k + 1 < R.ringNums.length := by rw [wf.length, f1]; exact hkk
              have hr1 := List.getElem?_eq_getElem hq
              have hp := wf.pos _ (List.getElem_mem hq)
              have := wf.block_inj hr1 hr (u := 0) (u' := t) ⟨by omega, by omega⟩ ⟨by omega, by omega⟩ (by omega)
              omega
            · have := hlast' (k + 1) (by omega)
              omega
          · have := wf.block_inj hk hr (u := u) (u' := t) ⟨by omega, by omega⟩ ⟨by omega, by omega⟩ (by omega)
            rw [if_neg hum]
            exact this

/-- C29: with two rings or more, index `n_0 + 1` repeats index 1, and no tract has the centre of the first tract of the last ring. -/
theorem C29_quirk (h : Rings.new exact c 0 = .ok R) (h' : Rings.new exact c 1 = .ok R') (hN : 2 ≤ c.numRings) {n₀ nl : Int}
    (h0 : R.ringNums[0]? = some n₀) (hl : R.ringNums[c.numRings - 1]? = some nl) :
    R.center exact (n₀ + 1) = R.center exact 1 ∧ (∃ p, R.center exact 1 = .ok p) ∧
    ∀ i, 0 ≤ i ∧ i < R.numTracts → R.center exact i ≠ R'.center exact (1 + (R.ringNums.take (c.numRings - 1)).sum) := by
  obtain ⟨e1, e2, e3, e4, e5⟩ := versions h h'
  obtain ⟨wf, w3⟩ := new_wf h
  obtain ⟨f1, hv, -⟩ := new_exact h
  have hn := w3 _ (List.mem_of_getElem? h0)
  have hnl := w3 _ (List.mem_of_getElem? hl)
  have t1 := sum_take_succ h0
  simp only [List.take_zero, List.sum_nil, zero_add] at t1
  have b1 := wf.take_lt (k := 1) (by rw [f1]; omega)
  have hr1 : 0 ≤ n₀ + 1 ∧ n₀ + 1 < R.numTracts := by simp only [numTracts]; omega
  have hr2 : (0 : Int) ≤ 1 ∧ 1 < R.numTracts := by simp only [numTracts]; omega
  have A := (((C29_centers h h').2 _ hr1).2.2 0 n₀ 0 h0 (le_refl _) (by omega)).mpr (by
    rw [if_pos rfl]; right; exact ⟨by rw [t1]; omega, by omega⟩)
  have B := (((C29_centers h h').2 _ hr2).2.2 0 n₀ 0 h0 (le_refl _) (by omega)).mpr (by
    rw [if_pos rfl]; left; exact ⟨rfl, rfl⟩)
  refine ⟨A.trans B.symm, ?_, ?_⟩
  · exact ⟨_, center_ring h (wf.getRingIndices_one hv (by rw [f1]; omega)) h0⟩
  · intro i hi he
    have := (((C29_centers h h').2 _ hi).2.2 _ nl 0 hl (le_refl _) (by omega)).mp (by rw [add_zero]; exact he)
    rw [if_pos rfl] at this
    omega

/-- C29: a single ring is numbered as in version 1. -/
theorem C29_one_ring (h : Rings.new exact c 0 = .ok R) (h' : Rings.new exact c 1 = .ok R') (hN : c.numRings = 1) {i : Int}
    (hi : 0 ≤ i ∧ i < R.numTracts) : R.center exact i = R'.center exact i := by
  obtain ⟨e1, e2, e3, e4, e5⟩ := versions h h'
  obtain ⟨wf, w3⟩ := new_wf h
  obtain ⟨f1, hv, -⟩ := new_exact h
  obtain ⟨a, b, d⟩ := (C29_centers h h').2 i hi
  rcases wf.index_cases hi with rfl | rfl | ⟨k, n, u, hk, h3, h4, rfl⟩
  · exact a.mpr rfl
  · rw [b.mpr rfl, e5]
  · refine (d k n u hk h3 h4).mpr ?_
    have := wf.lt_numRings hk
    obtain rfl : k = 0 := by rw [f1] at this; omega
    split
    · next h0 => left; simp [h0]
    · rfl

/-- C29: each tract of version 0 is one of version 1: the same centre and the same inner region. -/
theorem C29_tracts (h : Rings.new exact c 0 = .ok R) (h' : Rings.new exact c 1 = .ok R') {i : Int} (hi : 0 ≤ i ∧ i < R.numTracts) :
    ∃ j, (0 ≤ j ∧ j < R'.numTracts) ∧ R.center exact i = R'.center exact j ∧
      R.getRaDecRange exact i = R'.getRaDecRange exact j := by
  obtain ⟨e1, e2, e3, e4, e5⟩ := versions h h'
  obtain ⟨wf, w3⟩ := new_wf h
  obtain ⟨wf', w3'⟩ := new_wf h'
  obtain ⟨f1, hv, -⟩ := new_exact h
  have h2 := wf.numTracts_ge
  have blk : ∀ (k : Nat) (n u : Int), R.ringNums[k]? = some n → (0 ≤ u ∧ u ≤ n) →
      0 ≤ 1 + (R.ringNums.take k).sum + (if u = n then 0 else u) ∧
      1 + (R.ringNums.take k).sum + (if u = n then 0 else u) < R'.numTracts := by
    intro k n u hk hu
    have := w3 n (List.mem_of_getElem? hk)
    have := wf.block_range hk (u := if u = n then 0 else u) (by split <;> omega) (by split <;> omega)
    omega
  rcases wf.index_cases0 hi with rfl | rfl | ⟨rfl, h3⟩ | ⟨k, n, u, hk, h3, h4, rfl, h5⟩
  · exact ⟨0, by omega, by rw [center_south, center_south], by rw [range_south, range_south, e3]⟩
  · exact ⟨R.numTracts - 1, by omega, by rw [center_north h, e5, center_north h'],
      by rw [range_north wf, e5, range_north wf', e3, e1]⟩
  · have hN : 0 < R.config.numRings := by
      by_contra hc
      have := wf.length
      have h0 : R.ringNums = [] := List.length_eq_zero_iff.mp (by omega)
      simp [numTracts, h0] at h3
    have hk0 : R.ringNums[0]? = some (R.ringNums[0]'(by rw [wf.length]; exact hN)) := List.getElem?_eq_getElem _
    have hn := w3 _ (List.mem_of_getElem? hk0)
    exact ⟨_, blk _ _ _ hk0 ⟨le_refl _, by omega⟩,
      same_tract h h' (u := 0) hk0 ⟨le_refl _, by omega⟩ (wf.getRingIndices_one hv hN)⟩
  · exact ⟨_, blk k n u hk ⟨by omega, h4⟩, same_tract h h' hk ⟨by omega, h4⟩ (wf.getRingIndices_ring0 hv hk h3 h4 h5)⟩

/-- C29: `findTract` of version 0 returns the tract that is in the right place, except that for the missing tract (the first one of the
last of two or more rings) it returns the north cap. -/
theorem C29_find (h : Rings.new exact c 0 = .ok R) (h' : Rings.new exact c 1 = .ok R') (p : SpherePoint ℝ)
    {j : Int} (hj : R'.findIndex exact p = .ok j) :
    if 2 ≤ c.numRings ∧ j = 1 + (R.ringNums.take (c.numRings - 1)).sum then R.findIndex exact p = .ok (R.numTracts - 1)
    else ∃ i, (0 ≤ i ∧ i < R.numTracts) ∧ R.findIndex exact p = .ok i ∧ R.center exact i = R'.center exact j := by
  obtain ⟨e1, e2, e3, e4, e5⟩ := versions h h'
  obtain ⟨wf, w3⟩ := new_wf h
  obtain ⟨wf', w3'⟩ := new_wf h'
  obtain ⟨f1, hv, -⟩ := new_exact h
  obtain ⟨f1', hv', -⟩ := new_exact h'
  have h2 := wf.numTracts_ge
  have ed : R'.decToRingNum exact p.lat = R.decToRingNum exact p.lat := by
    have hR : R'.firstRingStart exact = R.firstRingStart exact := by unfold firstRingStart; rw [e3]
    unfold decToRingNum
    rw [hR, e1, e3]
  have hlast : ∀ q : Nat, q < c.numRings → 1 + (R.ringNums.take q).sum < R.numTracts - 1 := by
    intro q hq
    have := wf.take_lt (k := q) (by rw [f1]; exact hq)
    simp only [numTracts]; omega
  have hlast' : ∀ q : Nat, c.numRings ≤ q → 1 + (R.ringNums.take q).sum = R.numTracts - 1 := by
    intro q hq
    have := wf.take_all (k := q) (by rw [f1]; exact hq)
    simp only [numTracts]; omega
  have htake : ∀ q : Nat, 0 ≤ (R.ringNums.take q).sum := fun q => sum_nonneg fun n hn => wf.pos n (List.mem_of_mem_take hn)
  unfold findIndex at hj ⊢
  dsimp only at hj ⊢
  rw [ed, f1'] at hj
  rw [f1]
  rcases dec_cases h p.lat with ⟨d, -⟩ | ⟨d, -⟩ | ⟨k, hk, d, -⟩
  · rw [d, if_pos rfl] at hj
    obtain rfl := Except.ok.inj hj
    rw [d, if_neg (by have := htake (c.numRings - 1); omega)]
    exact ⟨0, ⟨by omega, by omega⟩, rfl, by rw [center_south, center_south]⟩
  · rw [d, if_neg (by omega), if_pos rfl] at hj
    obtain rfl := Except.ok.inj hj
    rw [d, if_neg (by
      rintro ⟨a, b⟩
      have := hlast (c.numRings - 1) (by omega)
      omega)]
    refine ⟨R.numTracts - 1, ⟨by omega, by omega⟩, ?_, by rw [center_north h, center_north h']⟩
    rw [if_neg (by omega), if_pos rfl]
  · obtain ⟨n, hn, hn0⟩ := getNum wf (by rw [f1]; exact hk)
    have hn' : R'.ringNums[k]? = some n := by rw [← e2]; exact hn
    rw [d, if_neg (by omega), if_neg (by omega), ra_exact wf' hn'] at hj
    rw [d, if_neg (by omega : ¬ ((k : Int) = -1)), if_neg (by omega : ¬ ((k : Int) = c.numRings)), ra_exact wf hn, e4]
    generalize hu : ⌊(p.lon - R'.raStart) * n / (2 * Real.pi) + 1 / 2⌋ % n = u at hj
    have u0 : 0 ≤ u := by rw [← hu]; exact Int.emod_nonneg _ (by omega)
    have u1 : u < n := by rw [← hu]; exact Int.emod_lt_of_pos _ hn0
    simp only [bind, Except.bind, pure, Except.pure, hv', hv] at hj ⊢
    rw [if_neg (by omega), sumTo_nat, ← e2, Except.ok.injEq] at hj
    have hbr := wf.block_range hn u0 u1
    have hs := sum_take_succ hn
    have cen : ∀ i, (0 ≤ i ∧ i < R.numTracts) →
        (if u = 0 then (i = 1 ∧ k = 0) ∨ (i = 1 + (R.ringNums.take (k + 1)).sum ∧ k + 1 < c.numRings)
          else i = 1 + (R.ringNums.take k).sum + u) → R.center exact i = R'.center exact j := by
      intro i hi hc
      have := (((C29_centers h h').2 i hi).2.2 k n u hn u0 u1).mpr hc
      rw [this, ← hj]; congr 1; omega
    by_cases hz : u = 0 ∧ k ≠ 0
    · rw [if_pos (show True ∧ u = 0 ∧ (k : Int) ≠ 0 from ⟨trivial, hz.1, by omega⟩)]
      rw [show ((k : Int) + 1) = ((k + 1 : Nat) : Int) by push_cast; rfl, sumTo_nat]
      by_cases hkl : k + 1 < c.numRings
      · rw [if_neg]
        · refine ⟨_, ?_, rfl, cen _ ?_ ?_⟩
          · have := hlast (k + 1) hkl; have := htake (k + 1); omega
          · have := hlast (k + 1) hkl; have := htake (k + 1); omega
          · rw [if_pos hz.1]; right; exact ⟨by omega, hkl⟩
        · rintro ⟨a, b⟩
          have hq : c.numRings - 1 < R.ringNums.length := by rw [wf.length, f1]; omega
          have hp := wf.pos _ (List.getElem_mem hq)
          have := wf.block_inj hn (List.getElem?_eq_getElem hq) (u := u) (u' := 0) ⟨u0, u1⟩ ⟨by omega, by omega⟩ (by omega)
          omega
      · have hkk : k = c.numRings - 1 := by omega
        rw [if_pos ⟨by omega, by rw [← hkk]; omega⟩]
        have := hlast' (k + 1) (by omega)
        congr 1; omega
    · rw [if_neg (show ¬ (True ∧ u = 0 ∧ (k : Int) ≠ 0) by omega), sumTo_nat]
      rw [if_neg]
      · refine ⟨_, ⟨by omega, by omega⟩, rfl, cen _ (by omega) ?_⟩
        split
        · next h0 =>
          obtain rfl : k = 0 := by omega
          left; simp [h0]
        · omega
      · rintro ⟨a, b⟩
        have hq : c.numRings - 1 < R.ringNums.length := by rw [wf.length, f1]; omega
        have hp := wf.pos _ (List.getElem_mem hq)
        have := wf.block_inj hn (List.getElem?_eq_getElem hq) (u := u) (u' := 0) ⟨u0, u1⟩ ⟨by omega, by omega⟩ (by omega)
        omega

example : (Ex.three 0).getRingIndices 6 = .ok (0, 5) ∧ (Ex.three 0).getRingIndices 1 = .ok (0, 0) ∧
    (Ex.three 0).getRingIndices 12 = .ok (1, 6) ∧ (Ex.three 0).getRingIndices 13 = .ok (2, 1) := by decide

end Rings
end Skymap
