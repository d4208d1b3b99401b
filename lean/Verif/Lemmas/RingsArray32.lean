import Verif.Lemmas.RingsArray
import Verif.Model.RingsInt32

/-! # `findTractIdArray` on 32-bit integers, element by element -/

set_option linter.unusedSectionVars false

namespace Skymap

/-- Positive numbers add up to at least their count. -/
theorem Rings.sum_ge_length {l : List Int} (hp : ∀ n ∈ l, 0 < n) : (l.length : Int) ≤ l.sum := by
  induction l with
  | nil => simp
  | cons a l ih =>
    have h1 := ih fun n h => hp n (by simp [h])
    have h2 := hp a (by simp)
    simp only [List.length_cons, List.sum_cons]; omega

theorem np32_id {n : Int} (h : Fits32 n) : np32 n = n := by
  unfold np32; unfold Fits32 at h; omega

namespace Rings
variable {K : Type} [Field K] [LinearOrder K] [FloorRing K] (A : FloatArith K) (R : Rings K)

/-- As long as the ring number, the tract number and the index of each position fit, the 32-bit body is the unbounded one. -/
theorem lookupArray32_eq (wf : R.WF) (hf : R.firstRingStart A ≤ 0) (ra dec : List K) (hlen : ra.length = dec.length)
    (hd : ∀ d ∈ dec, -1 ≤ R.decToRingNum A d ∧ R.decToRingNum A d ≤ R.config.numRings)
    (ht : ∀ x ∈ ra, ∀ n ∈ R.ringNums,
      Fits32 (pyTrunc (A.add (A.div (A.npMod (A.sub x R.raStart) (A.mul 2 A.pi)) (A.div (A.mul 2 A.pi) n)) (1 / 2))))
    (hi : ∀ x ∈ ra, ∀ d ∈ dec, Fits32 (arrayIndex A R x d)) (hT : R.numTracts ≤ 2147483648)
    (hneg : ∀ x : K, x ≤ 0 → x ≤ -x) :
    R.lookupArray32 A ra dec = .ok ((ra.zip dec).map fun p => arrayIndex A R p.1 p.2) := by
  have hff := hneg _ hf
  have h2 := wf.numTracts_ge
  have hl := wf.length
  have hNT : (R.config.numRings : Int) ≤ R.numTracts - 2 := by
    have := sum_ge_length wf.pos
    simp only [numTracts]; omega
  have n1 : npScalar32 R.config.numRings = .ok R.config.numRings := if_pos ⟨by omega, by omega⟩
  have n2 : npScalar32 (R.numTracts - 1) = .ok (R.numTracts - 1) := if_pos ⟨by omega, by omega⟩
  -- the ring numbers
  have hring : ∀ d ∈ dec, (if (decide (d ≥ R.firstRingStart A) && decide (d ≤ -R.firstRingStart A)) = true then
      np32 (pyTrunc (A.div (A.sub d (R.firstRingStart A)) R.ringSize))
      else if decide (d > -R.firstRingStart A) = true then (R.config.numRings : Int)
      else if decide (d < R.firstRingStart A) = true then -1 else 0) = R.decToRingNum A d := by
    intro d hdm
    have hb := hd d hdm
    unfold decToRingNum at hb ⊢
    by_cases h3 : d < R.firstRingStart A
    · have h4 : ¬ d ≥ R.firstRingStart A := not_le.mpr h3
      have h5 : ¬ d > -R.firstRingStart A := not_lt.mpr (h3.le.trans hff)
      simp [h3, h4, h5]
    · have h4 : d ≥ R.firstRingStart A := not_lt.mp h3
      by_cases h5 : d > -R.firstRingStart A
      · have h6 : ¬ d ≤ -R.firstRingStart A := not_le.mpr h5
        simp [h3, h5, h6]
      · have h6 : d ≤ -R.firstRingStart A := not_lt.mp h5
        simp only [h3, h5, if_false] at hb
        simp only [h3, h4, h5, h6]
        simp only [decide_true, Bool.and_self, if_true, if_false]
        exact np32_id ⟨by omega, by omega⟩
  unfold lookupArray32
  rw [if_neg (by simpa using hlen)]
  simp only [n1, n2, bind, Except.bind, pure, Except.pure]
  have e0 : List.replicate dec.length (0 : Int) = dec.map fun _ => 0 := by simp
  rw [e0, npWhere_map, npWhere_map, npWhere_map, List.map_congr_left hring]
  have e1 : List.replicate ra.length (-1 : Int) = (dec.map fun d => R.decToRingNum A d).map fun _ => -1 := by
    simp [hlen, Function.comp_def]
  rw [e1, npWhere_map, npWhere_map]
  simp only [List.map_map, List.length_map, Function.comp_def]
  -- the positions that are not in a cap
  set inRange := (List.range dec.length).filter _ with hin
  have hmem : ∀ k, k ∈ inRange → ∃ d x, dec[k]? = some d ∧ ra[k]? = some x ∧ R.decToRingNum A d ≠ R.config.numRings ∧
      R.decToRingNum A d ≠ -1 ∧ x ∈ ra ∧ d ∈ dec := by
    intro k hk
    rw [hin, List.mem_filter, List.mem_range] at hk
    obtain ⟨hk, hk'⟩ := hk
    have hka : k < ra.length := by omega
    refine ⟨dec[k], ra[k], List.getElem?_eq_getElem hk, List.getElem?_eq_getElem hka, ?_, ?_, List.getElem_mem hka,
      List.getElem_mem hk⟩
    · intro he
      rw [List.getElem?_map, List.getElem?_eq_getElem hk] at hk'
      simp [he] at hk'
      omega
    · intro he
      rw [List.getElem?_map, List.getElem?_eq_getElem hk] at hk'
      simp only [Option.map_some, Option.getD_some, he] at hk'
      split at hk'
      · simp at hk'; omega
      · simp at hk'
  have hgetd : ∀ (k : Nat) d, dec[k]? = some d → (List.map (fun d => R.decToRingNum A d) dec)[k]?.getD 0 = R.decToRingNum A d := by
    intro k d hk; simp [hk]
  -- the ring and its number of tracts
  have hnum : ∀ k ∈ inRange, ∃ (d x : K) (r : Nat) (n : Int), dec[k]? = some d ∧ ra[k]? = some x ∧ R.decToRingNum A d = r ∧
      R.ringNums[r]? = some n ∧ r < R.config.numRings ∧ x ∈ ra ∧ d ∈ dec := by
    intro k hk
    obtain ⟨d, x, h3, h4, h5, h6, h7, h8⟩ := hmem k hk
    have := hd d h8
    obtain ⟨r, hr⟩ := Int.eq_ofNat_of_zero_le (show 0 ≤ R.decToRingNum A d by omega)
    have hrl : r < R.ringNums.length := by rw [wf.length]; omega
    exact ⟨d, x, r, R.ringNums[r], h3, h4, hr, List.getElem?_eq_getElem hrl, by omega, h7, h8⟩
  have s1 := pyMapM_ok_of (fun k : Nat => pyGetItem R.ringNums ((List.map (fun d => R.decToRingNum A d) dec)[k]?.getD 0))
    (fun k : Nat => R.ringNums[(((List.map (fun d => R.decToRingNum A d) dec)[k]?).getD 0).toNat]?.getD 0) inRange (by
      intro k hk
      obtain ⟨d, x, r, n, h3, h4, h5, h6, h7, -⟩ := hnum k hk
      rw [hgetd k d h3, h5, CachingSkyMap.pyGetItem_nat h6]
      simp [h6])
  rw [s1]
  simp only
  rw [zip_map_self, List.map_map, zip_map_both, List.map_map, zip_map_self, List.map_map, zip_map_both]
  simp only [Function.comp_def]
  rw [pyMapM_ok_of _ (fun p : Int × Int => (R.ringNums.take p.1.toNat).sum + p.2 + 1) _ ?side]
  case side =>
    intro p hp
    obtain ⟨k, hk, rfl⟩ := List.mem_map.mp hp
    obtain ⟨d, x, r, n, h3, h4, h5, h6, h7, h8, h9⟩ := hnum k hk
    have hq : ∀ q : Nat, q < R.ringNums.length + 1 →
        pyGetItem ((List.range (R.ringNums.length + 1)).map fun k : Nat => (R.ringNums.take k).sum) (q : Int) =
          .ok (R.ringNums.take q).sum := by
      intro q hq
      apply CachingSkyMap.pyGetItem_nat
      rw [List.getElem?_map, List.getElem?_range hq]; rfl
    rw [hgetd k d h3, h5]
    dsimp only
    have hr32 : np32 ((r : Int) + 1) = (r : Int) + 1 := np32_id ⟨by omega, by omega⟩
    rw [hr32]
    have hq' : ∀ (b : Prop) [Decidable b],
        pyGetItem ((List.range (R.ringNums.length + 1)).map fun k : Nat => (R.ringNums.take k).sum)
          (if b then (r : Int) + 1 else r) = .ok (R.ringNums.take (if b then (r : Int) + 1 else r).toNat).sum := by
      intro b _
      split
      · rw [show ((r : Int) + 1) = ((r + 1 : Nat) : Int) by push_cast; rfl, hq (r + 1) (by omega)]
        simp
      · rw [hq r (by omega)]
        simp
    rw [hq']
  simp only [List.map_map, Function.comp_def, zip_map_self]
  congr 1
  apply List.ext_getElem?
  intro k
  have hfold : ∀ (l : List Nat) (f : Nat → Int) (a : List Int),
      (l.map fun j => (j, f j)).foldl (fun a p => a.set p.1 (np32 p.2)) a =
        (l.map fun j => (j, np32 (f j))).foldl (fun a p => a.set p.1 p.2) a := by
    intro l f a
    simp only [List.foldl_map]
  rw [hfold, foldl_set]
  simp only [List.length_map]
  by_cases hk : k < dec.length
  · have hka : k < ra.length := by omega
    have hz : (ra.zip dec)[k]? = some (ra[k], dec[k]) := by
      rw [List.getElem?_zip_eq_some]
      exact ⟨List.getElem?_eq_getElem hka, List.getElem?_eq_getElem hk⟩
    rw [List.getElem?_map (f := fun p : K × K => arrayIndex A R p.1 p.2), hz]
    simp only [Option.map_some]
    split
    · next hc =>
      obtain ⟨d, x, r, n, h3, h4, h5, h6, h7, h8, h9⟩ := hnum k hc.1
      have ht' := ht x h8 n (List.mem_of_getElem? h6)
      have hi' := hi x h8 d h9
      rw [List.getElem?_eq_getElem hk, Option.some.injEq] at h3
      rw [List.getElem?_eq_getElem hka, Option.some.injEq] at h4
      rw [hgetd k dec[k] (List.getElem?_eq_getElem hk), List.getElem?_eq_getElem hka, h3, h4, h5]
      rw [arrayIndex_ring A R h5 h7 h6] at hi' ⊢
      have hr32 : np32 ((r : Int) + 1) = (r : Int) + 1 := np32_id ⟨by omega, by omega⟩
      simp only [Option.getD_some, Int.toNat_natCast, h6, Option.some.injEq, np32_id ht', hr32]
      rw [← np32_id hi']
      simp only [sumTo, arrayTract]
      ring_nf
    · next hc =>
      have hnin : ¬ k ∈ inRange := fun hm => hc ⟨hm, hk⟩
      rw [hin, List.mem_filter, List.mem_range] at hnin
      simp only [hk, true_and, List.getElem?_map, List.getElem?_eq_getElem hk, Option.map_some, Option.getD_some] at hnin
      rw [List.getElem?_map, List.getElem?_eq_getElem hk, Option.map_some]
      unfold arrayIndex
      dsimp only
      by_cases hN : R.decToRingNum A dec[k] = R.config.numRings
      · simp [hN]
      · by_cases hS : R.decToRingNum A dec[k] = -1
        · have hN' : ¬ (-1 : Int) = R.config.numRings := by omega
          simp [hS, hN']
        · simp [hN, hS] at hnin
  · have hka : ¬ k < ra.length := by omega
    rw [if_neg (by tauto)]
    rw [List.getElem?_eq_none (by simpa using hk), List.getElem?_eq_none (by simp; omega)]

end Rings
end Skymap
