import Verif.Lemmas.GenerateRounding
import Verif.Props.EqualMaps

/-! # C29 with rounded arithmetic: version 0 of the rings sky map -/

set_option linter.unusedSectionVars false

namespace Skymap
namespace Rings
variable {A : FloatArith ℝ} {c : RingsConfig ℝ} {R R' : Rings ℝ}

/-- Version 0 and version 1 give an index the same ring and the same number, unless it is that of the first tract of a later ring. -/
theorem same_indices (h : Rings.new A c 0 = .ok R) (h' : Rings.new A c 1 = .ok R') (wf : R.WF) {i : Int}
    (hi : ∀ k : Nat, 1 ≤ k → k < c.numRings → i ≠ 1 + (R.ringNums.take k).sum) : R.getRingIndices i = R'.getRingIndices i := by
  obtain ⟨e1, e2, e3, e4, e5⟩ := versions h h'
  obtain ⟨f1, hv, -⟩ := new_attr h
  obtain ⟨f1', hv', -⟩ := new_attr h'
  have wf' : R'.WF := ⟨by rw [← e2, ← e1]; exact wf.length, by rw [← e2]; exact wf.pos⟩
  by_cases hr : 0 ≤ i ∧ i < R.numTracts
  swap
  · rw [getRingIndices_out R wf.numTracts_ge hr, getRingIndices_out R' wf'.numTracts_ge (by rw [← e5]; exact hr)]
  rcases wf.index_cases hr with rfl | rfl | ⟨k, n, u, a1, a2, a3, rfl⟩
  · rw [getRingIndices_south, getRingIndices_south]
  · rw [wf.getRingIndices_north, e5, wf'.getRingIndices_north, e1]
  · have hk := wf.lt_numRings a1
    rw [f1] at hk
    have hb := wf.block_range a1 a2 a3
    rw [show R'.getRingIndices (1 + (R.ringNums.take k).sum + u) = .ok ((k : Int), u) by
      rw [e2]; exact wf'.getRingIndices_ring hv' (by rw [← e2]; exact a1) a2 a3]
    by_cases hu : u = 0
    · subst hu
      have hk0 : k = 0 := by
        by_contra hc
        exact hi k (by omega) hk (by omega)
      subst hk0
      simpa using wf.getRingIndices_one hv (by rw [f1]; exact hk)
    · exact wf.getRingIndices_ring0 hv a1 (by omega) (by omega) (by omega)

/-- C29, rounded arithmetic: every tract of version 0 has the centre and the inner region of the tract of version 1 with the same index,
unless it is the index of the first tract of a ring other than the first. -/
theorem C29_rounding_same (hA : A.Ieee) (h : Rings.new A c 0 = .ok R) (h' : Rings.new A c 1 = .ok R') (h1 : 1 ≤ c.numRings)
    (h2 : c.numRings ≤ 2 ^ 31) {i : Int} (hi : ∀ k : Nat, 1 ≤ k → k < c.numRings → i ≠ 1 + (R.ringNums.take k).sum) :
    R.center A i = R'.center A i ∧ R.getRaDecRange A i = R'.getRaDecRange A i := by
  obtain ⟨e1, e2, e3, e4, e5⟩ := versions h h'
  obtain ⟨wf, -⟩ := new_wf_rounding hA h h1 h2
  have := same_indices h h' wf hi
  unfold center getRaDecRange
  rw [this, e1, e2, e3, e4]
  exact ⟨rfl, rfl⟩

/-- Going once around the ring changes a rounded angle by a full turn, up to rounding. -/
theorem turn_near (hA : A.Ieee) {n : Int} (hn : 1 ≤ n) {a : ℝ} (ha : |a| ≤ 6.4) :
    ∃ m : Int, |A.wrap (A.wrap (A.add (A.div (A.mul (A.mul 2 A.pi) n) n) a)) - A.wrap (A.wrap (A.add (A.div (A.mul (A.mul 2 A.pi) ((0 : Int) : ℝ)) n) a)) -
      m * A.twoPi| ≤ 1 / 2 ^ 45 := by
  have hn1 : (1 : ℝ) ≤ n := by exact_mod_cast hn
  have etp : A.mul 2 A.pi = A.twoPi := rfl
  obtain ⟨p1, p2⟩ := hA.twoPi_range
  have ha' := abs_le.mp ha
  rw [etp]
  have hz : A.div (A.mul A.twoPi ((0 : Int) : ℝ)) n = 0 := by simp [FloatArith.div, FloatArith.mul, hA.zero]
  rw [hz]
  have e1 := hA.err' (A.twoPi * n)
  rw [abs_of_nonneg (a := A.twoPi * n) (by positivity)] at e1
  have e1' : A.mul A.twoPi n = A.rnd (A.twoPi * n) := rfl
  rw [← e1'] at e1
  have e2 : |A.mul A.twoPi n / n - A.twoPi| ≤ 1 / 2 ^ 50 := by
    have : A.mul A.twoPi n / n - A.twoPi = (A.mul A.twoPi n - A.twoPi * n) / n := by field_simp
    rw [this, abs_div, abs_of_pos (show (0 : ℝ) < n by linarith), div_le_iff₀ (by linarith)]
    refine e1.trans ?_
    calc A.twoPi * n / 2 ^ 53 + 1 / 2 ^ 100 ≤ 6.4 * (n : ℝ) / 2 ^ 53 + 1 / 2 ^ 100 := by gcongr
      _ ≤ 1 / 2 ^ 50 * (n : ℝ) := by norm_num; linarith
  have e2' := abs_le.mp e2
  have e3 := hA.near (x := A.mul A.twoPi n / n) (M := 6.5) (by
    rw [abs_le]; norm_num at e2' p2 ⊢; constructor <;> linarith)
  have e3' : A.div (A.mul A.twoPi n) n = A.rnd (A.mul A.twoPi n / n) := rfl
  rw [← e3'] at e3
  generalize A.div (A.mul A.twoPi n) n = y at e3 ⊢
  have e4 := hA.near (x := y + a) (M := 13) (by
    rw [abs_le]; norm_num at e2' e3 ha' p2 ⊢; constructor <;> linarith)
  have e4' : A.add y a = A.rnd (y + a) := rfl
  rw [← e4'] at e4
  generalize A.add y a = x at e4 ⊢
  have e5 := hA.near (x := 0 + a) (M := 13) (by
    rw [abs_le]; norm_num at ha' ⊢; constructor <;> linarith)
  have e5' : A.add 0 a = A.rnd (0 + a) := rfl
  rw [← e5'] at e5
  generalize A.add 0 a = x' at e5 ⊢
  obtain ⟨k1, q1⟩ := hA.wrap_near x
  obtain ⟨k2, q2⟩ := hA.wrap_near (A.wrap x)
  obtain ⟨k3, q3⟩ := hA.wrap_near x'
  obtain ⟨k4, q4⟩ := hA.wrap_near (A.wrap x')
  refine ⟨1 - k1 - k2 + k3 + k4, ?_⟩
  push_cast
  rw [abs_le] at q1 q2 q3 q4 ⊢
  norm_num at e2' e3 e4 e5 q1 q2 q3 q4 ⊢
  constructor <;> linarith

/-- C29, rounded arithmetic: at the index of the first tract of ring `k + 1` version 0 has the first tract of ring `k` once more: the same
declination and, up to rounding and full turns, the same right ascension. -/
theorem C29_rounding_repeat (hA : A.Ieee) (hh : A.HalfPi) (h : Rings.new A c 0 = .ok R) (h' : Rings.new A c 1 = .ok R') (h1 : 1 ≤ c.numRings)
    (h2 : c.numRings ≤ 2 ^ 31) (hr : |c.raStart| ≤ 360) {k : Nat} (hk : k + 1 < c.numRings) :
    ∃ p p', R.center A (1 + (R.ringNums.take (k + 1)).sum) = .ok p ∧ R'.center A (1 + (R.ringNums.take k).sum) = .ok p' ∧ p.lat = p'.lat ∧
      ∃ m : Int, |p.lon - p'.lon - m * A.twoPi| ≤ 1 / 2 ^ 45 := by
  obtain ⟨e1, e2, e3, e4, e5⟩ := versions h h'
  obtain ⟨wf, -⟩ := new_wf_rounding hA h h1 h2
  obtain ⟨wf', -⟩ := new_wf_rounding hA h' h1 h2
  obtain ⟨f1, hv, -⟩ := new_attr h
  obtain ⟨f1', hv', -⟩ := new_attr h'
  have hlen := wf.length
  rw [f1] at hlen
  obtain ⟨n, hn⟩ : ∃ x, R.ringNums[k]? = some x := ⟨_, List.getElem?_eq_getElem (show k < R.ringNums.length by omega)⟩
  obtain ⟨n1, hn1⟩ : ∃ x, R.ringNums[k + 1]? = some x := ⟨_, List.getElem?_eq_getElem (show k + 1 < R.ringNums.length by omega)⟩
  have p0 := wf.pos _ (List.mem_of_getElem? hn)
  have p1 := wf.pos _ (List.mem_of_getElem? hn1)
  have r0 := wf.block_range hn (u := 0) (le_refl _) p0
  have r1 := wf.block_range hn1 (u := 0) (le_refl _) p1
  have hs := sum_take_succ hn
  have hn' : R'.ringNums[k]? = some n := by rw [← e2]; exact hn
  have i0 : R.getRingIndices (1 + (R.ringNums.take (k + 1)).sum) = .ok ((k : Int), n) := by
    rw [hs, ← add_assoc]
    exact wf.getRingIndices_ring0 hv hn p0 (le_refl _) (by omega)
  have i1 : R'.getRingIndices (1 + (R.ringNums.take k).sum) = .ok ((k : Int), 0) := by
    have := wf'.getRingIndices_ring hv' hn' (le_refl _) p0
    rw [← e2, add_zero] at this
    exact this
  obtain ⟨p', c', -, hlat, -⟩ := C28_rounding hA hh h' h1 h2 hr (i := 1 + (R.ringNums.take k).sum) (by omega)
  obtain ⟨m', l'⟩ := center_coord i1 (by omega) (by rw [f1']; omega) hn' c'
  obtain ⟨m, hm⟩ := turn_near (A := A) hA (n := n) (by omega) (raStart_bound hA h hr)
  refine ⟨⟨A.wrap (A.wrap (A.add (A.div (A.mul (A.mul 2 A.pi) n) n) R.raStart)), p'.lat⟩, p', ?_, c', rfl, m, ?_⟩
  · unfold center
    rw [i0]
    simp only [bind, Except.bind]
    rw [if_neg (by omega), if_neg (by rw [f1]; omega), CachingSkyMap.pyGetItem_nat hn]
    dsimp only
    rw [e3, ← l']
    unfold FloatArith.point
    rw [if_neg (not_lt.2 hlat)]
  · rw [m', ← e4]
    exact hm

/-- C29, rounded arithmetic: the same position is looked up by the two versions under the same index, except that version 0 gives the index
after the ring for the first tract of a ring other than the first (the north cap for the last ring). -/
theorem C29_rounding_find (hA : A.Ieee) (h : Rings.new A c 0 = .ok R) (h' : Rings.new A c 1 = .ok R') (h1 : 1 ≤ c.numRings)
    (h2 : c.numRings ≤ 2 ^ 31) (p : SpherePoint ℝ) : ∃ j, R'.findIndex A p = .ok j ∧ (0 ≤ j ∧ j < R.numTracts) ∧
      (∀ k : Nat, 1 ≤ k → k < c.numRings → j = 1 + (R.ringNums.take k).sum → R.findIndex A p = .ok (1 + (R.ringNums.take (k + 1)).sum)) ∧
      ((∀ k : Nat, 1 ≤ k → k < c.numRings → j ≠ 1 + (R.ringNums.take k).sum) → R.findIndex A p = .ok j) := by
  obtain ⟨e1, e2, e3, e4, e5⟩ := versions h h'
  obtain ⟨wf, -⟩ := new_wf_rounding hA h h1 h2
  obtain ⟨f1, hv, -⟩ := new_attr h
  obtain ⟨f1', hv', -⟩ := new_attr h'
  obtain ⟨⟨d0, d1⟩, hra, -⟩ := C34_total hA h h1 h2 p
  obtain ⟨-, -, j, hj, j0, j1⟩ := C34_total hA h' h1 h2 p
  refine ⟨j, hj, by rw [e5]; exact ⟨j0, j1⟩, ?_⟩
  have h3 := wf.numTracts_ge
  have ed : R'.decToRingNum A p.lat = R.decToRingNum A p.lat := by
    have hR : R'.firstRingStart A = R.firstRingStart A := by unfold firstRingStart; rw [e3]
    unfold decToRingNum
    rw [hR, e1, e3]
  have er : ∀ k : Int, R'.raToTractNum A p.lon k = R.raToTractNum A p.lon k := by
    intro k
    unfold raToTractNum
    rw [e1, e2, e4]
  have hlast : ∀ q : Nat, q < c.numRings → 1 + (R.ringNums.take q).sum < R.numTracts - 1 := by
    intro q hq
    have := wf.take_lt (k := q) (by rw [f1]; exact hq)
    simp only [numTracts]; omega
  have htake : ∀ q : Nat, 0 ≤ (R.ringNums.take q).sum := fun q => sum_nonneg fun n hn => wf.pos n (List.mem_of_mem_take hn)
  unfold findIndex at hj ⊢
  dsimp only at hj ⊢
  rw [ed, f1', ← e5] at hj
  rw [f1]
  by_cases ha : R.decToRingNum A p.lat = -1
  · rw [if_pos ha] at hj ⊢
    obtain rfl := Except.ok.inj hj
    exact ⟨fun k _ _ hk => by have := htake k; omega, fun _ => rfl⟩
  by_cases hb : R.decToRingNum A p.lat = c.numRings
  · rw [if_neg ha, if_pos hb] at hj ⊢
    obtain rfl := Except.ok.inj hj
    exact ⟨fun k _ hk he => by have := hlast k hk; omega, fun _ => rfl⟩
  rw [if_neg ha, if_neg hb] at hj ⊢
  obtain ⟨k, hk⟩ := Int.eq_ofNat_of_zero_le (show 0 ≤ R.decToRingNum A p.lat by omega)
  have hkN : k < c.numRings := by omega
  obtain ⟨n, hn⟩ : ∃ x, R.ringNums[k]? = some x := ⟨_, List.getElem?_eq_getElem (show k < R.ringNums.length by rw [wf.length, f1]; omega)⟩
  obtain ⟨t, ht, t0, t1⟩ := hra k n hn
  rw [hk, er, ht] at hj
  rw [hk, ht]
  simp only [bind, Except.bind, pure, Except.pure, hv', hv] at hj ⊢
  rw [if_neg (by omega), sumTo_nat, ← e2, Except.ok.injEq] at hj
  have hblk : ∀ q : Nat, q < c.numRings → j = 1 + (R.ringNums.take q).sum → k = q ∧ t = 0 := by
    intro q hq he
    have hql : q < R.ringNums.length := by rw [wf.length, f1]; omega
    have hp := wf.pos _ (List.getElem_mem hql)
    exact wf.block_inj hn (List.getElem?_eq_getElem hql) (u := t) (u' := 0) ⟨t0, t1⟩ ⟨by omega, by omega⟩ (by omega)
  constructor
  · intro q q1 hq he
    obtain ⟨rfl, rfl⟩ := hblk q hq he
    rw [if_pos ⟨trivial, rfl, by omega⟩, show ((k : Int) + 1) = ((k + 1 : Nat) : Int) by push_cast; rfl, sumTo_nat]
    congr 1
  · intro hne
    rw [if_neg (by
      rintro ⟨-, h4, h5⟩
      exact hne k (by omega) hkN (by omega)), sumTo_nat, hj]

/-- C29 is not vacuous with doubles: 120 rings. -/
example : ∃ R R', Rings.new FloatArith.double ⟨120, 0, 1 / 60⟩ 0 = .ok R ∧ Rings.new FloatArith.double ⟨120, 0, 1 / 60⟩ 1 = .ok R' ∧
    (∃ p p', R.center FloatArith.double (1 + (R.ringNums.take 1).sum) = .ok p ∧
      R'.center FloatArith.double 1 = .ok p' ∧ p.lat = p'.lat) ∧
    ∃ j, R'.findIndex FloatArith.double ⟨1, 1⟩ = .ok j ∧ (0 ≤ j ∧ j < R.numTracts) := by
  obtain ⟨R, hR⟩ : ∃ R, Rings.new FloatArith.double ⟨120, 0, 1 / 60⟩ 0 = .ok R := ⟨_, rfl⟩
  obtain ⟨R', hR'⟩ : ∃ R, Rings.new FloatArith.double ⟨120, 0, 1 / 60⟩ 1 = .ok R := ⟨_, rfl⟩
  refine ⟨R, R', hR, hR', ?_, ?_⟩
  · obtain ⟨p, p', a1, a2, a3, -⟩ := C29_rounding_repeat FloatArith.double_ieee FloatArith.double_halfPi hR hR' (by decide) (by decide)
      (by norm_num) (k := 0) (by decide)
    exact ⟨p, p', a1, by simpa using a2, a3⟩
  · obtain ⟨j, a1, a2, -⟩ := C29_rounding_find FloatArith.double_ieee hR hR' (by decide) (by decide) ⟨1, 1⟩
    exact ⟨j, a1, a2⟩

end Rings
end Skymap
