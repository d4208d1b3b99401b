import Verif.Props.RingsArray
import Verif.Lemmas.RingsThree
import Verif.Props.Search

/-! # Lemmas about `findAllTracts` of a rings sky map -/

set_option linter.unusedSectionVars false

namespace Skymap
namespace Rings
variable {K : Type} [Field K] [LinearOrder K] [FloorRing K] {A : FloatArith K} {R : Rings K} {σ : Type}
variable {M : SkyMapOps σ (SpherePoint K) K} {s s' : σ}

/-- `keepContaining`, with final answers. -/
theorem keep_spec (p : SpherePoint K) (l : List Int) : ∀ (s s' : σ) (ts : List (TractRef (SpherePoint K) K)), M.Permanent s →
    keepContaining M p l s = (.ok ts, s') →
    M.After s s' ∧ ∃ rs, List.Forall₂ (fun i r => M.getItem i s' = (.ok r, s')) l rs ∧
      ts = rs.filter fun r => r.info.contains p := by
  induction l with
  | nil =>
    intro s s' ts _ h
    unfold keepContaining at h
    obtain ⟨x, s₁, h1, h2⟩ := PyS.bind_inv h
    change (Except.ok [], s) = _ at h1
    simp only [Prod.mk.injEq, Except.ok.injEq] at h1
    obtain ⟨rfl, rfl⟩ := h1
    rw [PyS.pure_apply] at h2
    simp only [Prod.mk.injEq, Except.ok.injEq] at h2
    obtain ⟨rfl, rfl⟩ := h2
    exact ⟨SkyMapOps.After.refl _, [], .nil, rfl⟩
  | cons i l ih =>
    intro s s' ts hP h
    unfold keepContaining at h
    obtain ⟨x, s₁, h1, h2⟩ := PyS.bind_inv h
    rw [PyS.mapM_cons] at h1
    obtain ⟨y, s₂, h3, h4⟩ := PyS.bind_inv h1
    obtain ⟨r, s₃, h5, h6⟩ := PyS.bind_inv h3
    obtain ⟨z, s₄, h7, h8⟩ := PyS.bind_inv h4
    rw [PyS.pure_apply] at h2 h6 h8
    simp only [Prod.mk.injEq, Except.ok.injEq] at h2 h6 h8
    obtain ⟨rfl, rfl⟩ := h6
    obtain ⟨rfl, rfl⟩ := h8
    obtain ⟨rfl, rfl⟩ := h2
    have ha : M.After s s₃ := SkyMapOps.After.step' h5
    have hk : keepContaining M p l s₃ = (.ok z.flatten, s₄) := by
      unfold keepContaining
      rw [PyS.bind_ok h7, PyS.pure_apply]
    obtain ⟨i1, rs, i2, i3⟩ := ih s₃ s₄ _ (SkyMapOps.Permanent.mono hP ha) hk
    refine ⟨ha.trans i1, r :: rs, .cons (hP s (SkyMapOps.After.refl _) i r s₃ h5 s₄ i1) i2, ?_⟩
    rw [List.flatten_cons, i3, List.filter_cons]
    split <;> simp

/-- `keepContaining` succeeds if every access does. -/
theorem keep_ok (p : SpherePoint K) (l : List Int) : ∀ s : σ,
    (∀ i ∈ l, ∀ s₁, M.After s s₁ → ∃ r s₂, M.getItem i s₁ = (.ok r, s₂)) →
    ∃ ts s', keepContaining M p l s = (.ok ts, s') := by
  induction l with
  | nil => intro s _; exact ⟨[], s, rfl⟩
  | cons i l ih =>
    intro s hg
    obtain ⟨r, s₂, h1⟩ := hg i (by simp) s (SkyMapOps.After.refl _)
    have ha : M.After s s₂ := SkyMapOps.After.step' h1
    obtain ⟨ts, s', h2⟩ := ih s₂ fun j hj s₁ h => hg j (by simp [hj]) s₁ (ha.trans h)
    unfold keepContaining at h2 ⊢
    obtain ⟨x, s₁, h3, h4⟩ := PyS.bind_inv h2
    refine ⟨((if r.info.contains p then [r] else []) :: x).flatten, s₁, ?_⟩
    rw [PyS.mapM_cons, PyS.bind_ok (s' := s₁) (a := (if r.info.contains p then [r] else []) :: x), PyS.pure_apply]
    rw [PyS.bind_ok (s' := s₂) (a := if r.info.contains p then [r] else []), PyS.bind_ok h3]
    · rfl
    · rw [PyS.bind_ok h1]; rfl

/-- The three neighbours of a tract number, in order. -/
def around (n t : Int) : List Int := [(t - 1) % n, t, (t + 1) % n]

theorem around_eq {n t : Int} (ht : 0 ≤ t ∧ t < n) :
    ([t - 1, t, t + 1].map fun t : Int => if t < 0 then t + n else if t > n - 1 then t - n else t) = around n t := by
  have e1 : (if t - 1 < 0 then t - 1 + n else if t - 1 > n - 1 then t - 1 - n else t - 1) = (t - 1) % n := by
    split
    · rw [← Int.add_emod_right, Int.emod_eq_of_lt (by omega) (by omega)]
    · rw [if_neg (by omega), Int.emod_eq_of_lt (by omega) (by omega)]
  have e2 : (if t < 0 then t + n else if t > n - 1 then t - n else t) = t := by
    rw [if_neg (by omega), if_neg (by omega)]
  have e3 : (if t + 1 < 0 then t + 1 + n else if t + 1 > n - 1 then t + 1 - n else t + 1) = (t + 1) % n := by
    rw [if_neg (by omega)]
    split
    · have : t + 1 = n := by omega
      rw [this]; simp
    · rw [Int.emod_eq_of_lt (by omega) (by omega)]
  simp only [List.map_cons, List.map_nil, e1, e2, e3, around]

theorem around_range {n t u : Int} (ht : 0 ≤ t ∧ t < n) (hu : u ∈ around n t) : 0 ≤ u ∧ u < n := by
  have h0 : 0 < n := by omega
  simp only [around, List.mem_cons, List.not_mem_nil, or_false] at hu
  rcases hu with rfl | rfl | rfl
  · exact ⟨Int.emod_nonneg _ (by omega), Int.emod_lt_of_pos _ h0⟩
  · exact ht
  · exact ⟨Int.emod_nonneg _ (by omega), Int.emod_lt_of_pos _ h0⟩

theorem around_nodup {n t : Int} (hn : 3 ≤ n) (ht : 0 ≤ t ∧ t < n) : (around n t).Nodup := by
  have e1 : (t - 1) % n = if t = 0 then n - 1 else t - 1 := by
    split
    · next h => subst h; rw [← Int.add_emod_right, Int.emod_eq_of_lt (by omega) (by omega)]; omega
    · rw [Int.emod_eq_of_lt (by omega) (by omega)]
  have e3 : (t + 1) % n = if t = n - 1 then 0 else t + 1 := by
    split
    · next h => subst h; simp
    · rw [Int.emod_eq_of_lt (by omega) (by omega)]
  simp only [around, e1, e3, List.nodup_cons, List.mem_cons, List.not_mem_nil, or_false, List.nodup_nil, not_false_eq_true,
    and_true, not_or]
  split <;> split <;> omega

/-- The index of tract `u` in ring `r` of each version, as `findTract` and `findAllTracts` compute it. -/
def indexOf (R : Rings K) (r : Nat) (u : Int) : Int :=
  1 + (R.ringNums.take (if R.version = 0 ∧ u = 0 ∧ r ≠ 0 then r + 1 else r)).sum + u

theorem indexOf_range (wf : R.WF) {k : Nat} {n u : Int} (hk : R.ringNums[k]? = some n) (hu : 0 ≤ u ∧ u < n) :
    0 < R.indexOf k u ∧ R.indexOf k u < R.numTracts ∧ (R.version ≠ 0 → R.indexOf k u < R.numTracts - 1) := by
  have hb := wf.block_range hk hu.1 hu.2
  unfold indexOf
  split
  · next h =>
    have h2 := sum_take_le wf.pos (k + 1)
    rw [sum_take_succ hk] at h2 ⊢
    simp only [numTracts] at hb ⊢
    refine ⟨by omega, by omega, fun h' => absurd h.1 h'⟩
  · exact ⟨hb.1, by omega, fun _ => hb.2⟩

variable (A R) in
/-- The tract numbers are computed without error and are in range: C34. -/
structure Total (p : SpherePoint K) : Prop where
  dec : -1 ≤ R.decToRingNum A p.lat ∧ R.decToRingNum A p.lat ≤ R.config.numRings
  ra : ∀ (k : Nat) n, R.ringNums[k]? = some n → ∃ t, R.raToTractNum A p.lon k = .ok t ∧ 0 ≤ t ∧ t < n

variable (R) in
/-- The indices looked at in one ring. -/
def ringIndices (t : Int → Int) (r : Int) : List Int :=
  if r < 0 ∨ r ≥ R.config.numRings then []
  else (around ((R.ringNums[r.toNat]?).getD 0) (t r)).map (R.indexOf r.toNat)

theorem pyMapM_map {α β : Type} {f : α → PyM β} {g : α → β} (h : ∀ x, f x = .ok (g x)) (l : List α) :
    pyMapM f l = .ok (l.map g) := by
  induction l with
  | nil => rfl
  | cons a l ih => simp [pyMapM, h, ih]

theorem nearIndices_eq (wf : R.WF) {p : SpherePoint K} (hT : R.Total A p) (t : Int → Int)
    (ht : ∀ (k : Nat) n, R.ringNums[k]? = some n → R.raToTractNum A p.lon k = .ok (t k)) :
    R.nearIndices A p = .ok ([R.decToRingNum A p.lat - 1, R.decToRingNum A p.lat, R.decToRingNum A p.lat + 1].flatMap
      (R.ringIndices t)) := by
  have one : ∀ r : Int, (if r < 0 ∨ r ≥ R.config.numRings then (.ok [] : PyM (List Int))
    else do
      let tractNum ← R.raToTractNum A p.lon r
      let n ← pyGetItem R.ringNums r
      pyMapM (fun t : Int =>
        let t := if t < 0 then t + n else if t > n - 1 then t - n else t
        let extra := if R.version = 0 ∧ t = 0 ∧ r ≠ 0 then 1 else 0
        .ok (R.sumTo (r + extra) (t + 1))) [tractNum - 1, tractNum, tractNum + 1]) = .ok (R.ringIndices t r) := by
    intro r
    unfold ringIndices
    split
    · rfl
    · next hr =>
      obtain ⟨k, rfl⟩ := Int.eq_ofNat_of_zero_le (show 0 ≤ r by omega)
      have hk : k < R.config.numRings := by omega
      obtain ⟨n, hn, -⟩ : ∃ n, R.ringNums[k]? = some n ∧ 0 < n := by
        have hk' : k < R.ringNums.length := by rw [wf.length]; exact hk
        exact ⟨R.ringNums[k], List.getElem?_eq_getElem hk', wf.pos _ (List.getElem_mem hk')⟩
      obtain ⟨t', h1, h2⟩ := hT.ra k n hn
      rw [ht k n hn, Except.ok.injEq] at h1
      subst h1
      rw [ht k n hn, CachingSkyMap.pyGetItem_nat hn]
      have e : (Int.toNat (k : Int)) = k := by simp
      rw [e, hn, Option.getD_some, ← around_eq h2, List.map_map]
      have : ∀ u : Int, R.sumTo ((k : Int) + (if R.version = 0 ∧ u = 0 ∧ (k : Int) ≠ 0 then 1 else 0)) (u + 1) = R.indexOf k u := by
        intro u
        unfold indexOf
        split
        · next hx =>
          rw [if_pos (by omega)]
          have := sumTo_nat R (k + 1) (u + 1)
          push_cast at this
          rw [this]; ring
        · next hx =>
          rw [if_neg (by omega), add_zero, sumTo_nat]; ring
      simp only [bind, Except.bind, pyMapM, List.map_cons, List.map_nil, Function.comp_apply, this]
  unfold nearIndices
  dsimp only
  rw [pyMapM_map one]
  simp [bind, Except.bind, pure, Except.pure, List.flatMap]

end Rings
end Skymap
