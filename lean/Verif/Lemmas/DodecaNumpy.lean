import Verif.Lemmas.DodecaTable
import Verif.Lemmas.Box
import Verif.Lemmas.SkyMap

/-! # The numpy functions of the dodecahedron code -/

namespace Skymap
namespace Dodeca
open Matrix Dodecahedron

theorem rint_err (x : ℝ) : |(rint x : ℝ) - x| ≤ 1 / 2 := by
  have h1 := Int.floor_le x
  have h2 := Int.lt_floor_add_one x
  unfold rint
  rw [abs_le]
  split_ifs <;> push_cast <;> constructor <;> linarith

theorem npRound_err (d : ℕ) (x : ℝ) : |npRound d x - x| ≤ 1 / 2 / 10 ^ d := by
  have h := rint_err (x * 10 ^ d)
  have hp : (0 : ℝ) < 10 ^ d := by positivity
  unfold npRound
  have e : (rint (x * 10 ^ d) : ℝ) / 10 ^ d - x = ((rint (x * 10 ^ d) : ℝ) - x * 10 ^ d) / 10 ^ d := by field_simp
  rw [e, abs_div, abs_of_pos hp]
  exact div_le_div_of_nonneg_right h hp.le

theorem npRound_lt {d : ℕ} {x y : ℝ} (h : x + 1 / 10 ^ d < y) : npRound d x < npRound d y := by
  have h1 := abs_le.1 (npRound_err d x)
  have h2 := abs_le.1 (npRound_err d y)
  have e : (1 : ℝ) / 2 / 10 ^ d = 1 / 10 ^ d / 2 := by ring
  rw [e] at h1 h2
  linarith [h1.1, h1.2, h2.1, h2.2]

theorem foldl_max_spec (l : List ℝ) (a : ℝ) : (l.foldl max a ∈ a :: l) ∧ ∀ x ∈ a :: l, x ≤ l.foldl max a := by
  induction l generalizing a with
  | nil => simp
  | cons b l ih =>
    obtain ⟨h1, h2⟩ := ih (max a b)
    simp only [List.foldl_cons]
    constructor
    · rcases List.mem_cons.1 h1 with h | h
      · rw [h]
        rcases max_choice a b with e | e <;> rw [e] <;> simp
      · simp [h]
    · intro x hx
      simp only [List.mem_cons] at hx
      have h3 := h2 (max a b) (by simp)
      rcases hx with rfl | rfl | hx
      · exact (le_max_left _ _).trans h3
      · exact (le_max_right _ _).trans h3
      · exact h2 x (by simp [hx])

theorem npMax_eq {l : List ℝ} {m : ℝ} (h : m ∈ l) (hle : ∀ x ∈ l, x ≤ m) : npMax l = .ok m := by
  cases l with
  | nil => simp at h
  | cons a l =>
    obtain ⟨h1, h2⟩ := foldl_max_spec l a
    simp only [npMax, Except.ok.injEq]
    exact le_antisymm (hle _ h1) (h2 m h)

/-- The index of the first maximum. -/
theorem npArgmax_spec {l : List ℝ} (hl : l ≠ []) : ∃ k m, npArgmax l = .ok k ∧ l[k]? = some m ∧ ∀ (j : ℕ) x, l[j]? = some x →
    x < m ∨ (x = m ∧ k ≤ j) := by
  obtain ⟨a, t, rfl⟩ := List.exists_cons_of_ne_nil hl
  obtain ⟨h1, h2⟩ := foldl_max_spec t a
  set m := t.foldl max a
  have e : npArgmax (a :: t) = .ok ((a :: t).findIdx fun x => decide (x = m)) := rfl
  have hlt : (a :: t).findIdx (fun x => decide (x = m)) < (a :: t).length := List.findIdx_lt_length_of_exists ⟨m, h1, by simp⟩
  have hk := List.findIdx_getElem (w := hlt)
  simp only [decide_eq_true_eq] at hk
  refine ⟨_, m, e, by rw [List.getElem?_eq_getElem hlt, hk], ?_⟩
  intro j x hx
  obtain ⟨hj, hx'⟩ := List.getElem?_eq_some_iff.1 hx
  rcases (h2 x (List.mem_of_getElem? hx)).lt_or_eq with h | h
  · exact .inl h
  · refine .inr ⟨h, ?_⟩
    by_contra hc
    push Not at hc
    have := List.not_of_lt_findIdx hc
    rw [hx'] at this
    simp [h] at this

theorem getItem_map {α β : Type} (f : α → β) {l : List α} {i : ℕ} {a : α} (h : l[i]? = some a) :
    pyGetItem (l.map f) (i : ℤ) = .ok (f a) :=
  CachingSkyMap.pyGetItem_nat (by rw [List.getElem?_map, h]; rfl)

/-- The dot products with a given vector take a maximal value `m`, and the others are smaller by more than the rounding. -/
theorem findCloseList_eq {vl : List Vec3} {v : Vec3} {m : ℝ} (hm : ∃ u ∈ vl, u ⬝ᵥ v = m)
    (hgap : ∀ u ∈ vl, u ⬝ᵥ v = m ∨ u ⬝ᵥ v + 1 / 100 < m) :
    findCloseList vl v = .ok (vl.filter fun u => decide (u ⬝ᵥ v = m),
      (List.range vl.length).filter fun i => decide (vl[i]?.map (fun u => u ⬝ᵥ v) = some m)) := by
  have hr : ∀ u ∈ vl, npRound 2 (u ⬝ᵥ v) = npRound 2 m ↔ u ⬝ᵥ v = m := by
    intro u hu
    rcases hgap u hu with h | h
    · simp [h]
    · have := npRound_lt (d := 2) (x := u ⬝ᵥ v) (y := m) (by norm_num; linarith)
      constructor
      · intro h'; exact absurd h' this.ne
      · intro h'; rw [h'] at h; linarith
  have hmax : npMax (vl.map fun u => npRound 2 (u ⬝ᵥ v)) = .ok (npRound 2 m) := by
    apply npMax_eq
    · obtain ⟨u, hu, h⟩ := hm
      exact List.mem_map.2 ⟨u, hu, by rw [h]⟩
    · intro x hx
      obtain ⟨u, hu, rfl⟩ := List.mem_map.1 hx
      rcases hgap u hu with h | h
      · rw [h]
      · exact (npRound_lt (d := 2) (by norm_num; linarith)).le
  have hidx : indicesOf (vl.map fun u => npRound 2 (u ⬝ᵥ v)) (npRound 2 m) =
      (List.range vl.length).filter fun i => decide (vl[i]?.map (fun u => u ⬝ᵥ v) = some m) := by
    unfold indicesOf
    rw [List.length_map]
    apply List.filter_congr
    intro i hi
    have hi' := List.mem_range.1 hi
    simp only [List.getElem?_map, List.getElem?_eq_getElem hi', Option.map_some, Option.some.injEq, decide_eq_decide]
    rw [hr _ (List.getElem_mem _)]
  have hget : ∀ vl' : List Vec3, (∀ u ∈ vl', u ∈ vl) → ∀ n, vl.drop n = vl' →
      pyMapM (fun i : ℕ => pyGetItem vl i) ((List.range' n vl'.length).filter fun i => decide (vl[i]?.map (fun u => u ⬝ᵥ v) = some m)) =
        .ok (vl'.filter fun u => decide (u ⬝ᵥ v = m)) := by
    intro vl'
    induction vl' with
    | nil => intro _ n _; rfl
    | cons a t ih =>
      intro hs n hd
      have h0 : vl[n]? = some a := by
        have := congrArg (fun l : List Vec3 => l[0]?) hd
        simpa using this
      have h1 : vl.drop (n + 1) = t := by
        rw [← List.drop_drop, hd]; rfl
      have ih' := ih (fun u hu => hs u (by simp [hu])) (n + 1) h1
      rw [List.length_cons, List.range'_succ, List.filter_cons, List.filter_cons]
      simp only [h0, Option.map_some, Option.some.injEq, decide_eq_true_eq]
      by_cases ha : a ⬝ᵥ v = m
      · rw [if_pos ha, if_pos ha]
        simp only [pyMapM, CachingSkyMap.pyGetItem_nat h0]
        rw [ih']
      · rw [if_neg ha, if_neg ha]
        exact ih'
  have := hget vl (fun u hu => hu) 0 rfl
  rw [← List.range_eq_range'] at this
  unfold findCloseList
  simp only [bind, Except.bind, hmax, hidx, this, pure, Except.pure]

/-- The nearest vectors, indices only. -/
theorem closeIndex_faces {i : ℕ} (hi : i < 12) : findCloseIndexSet ((List.range 12).map face) i = .ok (adj i) := by
  have hg1 := g_lo
  have hg2 := g_hi
  have hp : (0 : ℝ) < 2 + g := by linarith
  have hgi : pyGetItem ((List.range 12).map face) (i : ℤ) = .ok (face i) := getItem_map face (List.getElem?_range hi)
  have hm : ((List.range 12).map face).map (fun v => npRound 2 (v ⬝ᵥ face i)) =
      (List.range 12).map fun j : ℕ => npRound 2 (ev (dotZ (faceZ j) (faceZ i)) / (2 + g)) := by
    rw [List.map_map]
    apply List.map_congr_left
    intro j _
    simp only [Function.comp, face_dot]
  unfold findCloseIndexSet
  rw [hgi]
  simp only [bind, Except.bind]
  rw [hm]
  set L := ((List.range 12).map fun j : ℕ => npRound 2 (ev (dotZ (faceZ j) (faceZ i)) / (2 + g))).set i (-9 * 10 ^ 99) with hL
  have hlen : L.length = 12 := by simp [hL]
  set m := npRound 2 (g / (2 + g)) with hmm
  have hmb := abs_le.1 (npRound_err 2 (g / (2 + g)))
  have hm0 : 0 < m := by
    have : (0.4 : ℝ) < g / (2 + g) := by rw [lt_div_iff₀ hp]; linarith
    rw [hmm]; norm_num at hmb; linarith [hmb.1]
  have hval : ∀ j < 12, ∃ x, L[j]? = some x ∧ (j ∈ adj i → x = m) ∧ (j ∉ adj i → x < m) := by
    intro j hj
    by_cases hji : j = i
    · subst hji
      refine ⟨-9 * 10 ^ 99, by rw [hL, List.getElem?_set_self (by simp [hj])], ?_, fun _ => by linarith⟩
      intro h; exact absurd rfl ((face_table j hj).2 j h).2.1
    · refine ⟨npRound 2 (ev (dotZ (faceZ j) (faceZ i)) / (2 + g)), ?_, ?_, ?_⟩
      · rw [hL, List.getElem?_set_ne (Ne.symm hji), List.getElem?_map, List.getElem?_range hj]; rfl
      · intro h
        rw [face_cases i hi j hj, if_neg hji, if_pos h]
        simp [ev, hmm]
      · intro h
        apply npRound_lt
        rw [face_cases i hi j hj, if_neg hji, if_neg h, lt_div_iff₀ hp, add_mul, div_mul_cancel₀ _ hp.ne']
        split <;> simp [ev] <;> nlinarith
  have hmax : npMax L = .ok m := by
    apply npMax_eq
    · obtain ⟨h5, h6⟩ := face_table i hi
      obtain ⟨j, hj⟩ : ∃ j, j ∈ adj i := List.exists_mem_of_length_pos (by omega)
      obtain ⟨x, h1, h2, -⟩ := hval j (h6 j hj).1
      rw [← h2 hj]
      exact List.mem_of_getElem? h1
    · intro x hx
      obtain ⟨j, hj⟩ := List.getElem?_of_mem hx
      have hj' : j < 12 := by rw [← hlen]; exact (List.getElem?_eq_some_iff.1 hj).1
      obtain ⟨y, h1, h2, h3⟩ := hval j hj'
      rw [hj, Option.some.injEq] at h1
      subst h1
      by_cases h : j ∈ adj i
      · exact (h2 h).le
      · exact (h3 h).le
  rw [hmax]
  simp only [pure, Except.pure, Except.ok.injEq]
  unfold indicesOf
  rw [hlen]
  have e : adj i = (List.range 12).filter fun j => decide (j ∈ adj i) := by
    conv_lhs => unfold adj
    apply List.filter_congr
    intro j hj
    simp only [adj, List.mem_filter, hj, true_and, decide_eq_true_eq]
  conv_rhs => rw [e]
  apply List.filter_congr
  intro j hj
  obtain ⟨x, h1, h2, h3⟩ := hval j (List.mem_range.1 hj)
  rw [h1]
  simp only [Option.some.injEq, decide_eq_decide]
  constructor
  · intro hx
    by_contra h
    exact absurd hx (h3 h).ne
  · exact h2

end Dodeca
end Skymap
