import Verif.Lemmas.DodecaVertices
import Mathlib.Analysis.SpecialFunctions.Trigonometric.Bounds

/-! # Sorting the faces -/

namespace Skymap
namespace Dodeca
open Matrix Dodecahedron

theorem insertBy_perm {α : Type} (le : α → α → Bool) (a : α) (l : List α) : (insertBy le a l).Perm (a :: l) := by
  induction l with
  | nil => exact List.Perm.refl _
  | cons b l ih =>
    unfold insertBy
    split_ifs
    · exact List.Perm.refl _
    · exact (ih.cons b).trans (List.Perm.swap a b l)

theorem pySort_perm {α : Type} (le : α → α → Bool) (l : List α) : (pySort le l).Perm l := by
  induction l with
  | nil => exact List.Perm.refl _
  | cons b l ih => exact (insertBy_perm le b _).trans (ih.cons b)

theorem insertBy_map {α β : Type} (le : β → β → Bool) (f : α → β) (a : α) (l : List α) :
    insertBy le (f a) (l.map f) = (insertBy (fun x y => le (f x) (f y)) a l).map f := by
  induction l with
  | nil => rfl
  | cons b l ih =>
    simp only [List.map_cons, insertBy]
    split_ifs
    · rfl
    · rw [ih]; rfl

theorem pySort_map {α β : Type} (le : β → β → Bool) (f : α → β) (l : List α) :
    pySort le (l.map f) = (pySort (fun x y => le (f x) (f y)) l).map f := by
  induction l with
  | nil => rfl
  | cons b l ih =>
    change insertBy le (f b) (pySort le (l.map f)) = _
    rw [ih, insertBy_map]; rfl

/-- Two unit vectors, more than 60 degrees apart, whose heights are equal or well separated, have different sort keys. -/
theorem key_ne {u v : Vec3} (hu : u ⬝ᵥ u = 1) (hv : v ⬝ᵥ v = 1) (huv : u ⬝ᵥ v ≤ 1 / 2)
    (hz : u 2 = v 2 ∨ u 2 + 1 / 10 < v 2 ∨ v 2 + 1 / 10 < u 2) : sortKey u ≠ sortKey v := by
  intro h
  have h1 : npRound 1 (u 2) = npRound 1 (v 2) := by
    have := congrArg Prod.fst h
    simpa [sortKey] using this
  rcases hz with hz | hz | hz
  · -- the same height
    obtain ⟨r, hr0, hr, hx, hy⟩ := atan2_polar (u 1) (u 0)
    obtain ⟨s, hs0, hs, hx', hy'⟩ := atan2_polar (v 1) (v 0)
    have h2 := congrArg Prod.snd h
    simp only [sortKey] at h2
    have ea := abs_le.1 (npRound_err 2 (atan2 (u 1) (u 0)))
    have eb := abs_le.1 (npRound_err 2 (atan2 (v 1) (v 0)))
    set a := atan2 (u 1) (u 0)
    set b := atan2 (v 1) (v 0)
    rw [len_sq] at hu hv
    have hrs : r = s := by
      have : r ^ 2 = s ^ 2 := by rw [hr, hs]; rw [hz] at hu; linarith
      exact (sq_eq_sq₀ hr0 hs0).1 this
    have hdot : u ⬝ᵥ v = r ^ 2 * Real.cos (a - b) + u 2 ^ 2 := by
      simp only [dotProduct, Fin.sum_univ_three]
      rw [hx, hy, hx', hy', ← hrs, ← hz, Real.cos_sub]; ring
    have hr1 : r ^ 2 ≤ 1 := by rw [hr]; nlinarith [sq_nonneg (u 2)]
    have hcos : Real.cos (a - b) ≤ 1 / 2 := by
      have e1 : r ^ 2 * Real.cos (a - b) + u 2 ^ 2 ≤ 1 / 2 := by rw [← hdot]; exact huv
      have e2 : u 2 ^ 2 = 1 - r ^ 2 := by rw [hr]; linarith
      rw [e2] at e1
      by_contra hc
      push Not at hc
      nlinarith [mul_nonneg (sub_nonneg.2 (Real.cos_le_one (a - b))) (sub_nonneg.2 hr1)]
    have close : ∀ d : ℝ, |d| ≤ 1 / 100 → Real.cos d > 1 / 2 := by
      intro d hd
      have := Real.one_sub_sq_div_two_le_cos (x := d)
      have h3 : d ^ 2 ≤ (1 / 100) ^ 2 := by rw [← sq_abs]; exact pow_le_pow_left₀ (abs_nonneg d) hd 2
      linarith [h3]
    norm_num at ea eb
    split_ifs at h2 with c1 c2 c2
    · have := close (a - b) (by rw [abs_le]; constructor <;> linarith [ea.1, ea.2, eb.1, eb.2])
      linarith
    · have := close (a - b + 2 * Real.pi) (by rw [abs_le]; constructor <;> linarith [ea.1, ea.2, eb.1, eb.2])
      rw [Real.cos_add_two_pi] at this
      linarith
    · have := close (a - b - 2 * Real.pi) (by rw [abs_le]; constructor <;> linarith [ea.1, ea.2, eb.1, eb.2])
      rw [Real.cos_sub_two_pi] at this
      linarith
    · have := close (a - b) (by rw [abs_le]; constructor <;> linarith [ea.1, ea.2, eb.1, eb.2])
      linarith
  · exact absurd h1 (npRound_lt (by norm_num; linarith)).ne
  · exact absurd h1 (npRound_lt (by norm_num; linarith)).ne'

theorem sortLe_trans (a b c : Vec3) (h1 : sortLe a b = true) (h2 : sortLe b c = true) : sortLe a c = true := by
  simp only [sortLe, decide_eq_true_eq] at *
  rcases h1 with h1 | ⟨h1, h1'⟩ <;> rcases h2 with h2 | ⟨h2, h2'⟩
  · exact Or.inl (h1.trans h2)
  · exact Or.inl (h2 ▸ h1)
  · exact Or.inl (h1 ▸ h2)
  · exact Or.inr ⟨h1.trans h2, h1'.trans h2'⟩

theorem sortLe_total (a b : Vec3) : sortLe a b = true ∨ sortLe b a = true := by
  simp only [sortLe, decide_eq_true_eq]
  rcases lt_trichotomy (sortKey a).1 (sortKey b).1 with h | h | h
  · exact Or.inl (Or.inl h)
  · rcases le_total (sortKey a).2 (sortKey b).2 with h' | h'
    · exact Or.inl (Or.inr ⟨h, h'⟩)
    · exact Or.inr (Or.inr ⟨h.symm, h'⟩)
  · exact Or.inr (Or.inl h)

theorem sortLe_z {a b : Vec3} (h : sortLe a b = true) : ¬ a 2 + 1 / 10 < b 2 := by
  intro hc
  have := npRound_lt (d := 1) (x := a 2) (y := b 2) (by norm_num; linarith)
  simp only [sortLe, decide_eq_true_eq] at h
  simp only [sortKey] at h
  rcases h with h | ⟨h, -⟩ <;> linarith

/-- Sorting twelve vectors whose heights are equal or well separated and that are far apart. -/
theorem sorted_eq {f : ℕ → Vec3} (h1 : ∀ i < 12, f i ⬝ᵥ f i = 1) (h2 : ∀ i < 12, ∀ j < 12, i ≠ j → f i ⬝ᵥ f j ≤ 1 / 2)
    (h3 : ∀ i < 12, ∀ j < 12, f i 2 = f j 2 ∨ f i 2 + 1 / 10 < f j 2 ∨ f j 2 + 1 / 10 < f i 2) :
    ∃ P : List ℕ, P.Perm (List.range 12) ∧ sortedVectorList ((List.range 12).map f) = .ok (P.map f) ∧
      (P.map f).Pairwise fun u v => v 2 ≤ u 2 := by
  have hnd : (((List.range 12).map f).map sortKey).Nodup := by
    rw [List.map_map]
    apply List.Nodup.map_on _ (List.nodup_range)
    intro i hi j hj h
    by_contra hne
    exact key_ne (h1 i (List.mem_range.1 hi)) (h1 j (List.mem_range.1 hj)) (h2 i (List.mem_range.1 hi) j (List.mem_range.1 hj) hne)
      (h3 i (List.mem_range.1 hi) j (List.mem_range.1 hj)) h
  refine ⟨pySort (fun x y => sortLe (f x) (f y)) (List.range 12), pySort_perm _ _, ?_, ?_⟩
  · unfold sortedVectorList
    rw [if_pos hnd, pySort_map]
  · rw [← pySort_map]
    have hs := sorted_pySort sortLe sortLe_trans sortLe_total ((List.range 12).map f)
    refine List.Pairwise.imp_of_mem ?_ hs
    intro u v hu hv h
    rw [mem_pySort, List.mem_map] at hu hv
    obtain ⟨i, hi, rfl⟩ := hu
    obtain ⟨j, hj, rfl⟩ := hv
    have := sortLe_z h
    rcases h3 i (List.mem_range.1 hi) j (List.mem_range.1 hj) with h | h | h
    · exact h.ge
    · exact absurd h this
    · linarith

end Dodeca
end Skymap
