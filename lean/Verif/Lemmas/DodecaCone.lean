import Verif.Props.Dodecahedron

/-! # The cones of the faces -/

namespace Skymap

namespace InCone

theorem zero (vs : List (Fin 3 → ℝ)) : InCone vs 0 := by
  refine ⟨List.replicate vs.length 0, by simp, by simp, ?_⟩
  induction vs with
  | nil => rfl
  | cons v l ih => simp [List.replicate_succ, ← ih]

theorem mem {vs : List (Fin 3 → ℝ)} {v : Fin 3 → ℝ} (h : v ∈ vs) : InCone vs v := by
  induction vs with
  | nil => simp at h
  | cons a l ih =>
    rcases List.mem_cons.1 h with rfl | h
    · obtain ⟨c, h1, h2, h3⟩ := zero l
      exact ⟨1 :: c, by simp [h1], by simpa using h2, by simp [← h3]⟩
    · obtain ⟨c, h1, h2, h3⟩ := ih h
      exact ⟨0 :: c, by simp [h1], by simpa using h2, by simp [← h3]⟩

theorem add {vs : List (Fin 3 → ℝ)} {u v : Fin 3 → ℝ} (hu : InCone vs u) (hv : InCone vs v) : InCone vs (u + v) := by
  obtain ⟨c, h1, h2, h3⟩ := hu
  obtain ⟨d, k1, k2, k3⟩ := hv
  refine ⟨List.zipWith (· + ·) c d, by simp [h1, k1], ?_, ?_⟩
  · intro x hx
    obtain ⟨i, hi, rfl⟩ := List.mem_iff_getElem.1 hx
    simp only [List.length_zipWith, lt_min_iff] at hi
    rw [List.getElem_zipWith]
    exact add_nonneg (h2 _ (List.getElem_mem hi.1)) (k2 _ (List.getElem_mem hi.2))
  · rw [h3, k3]
    clear h2 k2 h3 k3
    induction vs generalizing c d with
    | nil => simp
    | cons a l ih =>
      cases c with
      | nil => simp at h1
      | cons x c =>
        cases d with
        | nil => simp at k1
        | cons y d =>
          simp only [List.zipWith_cons_cons, List.sum_cons]
          rw [← ih (c := c) (d := d) (by simpa using h1) (by simpa using k1), add_smul]
          abel

theorem smul {vs : List (Fin 3 → ℝ)} {u : Fin 3 → ℝ} {a : ℝ} (ha : 0 ≤ a) (hu : InCone vs u) : InCone vs (a • u) := by
  obtain ⟨c, h1, h2, h3⟩ := hu
  refine ⟨c.map (a * ·), by simp [h1], ?_, ?_⟩
  · intro x hx
    obtain ⟨y, hy, rfl⟩ := List.mem_map.1 hx
    exact mul_nonneg ha (h2 y hy)
  · rw [h3]
    clear h2 h3
    induction vs generalizing c with
    | nil => simp
    | cons v l ih =>
      cases c with
      | nil => simp at h1
      | cons x c =>
        simp only [List.zipWith_cons_cons, List.sum_cons, List.map_cons, smul_add]
        rw [← ih (c := c) (by simpa using h1), smul_smul]

/-- A property of sums and multiples of the generators holds in the cone. -/
theorem induct {vs : List (Fin 3 → ℝ)} {u : Fin 3 → ℝ} (hu : InCone vs u) {p : (Fin 3 → ℝ) → Prop} (h0 : p 0)
    (ha : ∀ x y, p x → p y → p (x + y)) (hs : ∀ (a : ℝ) x, 0 ≤ a → x ∈ vs → p (a • x)) : p u := by
  obtain ⟨c, h1, h2, rfl⟩ := hu
  induction vs generalizing c with
  | nil => simpa using h0
  | cons v l ih =>
    cases c with
    | nil => simp at h1
    | cons x c =>
      simp only [List.zipWith_cons_cons, List.sum_cons]
      exact ha _ _ (hs x v (h2 x (by simp)) (by simp))
        (ih (fun a x ha hx => hs a x ha (by simp [hx])) c (by simpa using h1) (fun y hy => h2 y (by simp [hy])))

/-- A cone whose generators are in another. -/
theorem mono {vs vs' : List (Fin 3 → ℝ)} {u : Fin 3 → ℝ} (hu : InCone vs u) (h : ∀ v ∈ vs, InCone vs' v) : InCone vs' u :=
  hu.induct (zero _) (fun _ _ => add) fun _ x ha hx => smul ha (h x hx)

theorem map {vs : List (Fin 3 → ℝ)} {u : Fin 3 → ℝ} (hu : InCone vs u) (M : Matrix (Fin 3) (Fin 3) ℝ) :
    InCone (vs.map fun v => M.mulVec v) (M.mulVec u) := by
  refine hu.induct (p := fun x => InCone (vs.map fun v => M.mulVec v) (M.mulVec x)) ?_ ?_ ?_
  · rw [Matrix.mulVec_zero]; exact zero _
  · intro x y hx hy; rw [Matrix.mulVec_add]; exact hx.add hy
  · intro a x ha hx
    rw [Matrix.mulVec_smul]
    exact smul ha (mem (List.mem_map.2 ⟨x, hx, rfl⟩))

end InCone

namespace Dodeca
open Matrix Dodecahedron

theorem cone_table : ∀ k < 12, ∀ j ∈ adj k, ∀ m ∈ adj k, m ∈ adj j → ∀ m' ∈ adj k, m' ∈ adj j → m ≠ m' → ∀ c b : Fin 3,
    (if c = b then (2, 2) else (0, 0)) = mulZ (mulZ (1, 1) (faceZ k b - faceZ j b)) (faceZ k c) +
      mulZ (faceZ j b - faceZ m' b) (vertZ (k, j, m) c) + mulZ (faceZ j b - faceZ m b) (vertZ (k, j, m') c) := by
  decide +kernel

theorem common_table : ∀ k < 12, ∀ j ∈ adj k, ∃ m ∈ adj k, m ∈ adj j ∧ ∃ m' ∈ adj k, m' ∈ adj j ∧ m ≠ m' := by decide +kernel

theorem centre_table : ∀ k < 12, ∀ c : Fin 3, ((five k).map fun t => vertZ t c).sum = mulZ (3, 4) (faceZ k c) := by decide +kernel

theorem ev_sub (u v : Zg) : ev (u - v) = ev u - ev v := by
  unfold ev
  simp only [Prod.fst_sub, Prod.snd_sub]
  push_cast; ring

/-- The identity behind the cones. -/
theorem cone_identity {k j m m' : ℕ} (hk : k < 12) (hj : j ∈ adj k) (hm : m ∈ adj k) (hmj : m ∈ adj j) (hm' : m' ∈ adj k)
    (hmj' : m' ∈ adj j) (hne : m ≠ m') (w : Vec3) :
    (2 + 2 * g) • w = ((1 + g) * (toVec (faceZ k) ⬝ᵥ w - toVec (faceZ j) ⬝ᵥ w)) • toVec (faceZ k) +
      (toVec (faceZ j) ⬝ᵥ w - toVec (faceZ m') ⬝ᵥ w) • toVec (vertZ (k, j, m)) +
      (toVec (faceZ j) ⬝ᵥ w - toVec (faceZ m) ⬝ᵥ w) • toVec (vertZ (k, j, m')) := by
  ext c
  have key : ∀ b : Fin 3, (if c = b then 2 + 2 * g else 0) = (1 + g) * (ev (faceZ k b) - ev (faceZ j b)) * ev (faceZ k c) +
      (ev (faceZ j b) - ev (faceZ m' b)) * ev (vertZ (k, j, m) c) + (ev (faceZ j b) - ev (faceZ m b)) * ev (vertZ (k, j, m') c) := by
    intro b
    have h := congrArg ev (cone_table k hk j hj m hm hmj m' hm' hmj' hne c b)
    simp only [ev_add, ev_mul, ev_sub] at h
    have e1 : ev (1, 1) = 1 + g := by simp [ev]
    have e2 : ev (if c = b then ((2, 2) : Zg) else (0, 0)) = if c = b then 2 + 2 * g else 0 := by split_ifs <;> simp [ev]
    rw [e1, e2] at h
    exact h
  have k0 := key 0
  have k1 := key 1
  have k2 := key 2
  simp only [Pi.smul_apply, Pi.add_apply, smul_eq_mul, dotProduct, Fin.sum_univ_three, toVec]
  have : (2 + 2 * g) * w c = (if c = 0 then 2 + 2 * g else 0) * w 0 + (if c = 1 then 2 + 2 * g else 0) * w 1 +
      (if c = 2 then 2 + 2 * g else 0) * w 2 := by fin_cases c <;> simp
  rw [this, k0, k1, k2]
  ring

theorem list_max {l : List ℕ} (hl : l ≠ []) (f : ℕ → ℝ) : ∃ j ∈ l, ∀ i ∈ l, f i ≤ f j := by
  obtain ⟨j, hj, h⟩ := Finset.exists_max_image l.toFinset f (by
    obtain ⟨a, t, rfl⟩ := List.exists_cons_of_ne_nil hl
    exact ⟨a, by simp⟩)
  exact ⟨j, by simpa using hj, fun i hi => h i (by simpa using hi)⟩

theorem vertZ_mem {k j m : ℕ} (hk : k < 12) (hj : j ∈ adj k) (hm : m ∈ adj k) (hmj : m ∈ adj j) : ∃ t ∈ five k, vertZ t = vertZ (k, j, m) := by
  obtain ⟨t, ht, hkey, hz⟩ := triples_complete k hk j hj m hm hmj
  refine ⟨t, ?_, hz⟩
  simp only [five, List.mem_filter, ht, true_and, decide_eq_true_eq]
  rw [hkey]
  simp [keyOf]

theorem toVec_vert (t : ℕ × ℕ × ℕ) : toVec (vertZ t) = Real.sqrt (6 + 9 * g) • vtx t := by
  have h : Real.sqrt (6 + 9 * g) ≠ 0 := fun h0 => by have := nv_pos; rw [h0] at this; simp at this
  rw [vtx, smul_smul, mul_inv_cancel₀ h, one_smul]

/-- A direction is in the cone of a face's vertices exactly if no other face is nearer. -/
theorem cone_iff {k : ℕ} (hk : k < 12) (w : Vec3) :
    InCone ((five k).map vtx) w ↔ ∀ j < 12, face j ⬝ᵥ w ≤ face k ⬝ᵥ w := by
  have hg := g_lo
  obtain ⟨n1, -⟩ := nfv
  constructor
  · intro h j hj
    refine h.induct (p := fun w => face j ⬝ᵥ w ≤ face k ⬝ᵥ w) (by simp) ?_ ?_
    · intro x y hx hy; rw [dotProduct_add, dotProduct_add]; exact add_le_add hx hy
    · intro a x ha hx
      obtain ⟨t, ht, rfl⟩ := List.mem_map.1 hx
      rw [dotProduct_smul, dotProduct_smul]
      apply mul_le_mul_of_nonneg_left _ ha
      have htT := five_triples ht
      have hkt : k ∈ keyOf t := by
        simp only [five, List.mem_filter, decide_eq_true_eq] at ht
        exact ht.2
      have e := vf_cases t htT k hk
      rw [if_pos hkt] at e
      have e' := vf_cases t htT j hj
      rw [vf_dot, vf_dot, e]
      have : ev (dotZ (faceZ j) (vertZ t)) ≤ ev (2, 3) := by
        rw [e']
        split_ifs <;> simp only [ev] <;> push_cast <;> linarith
      nlinarith
  · intro h
    have hraw : ∀ i j : ℕ, face i ⬝ᵥ w ≤ face j ⬝ᵥ w ↔ toVec (faceZ i) ⬝ᵥ w ≤ toVec (faceZ j) ⬝ᵥ w := by
      intro i j
      simp only [face, smul_dotProduct, smul_eq_mul]
      exact mul_le_mul_iff_right₀ nf_pos
    have hne : adj k ≠ [] := by
      intro h0
      have := (face_table k hk).1
      rw [h0] at this; simp at this
    obtain ⟨j, hj, hmax⟩ := list_max hne fun i => toVec (faceZ i) ⬝ᵥ w
    obtain ⟨m, hm, hmj, m', hm', hmj', hmm⟩ := common_table k hk j hj
    have hid := cone_identity hk hj hm hmj hm' hmj' hmm w
    have hj12 := ((face_table k hk).2 j hj).1
    have hvert : ∀ t ∈ five k, InCone ((five k).map vtx) (toVec (vertZ t)) := by
      intro t ht
      rw [toVec_vert]
      exact InCone.smul (Real.sqrt_nonneg _) (InCone.mem (List.mem_map.2 ⟨t, ht, rfl⟩))
    have hcone : ∀ m ∈ adj k, m ∈ adj j → InCone ((five k).map vtx) (toVec (vertZ (k, j, m))) := by
      intro m hm hmj
      obtain ⟨t, ht, hz⟩ := vertZ_mem hk hj hm hmj
      rw [← hz]; exact hvert t ht
    have hcentre : InCone ((five k).map vtx) (toVec (faceZ k)) := by
      have hsum : ∀ l : List (ℕ × ℕ × ℕ), (∀ t ∈ l, t ∈ five k) → InCone ((five k).map vtx) ((l.map fun t => toVec (vertZ t)).sum) := by
        intro l hl
        induction l with
        | nil => simpa using InCone.zero _
        | cons t l ih =>
          rw [List.map_cons, List.sum_cons]
          exact (hvert t (hl t (by simp))).add (ih fun s hs => hl s (by simp [hs]))
      have hS := hsum (five k) fun t ht => ht
      have e : ((five k).map fun t => toVec (vertZ t)).sum = (3 + 4 * g) • toVec (faceZ k) := by
        ext c
        have hc := congrArg ev (centre_table k hk c)
        rw [ev_mul] at hc
        have ee : ev (3, 4) = 3 + 4 * g := by simp [ev]
        rw [ee] at hc
        simp only [Pi.smul_apply, smul_eq_mul, toVec]
        rw [← hc]
        generalize five k = l
        induction l with
        | nil => simp [ev]
        | cons t l ih => simp only [List.map_cons, List.sum_cons, Pi.add_apply, ih, ev_add, toVec]
      rw [e] at hS
      have := InCone.smul (a := (3 + 4 * g)⁻¹) (by positivity) hS
      rwa [smul_smul, inv_mul_cancel₀ (by positivity), one_smul] at this
    have hw : InCone ((five k).map vtx) ((2 + 2 * g) • w) := by
      rw [hid]
      refine (InCone.add (InCone.smul ?_ hcentre) (InCone.smul ?_ (hcone m hm hmj))).add (InCone.smul ?_ (hcone m' hm' hmj'))
      · apply mul_nonneg (by linarith)
        have := (hraw j k).1 (h j hj12)
        linarith
      · have := hmax m' hm'; linarith
      · have := hmax m hm; linarith
    have := InCone.smul (a := (2 + 2 * g)⁻¹) (by positivity) hw
    rwa [smul_smul, inv_mul_cancel₀ (by positivity), one_smul] at this

end Dodeca
end Skymap
