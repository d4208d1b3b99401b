import Verif.Props.RingsCenter
import Verif.Lemmas.Generate
import Verif.Props.Caching

/-! # C55: the inner sky regions of the tracts of a rings sky map -/

set_option linter.unusedSectionVars false

namespace Skymap
namespace Rings
open FloatArith (exact)
variable {A : FloatArith ℝ} {c : RingsConfig ℝ} {R : Rings ℝ} {v : Int}
variable {env : FloatEnv ℝ} {ops : SkyOps (SpherePoint ℝ) ℝ} {mk : SpherePoint ℝ → Wcs (SpherePoint ℝ) ℝ} {b₀ : TractBuilder}
variable {s s₁ s₂ s' s₁' s₂' : MapState (SpherePoint ℝ) ℝ} {r r₁ r₂ : TractRef (SpherePoint ℝ) ℝ}

/-- The inner sky region of a tract: the box that `getRaDecRange` describes. -/
theorem region_of_getItem (hs : (skyMapOps A R env ops mk).After (init A R env ops mk b₀) s) {i : Int}
    (h : (skyMapOps A R env ops mk).getItem i s = (.ok r, s')) :
    ∃ g, R.getRaDecRange A i = .ok g ∧ r.info.getInnerSkyRegion = .inl (⟨g.1, g.2.2.1⟩, ⟨g.2.1, g.2.2.2⟩) := by
  obtain ⟨k, rfl, hk, b, hf, -⟩ := fresh_of_getItem hs h
  unfold CachingSkyMap.fresh at hf
  cases ha : (R.cachingDef A env ops mk).tractArgs k with
  | error e => rw [ha] at hf; cases hf
  | ok a =>
    rw [ha] at hf
    simp only [cachingDef] at ha
    obtain ⟨q, hq, ha⟩ := bindOk ha
    obtain ⟨g, hg, ha⟩ := bindOk ha
    refine ⟨g, hg, ?_⟩
    simp only [pure, Except.pure, Except.ok.injEq] at ha
    obtain ⟨mb, bbox, n, -, -, ht⟩ := TractInfo.new_inv hf
    rw [ht, ← ha]
    rfl

/-- The position is on the edge of the box: on its southern or northern side, or, unless the box goes all the way round, on its
western or eastern side. -/
def OnEdge (c₁ c₂ p : SpherePoint ℝ) : Prop :=
  p.lat = c₁.lat ∨ p.lat = c₂.lat ∨ (¬ (c₁.lon = 0 ∧ c₂.lon = 2 * Real.pi) ∧ (p.lon = c₁.lon ∨ p.lon = c₂.lon))

/-- The two right ascensions of a tract's range differ. -/
theorem range_ne (h : Rings.new exact c 1 = .ok R) {i : Int} (hi : 0 ≤ i ∧ i < R.numTracts) {g : ℝ × ℝ × ℝ × ℝ}
    (hg : R.getRaDecRange exact i = .ok g) : g.1 ≠ g.2.1 := by
  obtain ⟨wf, w3⟩ := new_wf h
  obtain ⟨h1, hv, -⟩ := new_exact h
  have hp := Real.pi_pos
  rcases wf.index_cases hi with rfl | rfl | ⟨k, n, u, hk, h3, h4, rfl⟩
  · rw [range_south] at hg; cases hg; dsimp only; linarith
  · rw [range_north wf] at hg; cases hg; dsimp only; linarith
  · rw [range_ring wf (wf.getRingIndices_ring hv hk h3 h4) hk] at hg
    cases hg
    dsimp only
    intro he
    have hn := w3 n (List.mem_of_getElem? hk)
    have hn' : (n : ℝ) ≠ 0 := by exact_mod_cast (by omega : n ≠ 0)
    obtain ⟨m, hm⟩ := wrapAngle_eq Real.pi (R.raStart + ((u : ℝ) - 1 / 2) * 2 * Real.pi / n)
    obtain ⟨m', hm'⟩ := wrapAngle_eq Real.pi (R.raStart + ((u : ℝ) + 1 / 2) * 2 * Real.pi / n)
    rw [hm, hm'] at he
    have e1 : (2 * Real.pi) * (1 - ((m' - m : Int) : ℝ) * n) = 0 := by
      push_cast
      field_simp at he
      nlinarith
    have e2 : (1 : ℝ) - ((m' - m : Int) : ℝ) * n = 0 := by
      rcases mul_eq_zero.mp e1 with h | h
      · linarith
      · exact h
    have e3 : (m' - m) * n = 1 := by
      have : (((m' - m) * n : Int) : ℝ) = ((1 : Int) : ℝ) := by push_cast at e2 ⊢; linarith
      exact_mod_cast this
    have := Int.isUnit_iff.mp (IsUnit.of_mul_eq_one_right _ e3)
    omega

/-- A position inside a tract as `getRaDecRange` has it is in the tract's inner sky region. -/
theorem Inside.box (h : Rings.new exact c 1 = .ok R) {i : Int} (hi : 0 ≤ i ∧ i < R.numTracts) {p : SpherePoint ℝ}
    (hlat : p.lat ≤ Real.pi / 2) (hin : R.Inside exact i p) {g : ℝ × ℝ × ℝ × ℝ} (hg : R.getRaDecRange exact i = .ok g) :
    boxContains ⟨g.1, g.2.2.1⟩ ⟨g.2.1, g.2.2.2⟩ p := by
  have hne := range_ne h hi hg
  obtain ⟨g', hg', h1, h2, h3⟩ := hin
  rw [hg] at hg'
  cases hg'
  refine ⟨?_, h2, ?_⟩
  · unfold InArc at h1
    dsimp only
    split at h1
    · next hl => rw [if_pos hl.le]; exact ⟨h1.1, h1.2.le⟩
    · next hl =>
      rw [if_neg fun hl2 => hne (le_antisymm hl2 (not_lt.mp hl))]
      exact h1.imp_right le_of_lt
  · rcases h3 with h3 | h3
    · subst h3
      rw [range_north (new_wf h).1] at hg
      cases hg
      exact hlat
    · exact h3.le

/-- A position in the inner sky region of a tract and not on its edge is inside the tract as `getRaDecRange` has it. -/
theorem inside_of_box {i : Int} {p : SpherePoint ℝ} {g : ℝ × ℝ × ℝ × ℝ} (hlon : p.lon < 2 * Real.pi)
    (hg : R.getRaDecRange exact i = .ok g) (hb : boxContains ⟨g.1, g.2.2.1⟩ ⟨g.2.1, g.2.2.2⟩ p)
    (he : ¬ OnEdge ⟨g.1, g.2.2.1⟩ ⟨g.2.1, g.2.2.2⟩ p) : R.Inside exact i p := by
  obtain ⟨h1, h2, h3⟩ := hb
  unfold OnEdge at he
  push Not at he
  obtain ⟨e1, e2, e3⟩ := he
  dsimp only at h1 h2 h3 e1 e2 e3
  refine ⟨g, hg, ?_, h2, .inr (lt_of_le_of_ne h3 e2)⟩
  by_cases hf : g.1 = 0 ∧ g.2.1 = 2 * Real.pi
  · have hp := Real.pi_pos
    rw [if_pos (by rw [hf.1, hf.2]; linarith)] at h1
    rw [InArc, if_pos (by rw [hf.1, hf.2]; linarith)]
    exact ⟨h1.1, by rw [hf.2]; exact hlon⟩
  · obtain ⟨e4, e5⟩ := e3 fun a => fun b => hf ⟨a, b⟩
    unfold InArc
    split at h1
    · next hl =>
      have h4 : p.lon < g.2.1 := lt_of_le_of_ne h1.2 e5
      rw [if_pos (lt_of_le_of_lt h1.1 h4)]
      exact ⟨h1.1, h4⟩
    · next hl =>
      rw [if_neg (by intro hc; exact hl hc.le)]
      exact h1.imp_right fun h => lt_of_le_of_ne h e5

/-- C55: whatever was accessed before, the inner sky region of the tract that `findTract` returns contains the position. -/
theorem C55_covers (h : Rings.new exact c 1 = .ok R) (hs : (skyMapOps exact R env ops mk).After (init exact R env ops mk b₀) s)
    {p : SpherePoint ℝ} (hlon : 0 ≤ p.lon ∧ p.lon < 2 * Real.pi) (hlat : |p.lat| ≤ Real.pi / 2)
    (hf : R.findTract exact (skyMapOps exact R env ops mk) p s = (.ok r, s')) :
    ∃ c₁ c₂, r.info.getInnerSkyRegion = .inl (c₁, c₂) ∧ boxContains c₁ c₂ p := by
  obtain ⟨i, hi, hin, he⟩ := C27_findTract h (skyMapOps exact R env ops mk) p hlon hlat
  rw [he] at hf
  obtain ⟨g, hg, hr⟩ := region_of_getItem hs hf
  exact ⟨_, _, hr, hin.box h hi (abs_le.mp hlat).2 hg⟩

/-- What a tract's range looks like: the whole circle or an arc, and a proper interval of declinations on the sphere. -/
theorem range_shape (h : Rings.new exact c 1 = .ok R) {i : Int} (hi : 0 ≤ i ∧ i < R.numTracts) {g : ℝ × ℝ × ℝ × ℝ}
    (hg : R.getRaDecRange exact i = .ok g) :
    ((g.1 = 0 ∧ g.2.1 = 2 * Real.pi) ∨ ((0 ≤ g.1 ∧ g.1 < 2 * Real.pi) ∧ 0 ≤ g.2.1 ∧ g.2.1 < 2 * Real.pi)) ∧
    -(Real.pi / 2) ≤ g.2.2.1 ∧ g.2.2.1 < g.2.2.2 ∧ g.2.2.2 ≤ Real.pi / 2 := by
  obtain ⟨wf, w3⟩ := new_wf h
  obtain ⟨h1, hv, -⟩ := new_exact h
  obtain ⟨s0, s1⟩ := size_pos h
  have hp := Real.pi_pos
  rcases wf.index_cases hi with rfl | rfl | ⟨k, n, u, hk, h3, h4, rfl⟩
  · rw [range_south] at hg
    cases hg
    have : 0 ≤ (c.numRings : ℝ) * R.ringSize := by positivity
    exact ⟨.inl ⟨rfl, rfl⟩, by dsimp only; linarith, by dsimp only; linarith, by dsimp only; linarith⟩
  · rw [range_north wf] at hg
    cases hg
    rw [h1]
    have : 0 ≤ (c.numRings : ℝ) * R.ringSize := by positivity
    exact ⟨.inl ⟨rfl, rfl⟩, by dsimp only; linarith, by dsimp only; linarith, by dsimp only; linarith⟩
  · have hk' := wf.lt_numRings hk
    rw [h1] at hk'
    have hk2 : (k : ℝ) + 1 ≤ c.numRings := by exact_mod_cast hk'
    have h5 := mul_le_mul_of_nonneg_right hk2 s0.le
    have h6 : 0 ≤ (k : ℝ) * R.ringSize := by positivity
    rw [range_ring wf (wf.getRingIndices_ring hv hk h3 h4) hk] at hg
    cases hg
    exact ⟨.inr ⟨wrapAngle_range hp _, wrapAngle_range hp _⟩, by dsimp only; linarith, by dsimp only; linarith, by dsimp only; linarith⟩

/-- An arc meets every other arc that has one of its inner points. -/
theorem arcs_meet {T a b e d x : ℝ} (ha : 0 ≤ a ∧ a < T) (he : 0 ≤ e ∧ e < T) (hd : 0 ≤ d ∧ d < T) (hed : e ≠ d)
    (hx : 0 ≤ x ∧ x < T) (hi : if a ≤ b then a ≤ x ∧ x ≤ b else a ≤ x ∨ x ≤ b) (hxa : x ≠ a) (hxb : x ≠ b)
    (hj : if e ≤ d then e ≤ x ∧ x ≤ d else e ≤ x ∨ x ≤ d) : ∃ y, (0 ≤ y ∧ y < T) ∧ InArc a b y ∧ InArc e d y := by
  have hab : a < b ∨ b < a := by
    rcases lt_trichotomy a b with h | h | h
    · exact .inl h
    · rw [if_pos h.le] at hi
      exact absurd (le_antisymm (h ▸ hi.2) hi.1) hxa
    · exact .inr h
  by_cases hxd : x = d
  · subst hxd
    rcases hx.1.lt_or_eq with h0 | h0
    · set m := max 0 (max (if a < x then a else 0) (if e < x then e else 0)) with hm
      have m0 : 0 ≤ m := le_max_left _ _
      have m1 : m < x := max_lt h0 (max_lt (by split_ifs <;> assumption) (by split_ifs <;> assumption))
      have m2 : a < x → a ≤ m := fun h => by rw [hm, if_pos h]; exact (le_max_left _ _).trans (le_max_right _ _)
      have m3 : e < x → e ≤ m := fun h => by rw [hm, if_pos h]; exact (le_max_right _ _).trans (le_max_right _ _)
      refine ⟨(m + x) / 2, ⟨by linarith, by linarith [hx.2]⟩, ?_, ?_⟩
      · unfold InArc
        rcases hab with h | h
        · rw [if_pos h.le] at hi
          rw [if_pos h]
          have := m2 (lt_of_le_of_ne hi.1 (Ne.symm hxa))
          exact ⟨by linarith, by linarith⟩
        · rw [if_neg (by linarith)] at hi
          rw [if_neg (by linarith)]
          rcases hi with hi | hi
          · have := m2 (lt_of_le_of_ne hi (Ne.symm hxa))
            exact .inl (by linarith)
          · exact .inr (by linarith)
      · unfold InArc
        split_ifs with h
        · have := m3 h
          exact ⟨by linarith, by linarith⟩
        · exact .inr (by linarith)
    · have e0 : 0 < e := lt_of_le_of_ne he.1 (by rw [h0]; exact Ne.symm hed)
      have ha0 : 0 < a := lt_of_le_of_ne ha.1 (by rw [h0]; exact hxa)
      have hba : b < a := by
        rcases hab with h | h
        · rw [if_pos h.le] at hi
          linarith
        · exact h
      have m1 : max a e < T := max_lt ha.2 he.2
      have m2 : a ≤ max a e := le_max_left _ _
      have m3 : e ≤ max a e := le_max_right _ _
      refine ⟨(max a e + T) / 2, ⟨by linarith, by linarith⟩, ?_, ?_⟩
      · rw [InArc, if_neg (by linarith)]
        exact .inl (by linarith)
      · rw [InArc, if_neg (by linarith)]
        exact .inl (by linarith)
  · refine ⟨x, hx, ?_, ?_⟩
    · unfold InArc
      rcases hab with h | h
      · rw [if_pos h.le] at hi
        rw [if_pos h]
        exact ⟨hi.1, lt_of_le_of_ne hi.2 hxb⟩
      · rw [if_neg (by linarith)] at hi
        rw [if_neg (by linarith)]
        exact hi.imp_right fun h => lt_of_le_of_ne h hxb
    · unfold InArc
      rcases lt_trichotomy e d with h | h | h
      · rw [if_pos h.le] at hj
        rw [if_pos h]
        exact ⟨hj.1, lt_of_le_of_ne hj.2 hxd⟩
      · exact absurd h hed
      · rw [if_neg (by linarith)] at hj
        rw [if_neg (by linarith)]
        exact hj.imp_right fun h => lt_of_le_of_ne h hxd

/-- A position in the boxes of two tracts is on the edge of the first. -/
theorem edge_of_boxes (h : Rings.new exact c 1 = .ok R) {i j : Int} (hi : 0 ≤ i ∧ i < R.numTracts) (hj : 0 ≤ j ∧ j < R.numTracts)
    (hij : i ≠ j) {g g' : ℝ × ℝ × ℝ × ℝ} (hg : R.getRaDecRange exact i = .ok g) (hg' : R.getRaDecRange exact j = .ok g')
    {p : SpherePoint ℝ} (hlon : 0 ≤ p.lon ∧ p.lon < 2 * Real.pi) (b₁ : boxContains ⟨g.1, g.2.2.1⟩ ⟨g.2.1, g.2.2.2⟩ p)
    (b₂ : boxContains ⟨g'.1, g'.2.2.1⟩ ⟨g'.2.1, g'.2.2.2⟩ p) : OnEdge ⟨g.1, g.2.2.1⟩ ⟨g.2.1, g.2.2.2⟩ p := by
  by_contra hc
  have hp := Real.pi_pos
  obtain ⟨sh, l1, l2, l3⟩ := range_shape h hi hg
  obtain ⟨sh', l1', l2', l3'⟩ := range_shape h hj hg'
  have ne' := range_ne h hj hg'
  unfold OnEdge at hc
  push Not at hc
  obtain ⟨c1, c2, c3⟩ := hc
  obtain ⟨a1, a2, a3⟩ := b₁
  obtain ⟨d1, d2, d3⟩ := b₂
  dsimp only at *
  have full : ∀ y, 0 ≤ y ∧ y < 2 * Real.pi → InArc 0 (2 * Real.pi) y := fun y hy => by
    rw [InArc, if_pos (by linarith)]; exact hy
  obtain ⟨y, hy, y1, y2⟩ : ∃ y, (0 ≤ y ∧ y < 2 * Real.pi) ∧ InArc g.1 g.2.1 y ∧ InArc g'.1 g'.2.1 y := by
    rcases sh' with ⟨z1, z2⟩ | ⟨z1, z2⟩
    · rw [z1, z2]
      rcases sh with ⟨w1, w2⟩ | ⟨w1, w2⟩
      · rw [w1, w2]
        exact ⟨p.lon, hlon, full _ hlon, full _ hlon⟩
      · obtain ⟨c4, c5⟩ := c3 (fun _ => by linarith [w2.2])
        refine ⟨p.lon, hlon, ?_, full _ hlon⟩
        unfold InArc
        rcases lt_trichotomy g.1 g.2.1 with h | h | h
        · rw [if_pos h.le] at a1
          rw [if_pos h]
          exact ⟨a1.1, lt_of_le_of_ne a1.2 c5⟩
        · rw [if_pos h.le] at a1
          exact absurd (le_antisymm (h ▸ a1.2) a1.1) c4
        · rw [if_neg (by linarith)] at a1
          rw [if_neg (by linarith)]
          exact a1.imp_right fun h => lt_of_le_of_ne h c5
    · rcases sh with ⟨w1, w2⟩ | ⟨w1, w2⟩
      · rw [w1, w2]
        refine ⟨g'.1, z1, full _ z1, ?_⟩
        unfold InArc
        split_ifs with h
        · exact ⟨le_refl _, h⟩
        · exact .inl (le_refl _)
      · obtain ⟨c4, c5⟩ := c3 (fun _ => by linarith [w2.2])
        exact arcs_meet w1 z1 z2 ne' hlon a1 c4 c5 d1
  have m1 : max g.2.2.1 g'.2.2.1 < min g.2.2.2 g'.2.2.2 :=
    max_lt (lt_min l2 (lt_of_lt_of_le (lt_of_le_of_ne a2 (Ne.symm c1)) d3)) (lt_min (lt_of_le_of_lt d2 (lt_of_le_of_ne a3 c2)) l2')
  have m2 := le_max_left g.2.2.1 g'.2.2.1
  have m3 := le_max_right g.2.2.1 g'.2.2.1
  have m4 := min_le_left g.2.2.2 g'.2.2.2
  have m5 := min_le_right g.2.2.2 g'.2.2.2
  obtain ⟨m, -, -, hu⟩ := C27_partition h ⟨y, (max g.2.2.1 g'.2.2.1 + min g.2.2.2 g'.2.2.2) / 2⟩ hy
    (by rw [abs_le]; exact ⟨by dsimp only; linarith, by dsimp only; linarith⟩)
  have q1 := (hu i hi).1 ⟨g, hg, y1, by dsimp only; linarith, .inr (by dsimp only; linarith)⟩
  have q2 := (hu j hj).1 ⟨g', hg', y2, by dsimp only; linarith, .inr (by dsimp only; linarith)⟩
  exact hij (q1.trans q2.symm)

/-- C55: a position in the inner sky regions of two tracts is on the edges of both of them. -/
theorem C55_disjoint (h : Rings.new exact c 1 = .ok R)
    (hs₁ : (skyMapOps exact R env ops mk).After (init exact R env ops mk b₀) s₁)
    (hs₂ : (skyMapOps exact R env ops mk).After (init exact R env ops mk b₀) s₂) {i j : Int} (hij : i ≠ j)
    (h₁ : (skyMapOps exact R env ops mk).getItem i s₁ = (.ok r₁, s₁')) (h₂ : (skyMapOps exact R env ops mk).getItem j s₂ = (.ok r₂, s₂'))
    {p : SpherePoint ℝ} (hlon : 0 ≤ p.lon ∧ p.lon < 2 * Real.pi) {c₁ c₂ d₁ d₂ : SpherePoint ℝ}
    (e₁ : r₁.info.getInnerSkyRegion = .inl (c₁, c₂)) (e₂ : r₂.info.getInnerSkyRegion = .inl (d₁, d₂))
    (b₁ : boxContains c₁ c₂ p) (b₂ : boxContains d₁ d₂ p) : OnEdge c₁ c₂ p ∧ OnEdge d₁ d₂ p := by
  have wf := (new_wf h).1
  have ne := wf.numTracts_ge
  have idx : ∀ {i : Int} {s s' : MapState (SpherePoint ℝ) ℝ} {r : TractRef (SpherePoint ℝ) ℝ},
      (skyMapOps exact R env ops mk).After (init exact R env ops mk b₀) s →
      (skyMapOps exact R env ops mk).getItem i s = (.ok r, s') → 0 ≤ i ∧ i < R.numTracts := by
    intro i s s' r hs hg
    obtain ⟨k, rfl, hk, -⟩ := fresh_of_getItem hs hg
    have : k < R.numTracts.toNat := hk
    omega
  obtain ⟨g₁, hg₁, q₁⟩ := region_of_getItem hs₁ h₁
  obtain ⟨g₂, hg₂, q₂⟩ := region_of_getItem hs₂ h₂
  rw [q₁] at e₁
  rw [q₂] at e₂
  cases e₁
  cases e₂
  exact ⟨edge_of_boxes h (idx hs₁ h₁) (idx hs₂ h₂) hij hg₁ hg₂ hlon b₁ b₂, edge_of_boxes h (idx hs₂ h₂) (idx hs₁ h₁) hij.symm hg₂ hg₁ hlon b₂ b₁⟩

end Rings
end Skymap
