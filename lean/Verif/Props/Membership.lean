import Verif.Model.Membership
import Verif.Props.Caching
import Verif.Props.Cells
import Verif.Props.Search

/-! # C91: `in` and `reversed` -/

set_option linter.unusedSectionVars false

namespace Skymap
variable {Sky K σ : Type} [Field K] [LinearOrder K] [FloorRing K]

/-! ## Sky maps -/

namespace BaseSkyMap

theorem hasTractFrom_spec {M : SkyMapOps σ Sky K} {x : Option Nat} (L : List Nat) {s : σ} (hP : M.Permanent s) {res : PyM Bool} {s' : σ}
    (h : hasTractFrom M x L s = (res, s')) : M.After s s' ∧
      (res = .ok true → ∃ k ∈ L, ∃ r, M.getItem (k : Nat) s' = (.ok r, s') ∧ some r.oid = x) ∧
      (res = .ok false → ∀ k ∈ L, ∃ r, M.getItem (k : Nat) s' = (.ok r, s') ∧ some r.oid ≠ x) ∧
      (∀ e, res = .error e → ∃ k ∈ L, ∃ s₀, M.After s s₀ ∧ M.getItem (k : Nat) s₀ = (.error e, s')) := by
  induction L generalizing s with
  | nil =>
    unfold hasTractFrom at h
    rw [PyS.pure_apply] at h
    simp only [Prod.mk.injEq] at h
    obtain ⟨rfl, rfl⟩ := h
    exact ⟨SkyMapOps.After.refl _, by simp, by simp, by simp⟩
  | cons k l ih =>
    unfold hasTractFrom at h
    rw [PyS.bind_apply] at h
    rcases hg : M.getItem (k : Int) s with ⟨y, s₁⟩
    have ha : M.After s s₁ := SkyMapOps.After.step' hg
    cases y with
    | error e =>
      rw [hg] at h
      simp only [Prod.mk.injEq] at h
      obtain ⟨rfl, rfl⟩ := h
      refine ⟨ha, by simp, by simp, ?_⟩
      intro e' he
      simp only [Except.error.injEq] at he
      subst he
      exact ⟨k, by simp, s, SkyMapOps.After.refl _, hg⟩
    | ok r =>
      rw [hg] at h
      dsimp only at h
      have hst := hP s (SkyMapOps.After.refl _) k r s₁ hg
      by_cases hx : some r.oid = x
      · rw [if_pos hx, PyS.pure_apply] at h
        simp only [Prod.mk.injEq] at h
        obtain ⟨rfl, rfl⟩ := h
        exact ⟨ha, fun _ => ⟨k, by simp, r, hst _ (SkyMapOps.After.refl _), hx⟩, by simp, by simp⟩
      · rw [if_neg hx] at h
        obtain ⟨h1, h2, h3, h4⟩ := ih (fun s₂ h2 => hP s₂ (ha.trans h2)) h
        refine ⟨ha.trans h1, ?_, ?_, ?_⟩
        · intro hr
          obtain ⟨j, hj, q⟩ := h2 hr
          exact ⟨j, by simp [hj], q⟩
        · intro hr j hj
          rcases List.mem_cons.1 hj with rfl | hj
          · exact ⟨r, hst _ h1, hx⟩
          · exact h3 hr j hj
        · intro e he
          obtain ⟨j, hj, s₀, g1, g2⟩ := h4 e he
          exact ⟨j, by simp [hj], s₀, ha.trans g1, g2⟩

/-- The general form of `C91_tract`. -/
theorem hasTract_general {M : SkyMapOps σ Sky K} {s : σ} (hP : M.Permanent s) {x : Option Nat} {res : PyM Bool} {s' : σ}
    (h : hasTract M x s = (res, s')) : M.After s s' ∧
      (res = .ok true → ∃ k : Nat, k < M.len ∧ ∃ r, M.getItem k s' = (.ok r, s') ∧ some r.oid = x) ∧
      (res = .ok false → ∀ k : Nat, k < M.len → ∃ r, M.getItem k s' = (.ok r, s') ∧ some r.oid ≠ x) ∧
      (∀ e, res = .error e → ∃ k : Nat, k < M.len ∧ ∃ s₀, M.After s s₀ ∧ M.getItem k s₀ = (.error e, s')) := by
  obtain ⟨h1, h2, h3, h4⟩ := hasTractFrom_spec _ hP h
  simp only [List.mem_range] at h2 h3 h4
  exact ⟨h1, h2, h3, h4⟩

theorem mapM_getItem {M : SkyMapOps σ Sky K} (L : List Nat) {s s' : σ} (hP : M.Permanent s) {l : List (TractRef Sky K)}
    (h : PyS.mapM (fun k : Nat => M.getItem (k : Int)) L s = (.ok l, s')) :
    M.After s s' ∧ List.Forall₂ (fun (k : Nat) r => M.getItem (k : Int) s' = (.ok r, s')) L l := by
  induction L generalizing s l with
  | nil =>
    change (Except.ok [], s) = _ at h
    simp only [Prod.mk.injEq, Except.ok.injEq] at h
    obtain ⟨rfl, rfl⟩ := h
    exact ⟨SkyMapOps.After.refl _, .nil⟩
  | cons k L ih =>
    rw [PyS.mapM_cons] at h
    obtain ⟨r, s₁, h1, h2⟩ := PyS.bind_inv h
    obtain ⟨rs, s₂, h3, h4⟩ := PyS.bind_inv h2
    rw [PyS.pure_apply] at h4
    simp only [Prod.mk.injEq, Except.ok.injEq] at h4
    obtain ⟨rfl, rfl⟩ := h4
    have ha : M.After s s₁ := SkyMapOps.After.step' h1
    obtain ⟨g1, g2⟩ := ih (fun s₂ h2 => hP s₂ (ha.trans h2)) h3
    exact ⟨ha.trans g1, .cons (hP s (SkyMapOps.After.refl _) k r s₁ h1 _ g1) g2⟩

theorem mapM_of_forall {M : SkyMapOps σ Sky K} {s : σ} {L : List Nat} {l : List (TractRef Sky K)}
    (h : List.Forall₂ (fun (k : Nat) r => M.getItem (k : Int) s = (.ok r, s)) L l) :
    PyS.mapM (fun k : Nat => M.getItem (k : Int) >>= fun t => pure t) L s = (.ok l, s) := by
  induction h with
  | nil => rfl
  | cons h1 _ ih =>
    rw [PyS.mapM_cons, PyS.bind_ok (s' := s) (by rw [PyS.bind_ok h1, PyS.pure_apply]), PyS.bind_ok ih, PyS.pure_apply]

/-- The general form of `C91_reversed`. -/
theorem reversed_general {M : SkyMapOps σ Sky K} {s : σ} (hP : M.Permanent s) {l : List (TractRef Sky K)} {s' : σ}
    (h : reversed M s = (.ok l, s')) : M.After s s' ∧ iter M s' = (.ok l.reverse, s') := by
  obtain ⟨h1, h2⟩ := mapM_getItem _ hP h
  refine ⟨h1, ?_⟩
  have := mapM_of_forall (List.rel_reverse h2)
  rw [List.reverse_reverse] at this
  exact this

end BaseSkyMap

section
open CachingSkyMap
variable {m : CachingDef Sky K} {b₀ : TractBuilder} {s s' : MapState Sky K}

/-- C91, lazily built sky maps: after any history, `x in skyMap` is `True` exactly for the tracts that the sky map returns at an index,
the identical objects; if it is `False`, all tracts have been generated; it raises only what generating some tract raises, always the
same; and a tract that was returned at any time before gives `True` if all tracts can be generated.  No tract returned before changes. -/
theorem C91_tract (h : (skyMapOps m).After (init m b₀) s) (x : Option Nat) (res : PyM Bool)
    (hr : BaseSkyMap.hasTract (skyMapOps m) x s = (res, s')) :
    (skyMapOps m).After s s' ∧
    (res = .ok true → ∃ k : Nat, k < m.numTracts ∧ ∃ r, getItem m k s' = (.ok r, s') ∧ some r.oid = x) ∧
    (res = .ok false → ∀ k : Nat, k < m.numTracts → ∃ r, getItem m k s' = (.ok r, s') ∧ some r.oid ≠ x) ∧
    (∀ e, res = .error e → ∃ k : Nat, k < m.numTracts ∧ getItem m k (init m b₀) = (.error e, init m b₀)) ∧
    (∀ (i : Int) r s₀, (skyMapOps m).After (init m b₀) s₀ → (skyMapOps m).After s₀ s → getItem m i s₀ = (.ok r, s₀) → x = some r.oid →
      (∀ k : Nat, k < m.numTracts → ∀ e s₁, getItem m k (init m b₀) ≠ (.error e, s₁)) → res = .ok true) := by
  obtain ⟨h1, h2, h3, h4⟩ := BaseSkyMap.hasTract_general (permanent_of_reachable h) hr
  have h4' : ∀ e, res = .error e → ∃ k : Nat, k < m.numTracts ∧ getItem m k (init m b₀) = (.error e, init m b₀) := by
    intro e he
    obtain ⟨k, hk, s₀, g1, g2⟩ := h4 e he
    exact ⟨k, hk, (C18_failure_changes_nothing (h.trans g1) k e g2).2⟩
  refine ⟨h1, h2, h3, h4', ?_⟩
  intro i r s₀ hs0 hs hg hx htot
  cases hres : res with
  | error e =>
    obtain ⟨k, hk, g⟩ := h4' e hres
    exact absurd g (htot k hk e _)
  | ok b =>
    cases b with
    | true => rfl
    | false =>
      exfalso
      have hi : 0 ≤ i ∧ i < m.numTracts := by
        by_contra hc
        rw [getItem_out ((Inv.init m b₀).after hs0) hc] at hg
        cases hg
      obtain ⟨r', g1, g2⟩ := h3 hres i.toNat (show i.toNat < m.numTracts by omega)
      rw [Int.toNat_of_nonneg hi.1] at g1
      have g3 := permanent_of_reachable hs0 s₀ (SkyMapOps.After.refl _) i r s₀ hg s' (hs.trans h1)
      change getItem m i s' = _ at g1
      change getItem m i s' = _ at g3
      rw [g1] at g3
      simp only [Prod.mk.injEq, Except.ok.injEq, and_true] at g3
      rw [g3] at g2
      exact g2 hx.symm

/-- C91, lazily built sky maps: after any history, `list(reversed(skyMap))` is the reverse of `list(skyMap)`, with the identical objects. -/
theorem C91_reversed (h : (skyMapOps m).After (init m b₀) s) (l : List (TractRef Sky K))
    (hr : BaseSkyMap.reversed (skyMapOps m) s = (.ok l, s')) :
    (skyMapOps m).After s s' ∧ BaseSkyMap.iter (skyMapOps m) s' = (.ok l.reverse, s') :=
  BaseSkyMap.reversed_general (permanent_of_reachable h) hr

end

/-- C91, sky maps that build all tracts at once: `x in skyMap` is `True` exactly for the tracts of the list; nothing is raised and nothing
changes; `reversed` gives the list in reverse. -/
theorem C91_eager (ts : List (TractRef Sky K)) (b : TractBuilder) (x : Option Nat) :
    BaseSkyMap.hasTract (EagerSkyMap.skyMapOps ts) x b = (.ok (decide (∃ r ∈ ts, some r.oid = x)), b) ∧
    BaseSkyMap.reversed (EagerSkyMap.skyMapOps ts) b = (.ok ts.reverse, b) := by
  have hP := (Search_permanent_eager ts b).1
  have get : ∀ (k : Nat) (r : TractRef Sky K), ts[k]? = some r → (EagerSkyMap.skyMapOps ts).getItem k b = (.ok r, b) := by
    intro k r hk
    simp only [EagerSkyMap.skyMapOps, PyS.lift, CachingSkyMap.pyGetItem_nat hk]
  constructor
  · rcases hr : BaseSkyMap.hasTract (EagerSkyMap.skyMapOps ts) x b with ⟨res, b'⟩
    obtain ⟨h1, h2, h3, h4⟩ := BaseSkyMap.hasTract_general hP hr
    have e := eager_state ts h1
    subst e
    cases res with
    | error e =>
      obtain ⟨k, hk, s₀, g1, g2⟩ := h4 e rfl
      have e := eager_state ts g1
      subst e
      rw [get k _ (List.getElem?_eq_getElem hk)] at g2
      cases g2
    | ok v =>
      cases v with
      | true =>
        obtain ⟨k, hk, r, g1, g2⟩ := h2 rfl
        rw [get k _ (List.getElem?_eq_getElem hk)] at g1
        simp only [Prod.mk.injEq, Except.ok.injEq, and_true] at g1
        have : ∃ r ∈ ts, some r.oid = x := ⟨r, by rw [← g1]; exact List.getElem_mem _, g2⟩
        simp [this]
      | false =>
        have : ¬ ∃ r ∈ ts, some r.oid = x := by
          rintro ⟨r, hm, hx⟩
          obtain ⟨k, hk⟩ := List.getElem?_of_mem hm
          obtain ⟨r', g1, g2⟩ := h3 rfl k (List.getElem?_eq_some_iff.1 hk).1
          rw [get k r hk] at g1
          simp only [Prod.mk.injEq, Except.ok.injEq, and_true] at g1
          rw [← g1] at g2
          exact g2 hx
        simp [this]
  · have key : ∀ (L : List Nat) (l : List (TractRef Sky K)), List.Forall₂ (fun k r => ts[k]? = some r) L l →
        PyS.mapM (fun k : Nat => (EagerSkyMap.skyMapOps ts).getItem (k : Int)) L b = (.ok l, b) := by
      intro L l hf
      induction hf with
      | nil => rfl
      | cons h1 _ ih => rw [PyS.mapM_cons, PyS.bind_ok (get _ _ h1), PyS.bind_ok ih, PyS.pure_apply]
    apply key
    apply List.rel_reverse
    rw [List.forall₂_iff_get]
    refine ⟨by simp [EagerSkyMap.skyMapOps], ?_⟩
    intro i h1 h2
    simp

/-! ## Tracts and patches -/

theorem anyM_list {ι α : Type} {get : ι → PyM α} {eq : α → PyM Bool} {L : List ι} {as : List α} (h : pyMapM get L = .ok as) :
    anyM get eq L = anyM .ok eq as := by
  rw [pyMapM_ok_iff] at h
  induction h with
  | nil => rfl
  | cons h1 _ ih =>
    unfold anyM
    rw [h1]
    simp only [bind, Except.bind]
    rw [ih]

theorem anyM_bool {α : Type} {eq : α → PyM Bool} {f : α → Bool} {as : List α} (h : ∀ a ∈ as, eq a = .ok (f a)) :
    anyM .ok eq as = .ok (as.any f) := by
  induction as with
  | nil => rfl
  | cons a l ih =>
    unfold anyM
    simp only [bind, Except.bind, h a (by simp)]
    rw [ih fun a ha => h a (by simp [ha])]
    cases hf : f a <;> simp [hf, pure, Except.pure]

theorem anyM_error {α : Type} {eq : α → PyM Bool} {f : α → Bool} {e : PyErr} {as : List α}
    (h : ∀ a ∈ as, eq a = if f a then .error e else .ok false) :
    anyM .ok eq as = if as.any f then .error e else .ok false := by
  induction as with
  | nil => rfl
  | cons a l ih =>
    unfold anyM
    simp only [bind, Except.bind, h a (by simp)]
    rw [ih fun a ha => h a (by simp [ha])]
    cases hf : f a <;> simp [hf]

theorem mem_grid {n i : Index2D} :
    i ∈ ((pyRange 0 n.y).flatMap fun y => (pyRange 0 n.x).map fun x => (⟨x, y⟩ : Index2D)) ↔ InRange n i := by
  simp only [List.mem_flatMap, List.mem_map, mem_pyRange, InRange]
  constructor
  · rintro ⟨y, hy, x, hx, rfl⟩; exact ⟨hx.1, hx.2, hy.1, hy.2⟩
  · rintro ⟨h1, h2, h3, h4⟩; exact ⟨i.y, ⟨h3, h4⟩, i.x, ⟨h1, h2⟩, rfl⟩

theorem pyMapM_reversed {α : Type} {l : List α} {n : Int} (hn : (l.length : Int) = n) {get : Int → PyM α}
    (h : ∀ k : Nat, (k : Int) < n → ∃ a, l[k]? = some a ∧ get k = .ok a) : pyMapM get (pyRange 0 n).reverse = .ok l.reverse := by
  rw [pyMapM_ok_iff]
  apply List.rel_reverse
  rw [List.forall₂_iff_get]
  refine ⟨by rw [length_pyRange]; omega, ?_⟩
  intro k h1 h2
  obtain ⟨a, g1, g2⟩ := h k (by omega)
  have e : (pyRange 0 n)[k]? = some (0 + (k : Int)) := pyRange_getElem? 0 n k (by omega)
  rw [List.getElem?_eq_getElem h1] at e
  rw [List.getElem?_eq_getElem h2] at g1
  simp only [Option.some.injEq] at e g1
  simp only [List.get_eq_getElem]
  rw [e, g1, zero_add, g2]

section
variable {env : FloatEnv K} {ops : SkyOps Sky K} {b₀ b : TractBuilder} {a : TractArgs Sky K} {t : TractInfo Sky K}

theorem tract_patches (h : TractInfo.new env ops b₀ a = .ok (t, b))
    (hx : 0 < b₀.patchInnerDimensions.x) (hy : 0 < b₀.patchInnerDimensions.y) (hb : 0 ≤ b₀.patchBorder) :
    ∃ l, t.iter b = .ok l ∧ (l.length : Int) = t.len ∧ (∀ p, p ∈ l ↔ ∃ j, t.getPatchInfo b (.index2D j) = .ok p) ∧
      t.reversed b = .ok l.reverse := by
  obtain ⟨l, h1, h2, -, h3⟩ := C07_iteration h hx hy hb
  have B := TractInfo.new_built h hx hy
  have hb' : 0 ≤ b.patchBorder := by rw [B.border]; exact hb
  refine ⟨l, h1, h2, ?_, ?_⟩
  · intro p
    rw [pyMapM_mem h1]
    constructor
    · rintro ⟨j, -, hj⟩; exact ⟨j, hj⟩
    · rintro ⟨j, hj⟩
      exact ⟨j, mem_grid.2 ((B.ready.getPatchInfo_iff hb' j t.wcs p).1 hj).1, hj⟩
  · exact pyMapM_reversed h2 fun k hk => by
      obtain ⟨p, g1, -, g2⟩ := h3 k hk
      exact ⟨p, g1, g2⟩

/-- C91: `x in tract`, directly after the tract was built (or for tracts of one size): for a patch, `True` exactly if one of the tract's patches
compares equal to it, so for all of its own patches; for a cell, `False`, or `AttributeError` if the index and both boxes are those
of a patch; for an object without `getIndex`, `AttributeError`.  `list(reversed(tract))` is the reverse of `list(tract)`. -/
theorem C91_patch (h : TractInfo.new env ops b₀ a = .ok (t, b))
    (hx : 0 < b₀.patchInnerDimensions.x) (hy : 0 < b₀.patchInnerDimensions.y) (hb : 0 ≤ b₀.patchBorder) :
    (∀ p, ∃ v, t.has b (.patch p) = .ok v ∧ (v = true ↔ ∃ j p', t.getPatchInfo b (.index2D j) = .ok p' ∧ p'.eq p = true)) ∧
    (∀ j p, t.getPatchInfo b (.index2D j) = .ok p → t.has b (.patch p) = .ok true) ∧
    (∀ c, ((∃ j p', t.getPatchInfo b (.index2D j) = .ok p' ∧
          p'.index = c.index ∧ p'.innerBBox = c.innerBBox ∧ p'.outerBBox = c.outerBBox) ∧ t.has b (.cell c) = .error .AttributeError) ∨
      ((¬ ∃ j p', t.getPatchInfo b (.index2D j) = .ok p' ∧
          p'.index = c.index ∧ p'.innerBBox = c.innerBBox ∧ p'.outerBBox = c.outerBBox) ∧ t.has b (.cell c) = .ok false)) ∧
    (0 < t.len → t.has b .other = .error .AttributeError) ∧
    (∃ l, t.iter b = .ok l ∧ t.reversed b = .ok l.reverse) := by
  obtain ⟨l, h1, h2, h3, h4⟩ := tract_patches h hx hy hb
  have hh : ∀ x, t.has b x = anyM .ok (fun p => p.eqObj x) l := fun x => anyM_list h1
  have hp : ∀ p, t.has b (.patch p) = .ok (l.any fun p' => p'.eq p) := fun p => by rw [hh]; exact anyM_bool fun _ _ => rfl
  refine ⟨?_, ?_, ?_, ?_, l, h1, h4⟩
  · intro p
    refine ⟨_, hp p, ?_⟩
    rw [List.any_eq_true]
    constructor
    · rintro ⟨p', hm, he⟩
      obtain ⟨j, hj⟩ := (h3 p').1 hm
      exact ⟨j, p', hj, he⟩
    · rintro ⟨j, p', hj, he⟩
      exact ⟨p', (h3 p').2 ⟨j, hj⟩, he⟩
  · intro j p hj
    rw [hp, Except.ok.injEq, List.any_eq_true]
    exact ⟨p, (h3 p).2 ⟨j, hj⟩, (C17_patch_eq p p p).1⟩
  · intro c
    have e : t.has b (.cell c) = if (l.any fun p => p.index == c.index && p.innerBBox == c.innerBBox && p.outerBBox == c.outerBBox)
        then .error .AttributeError else .ok false := by
      rw [hh]; exact anyM_error fun _ _ => rfl
    have ex : (l.any fun p => p.index == c.index && p.innerBBox == c.innerBBox && p.outerBBox == c.outerBBox) = true ↔
        ∃ j p', t.getPatchInfo b (.index2D j) = .ok p' ∧ p'.index = c.index ∧ p'.innerBBox = c.innerBBox ∧ p'.outerBBox = c.outerBBox := by
      simp only [List.any_eq_true, Bool.and_eq_true, beq_iff_eq]
      constructor
      · rintro ⟨p', hm, ⟨e1, e2⟩, e3⟩
        obtain ⟨j, hj⟩ := (h3 p').1 hm
        exact ⟨j, p', hj, e1, e2, e3⟩
      · rintro ⟨j, p', hj, e1, e2, e3⟩
        exact ⟨p', (h3 p').2 ⟨j, hj⟩, ⟨e1, e2⟩, e3⟩
    rw [e, ← ex]
    by_cases hc : (l.any fun p => p.index == c.index && p.innerBBox == c.innerBBox && p.outerBBox == c.outerBBox) = true
    · left; exact ⟨hc, by rw [if_pos hc]⟩
    · right; exact ⟨hc, by rw [if_neg hc]⟩
  · intro hl
    rw [hh, anyM_error (eq := fun p : PatchInfo (Wcs Sky K) => p.eqObj .other) (f := fun _ => true) (e := .AttributeError) fun _ _ => rfl]
    have : l ≠ [] := by rintro rfl; simp at h2; omega
    cases l with
    | nil => exact absurd rfl this
    | cons p l => rfl

/-- C91: patches do not know their tract: every patch of a tract is `in` every tract with the same number of patches that was built with
the same tract builder. -/
theorem C91_patch_of_other_tract {b' : TractBuilder} {a' : TractArgs Sky K} {t' : TractInfo Sky K}
    (h : TractInfo.new env ops b₀ a = .ok (t, b)) (h' : TractInfo.new env ops b₀ a' = .ok (t', b'))
    (hx : 0 < b₀.patchInnerDimensions.x) (hy : 0 < b₀.patchInnerDimensions.y) (hb : 0 ≤ b₀.patchBorder)
    (hn : t.numPatches = t'.numPatches) (j : Index2D) (p : PatchInfo (Wcs Sky K)) (hp : t'.getPatchInfo b' (.index2D j) = .ok p) :
    t.has b (.patch p) = .ok true := by
  have B := TractInfo.new_built h hx hy
  have B' := TractInfo.new_built h' hx hy
  have hb1 : 0 ≤ b.patchBorder := by rw [B.border]; exact hb
  have hb2 : 0 ≤ b'.patchBorder := by rw [B'.border]; exact hb
  obtain ⟨hr, rfl⟩ := (B'.ready.getPatchInfo_iff hb2 j t'.wcs p).1 hp
  have g := B.ready.getPatchInfo_ok hb1 (i := j) (by rw [hn]; exact hr) t.wcs
  obtain ⟨v, e1, e2⟩ := (C91_patch h hx hy hb).1 (b'.patchVal t'.numPatches j t'.wcs)
  rw [e1, Except.ok.injEq, e2]
  refine ⟨j, _, g, ?_⟩
  unfold PatchInfo.eq TractBuilder.patchVal TractBuilder.patchInnerBBox
  rw [B.kind, B'.kind, B.dims, B'.dims, B.border, B'.border, hn]
  cases b₀.kind <;> simp

/-- C91: `x in patch` with the cells builder: for a cell, `True` exactly if one of the patch's cells compares equal to it, so for all of its
own cells; for a patch, `True` exactly if its index and both boxes are those of a cell; for an object without `getIndex`,
`AttributeError`.  `list(reversed(patch))` is the reverse of `list(patch)`. -/
theorem C91_cell {cfg : CellTractBuilderConfig} {cx cy : Int} (hs : cfg.Sane cx cy) (hnew : CellTractBuilder.new cfg = .ok b₀)
    (h : TractInfo.new env ops b₀ a = .ok (t, b)) (i : Index2D) (pi : PatchInfo (Wcs Sky K))
    (hi : t.getPatchInfo b (.index2D i) = .ok pi) :
    (∀ c, ∃ v, pi.has (.cell c) = .ok v ∧ (v = true ↔ ∃ j c', pi.getCellInfo (.index2D j) = .ok c' ∧ c'.eq c = true)) ∧
    (∀ j c, pi.getCellInfo (.index2D j) = .ok c → pi.has (.cell c) = .ok true) ∧
    (∀ p, ∃ v, pi.has (.patch p) = .ok v ∧ (v = true ↔ ∃ j c', pi.getCellInfo (.index2D j) = .ok c' ∧
      c'.index = p.index ∧ c'.innerBBox = p.innerBBox ∧ c'.outerBBox = p.outerBBox)) ∧
    pi.has .other = .error .AttributeError ∧
    (∃ l, pi.iter = .ok l ∧ pi.reversed = .ok l.reverse) := by
  obtain ⟨l, h1, h2, h3⟩ := C16_iteration hs hnew h i pi hi
  obtain ⟨C, -, -, -, -⟩ := cellPatch_of_new hs hnew h hi
  have hm : ∀ c, c ∈ l ↔ ∃ j, pi.getCellInfo (.index2D j) = .ok c := by
    intro c
    rw [pyMapM_mem h1]
    constructor
    · rintro ⟨j, -, hj⟩; exact ⟨j, hj⟩
    · rintro ⟨j, hj⟩
      exact ⟨j, mem_grid.2 ((C.getCellInfo_iff j c).1 hj).1, hj⟩
  have hh : ∀ x, pi.has x = anyM .ok (fun c => c.eqObj x) l := fun x => anyM_list h1
  have hc : ∀ c, pi.has (.cell c) = .ok (l.any fun c' => c'.eq c) := fun c => by rw [hh]; exact anyM_bool fun _ _ => rfl
  refine ⟨?_, ?_, ?_, ?_, l, h1, pyMapM_reversed h2 fun k hk => ?_⟩
  · intro c
    refine ⟨_, hc c, ?_⟩
    rw [List.any_eq_true]
    constructor
    · rintro ⟨c', hm', he⟩
      obtain ⟨j, hj⟩ := (hm c').1 hm'
      exact ⟨j, c', hj, he⟩
    · rintro ⟨j, c', hj, he⟩
      exact ⟨c', (hm c').2 ⟨j, hj⟩, he⟩
  · intro j c hj
    rw [hc, Except.ok.injEq, List.any_eq_true]
    exact ⟨c, (hm c).2 ⟨j, hj⟩, (C17_cell_eq c c c).1⟩
  · intro p
    refine ⟨l.any fun c => c.index == p.index && c.innerBBox == p.innerBBox && c.outerBBox == p.outerBBox, ?_, ?_⟩
    · rw [hh]; exact anyM_bool fun _ _ => rfl
    · simp only [List.any_eq_true, Bool.and_eq_true, beq_iff_eq]
      constructor
      · rintro ⟨p', hm', ⟨e1, e2⟩, e3⟩
        obtain ⟨j, hj⟩ := (hm p').1 hm'
        exact ⟨j, p', hj, e1, e2, e3⟩
      · rintro ⟨j, p', hj, e1, e2, e3⟩
        exact ⟨p', (hm p').2 ⟨j, hj⟩, ⟨e1, e2⟩, e3⟩
  · rw [hh, anyM_error (eq := fun c : CellInfo (Wcs Sky K) => c.eqObj .other) (f := fun _ => true) (e := .AttributeError) fun _ _ => rfl]
    have hp := C.numPos
    have : 0 < pi.len := Int.mul_pos hp.1 hp.2
    cases l with
    | nil => simp at h2; omega
    | cons c l => rfl
  · obtain ⟨c, g1, -, g2⟩ := h3 k hk
    exact ⟨c, g1, g2⟩

/-- C91: a patch of the legacy builder has no cells: nothing is `in` it, and nothing is raised, whatever the object. -/
theorem C91_no_cells {cfg : LegacyTractBuilderConfig} {dx dy : Int} (hd : cfg.patchInnerDimensions = [dx, dy]) (h1 : 0 < dx) (h2 : 0 < dy)
    (hb : 0 ≤ cfg.patchBorder) (hnew : LegacyTractBuilder.new cfg = .ok b₀) (h : TractInfo.new env ops b₀ a = .ok (t, b))
    (i : Index2D) (pi : PatchInfo (Wcs Sky K)) (hi : t.getPatchInfo b (.index2D i) = .ok pi) (x : InObj (Wcs Sky K)) :
    pi.has x = .ok false ∧ pi.iter = .ok [] ∧ pi.reversed = .ok [] := by
  have n1 := legacy_numCells hd h1 h2 hb hnew h hi
  refine ⟨?_, ?_, ?_⟩
  · unfold PatchInfo.has; rw [n1]; rfl
  · unfold PatchInfo.iter; rw [n1]; rfl
  · unfold PatchInfo.reversed PatchInfo.len; rw [n1]; rfl

end
/-- C91, what tracts of different sizes do: the last patch of the larger tract is `in` it, but after an access to the smaller tract asking the
same raises `IndexError`. -/
theorem C91_fails_unequal : (match CachingSkyMap.getItem Ex.unequalMap 1 (CachingSkyMap.init Ex.unequalMap Ex.legacy) with
    | (.ok r, s₁) => match r.info.getItem s₁.builder (.number 47) with
      | .ok p => some (r.info.has s₁.builder (.patch p), r.info.has (CachingSkyMap.getItem Ex.unequalMap 0 s₁).2.builder (.patch p))
      | .error _ => none
    | (.error _, _) => none) = some (.ok true, .error .IndexError) := by
  decide +kernel

/-- The hypotheses of `C91_tract` and `C91_reversed` are met: on a sky map whose tract 1 was accessed first (object 0), asking for it generates
tract 0 and gives `True`, asking for another object gives `False`; `reversed` gives the tracts 2, 1, 0 (objects 1, 0, 2). -/
example : (BaseSkyMap.hasTract (CachingSkyMap.skyMapOps Ex.equalMap) (some 0) (Ex.visit Ex.equalMap [1])).1 = .ok true ∧
    (BaseSkyMap.hasTract (CachingSkyMap.skyMapOps Ex.equalMap) none (Ex.visit Ex.equalMap [1])).1 = .ok false ∧
    (BaseSkyMap.hasTract (CachingSkyMap.skyMapOps Ex.equalMap) (some 0) (Ex.visit Ex.equalMap [1])).2.nextOid = 2 ∧
    (BaseSkyMap.reversed (CachingSkyMap.skyMapOps Ex.equalMap) (Ex.visit Ex.equalMap [1])).1.map (fun l => l.map TractRef.oid) =
      .ok [1, 0, 2] := by
  refine ⟨?_, ?_, ?_, ?_⟩ <;> decide +kernel

/-- The hypotheses of `C91_patch_of_other_tract` are met by two tracts with different projections. -/
example : ∃ t b t' b', TractInfo.new Ex.env Ex.ops Ex.cells Ex.args = .ok (t, b) ∧
    TractInfo.new Ex.env Ex.ops Ex.cells { Ex.args with id := 7 } = .ok (t', b') ∧ t.numPatches = t'.numPatches ∧
    (t'.getPatchInfo b' (.index2D ⟨1, 0⟩)).isOk = true := by
  have h1 : (TractInfo.new Ex.env Ex.ops Ex.cells Ex.args).map (fun r => r.1.numPatches) = .ok ⟨2, 2⟩ := by decide +kernel
  have h2 : (TractInfo.new Ex.env Ex.ops Ex.cells { Ex.args with id := 7 }).map
    (fun r => (r.1.numPatches, (r.1.getPatchInfo r.2 (.index2D ⟨1, 0⟩)).isOk)) = .ok (⟨2, 2⟩, true) := by decide +kernel
  obtain ⟨⟨t, b⟩, g1, g2⟩ := Except.map_ok_inv h1
  obtain ⟨⟨t', b'⟩, g1', g2'⟩ := Except.map_ok_inv h2
  simp only [Prod.mk.injEq] at g2'
  exact ⟨t, b, t', b', g1, g1', by dsimp only at g2; rw [g2, g2'.1], g2'.2⟩

end Skymap
