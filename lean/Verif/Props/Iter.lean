import Verif.Model.Iter
import Verif.Props.Search
import Verif.Props.LastTract

/-! # C74: iterating while the sky map is in use -/

set_option linter.unusedSectionVars false

namespace Skymap

variable {Sky K σ : Type} [Field K] [LinearOrder K] [FloorRing K] {M : SkyMapOps σ Sky K}

/-- Specification: what a program has seen of an iterator over the `n` tracts of a sky map in state `s`.  It got the tracts 0, 1, 2, ...
in this order - the objects that `skyMap[0]`, `skyMap[1]`, ... are - and then, unless it stopped asking, either only `StopIteration`,
after all `n` tracts, or the exception `e` that constructing the next tract raises and then only `StopIteration`. -/
def IterSpec.Tracts (M : SkyMapOps σ Sky K) (s : σ) (error : Nat → PyErr → Prop) (out : List (NextRes (TractRef Sky K))) : Prop :=
  ∃ (rs : List (TractRef Sky K)) (tail : List (NextRes (TractRef Sky K))), out = rs.map .yields ++ tail ∧ rs.length ≤ M.len ∧
    (∀ (i : Nat) r, rs[i]? = some r → M.getItem i s = (.ok r, s)) ∧
    (tail = [] ∨ (rs.length = M.len ∧ ∀ x ∈ tail, x = .stop) ∨
      ∃ e stops, tail = .raises e :: stops ∧ (∀ x ∈ stops, x = .stop) ∧ rs.length < M.len ∧ error rs.length e)

/-- Specification: what a program has seen of an iterator over patches: the values `ps` and then, unless it stopped asking, either only
`StopIteration`, after `n` patches, or an exception `e` and then only `StopIteration`. -/
def IterSpec.Patches {α : Type} (n : Int) (error : PyErr → Prop) (ps : List α) (out : List (NextRes α)) : Prop :=
  ∃ tail : List (NextRes α), out = ps.map .yields ++ tail ∧ (ps.length : Int) ≤ n ∧
    (tail = [] ∨ ((ps.length : Int) = n ∧ ∀ x ∈ tail, x = .stop) ∨
      ∃ e stops, tail = .raises e :: stops ∧ (∀ x ∈ stops, x = .stop) ∧ (ps.length : Int) < n ∧ error e)

/-- Invariant of an iterator over tracts. -/
def TractIter.Good (M : SkyMapOps σ Sky K) (error : Nat → PyErr → Prop) (s : σ) (it : TractIter Sky K) : Prop :=
  ∃ (rs : List (TractRef Sky K)) (tail : List (NextRes (TractRef Sky K))), it.out = rs.map .yields ++ tail ∧ rs.length ≤ M.len ∧
    (∀ (i : Nat) r, rs[i]? = some r → M.getItem i s = (.ok r, s)) ∧
    ((it.pos = some rs.length ∧ tail = []) ∨ (it.pos = none ∧ ((rs.length = M.len ∧ ∀ x ∈ tail, x = .stop) ∨
      ∃ e stops, tail = .raises e :: stops ∧ (∀ x ∈ stops, x = .stop) ∧ rs.length < M.len ∧ error rs.length e)))

/-- A tract that was returned stays. -/
theorem SkyMapOps.Permanent.stays {s s₁ s₂ : σ} (hP : M.Permanent s) (h1 : M.After s s₁) {i : Int} {r : TractRef Sky K}
    (hg : M.getItem i s₁ = (.ok r, s₁)) (h2 : M.After s₁ s₂) : M.getItem i s₂ = (.ok r, s₂) :=
  hP s₁ h1 i r s₁ hg s₂ h2

theorem TractIter.Good.mono {error : Nat → PyErr → Prop} {s s₁ s₂ : σ} {it : TractIter Sky K} (hP : M.Permanent s) (h1 : M.After s s₁)
    (h2 : M.After s₁ s₂) (h : it.Good M error s₁) : it.Good M error s₂ := by
  obtain ⟨rs, tail, a1, a2, a3, a4⟩ := h
  exact ⟨rs, tail, a1, a2, fun i r hi => hP.stays h1 (a3 i r hi) h2, a4⟩

theorem TractIter.Good.next {error : Nat → PyErr → Prop} {s s₁ : σ} {it : TractIter Sky K} (hP : M.Permanent s) (h1 : M.After s s₁)
    (hE : ∀ (i : Nat) e s₁ s₂, M.After s s₁ → M.getItem i s₁ = (.error e, s₂) → error i e) (h : it.Good M error s₁) :
    M.After s₁ (it.next M s₁).2 ∧ (it.next M s₁).1.Good M error (it.next M s₁).2 := by
  obtain ⟨rs, tail, a1, a2, a3, a4⟩ := h
  unfold TractIter.next
  rcases a4 with ⟨b1, rfl⟩ | ⟨b1, b2⟩
  · rw [b1]
    dsimp only
    by_cases hk : rs.length < M.len
    · rw [if_pos hk]
      rcases hg : M.getItem (rs.length : Int) s₁ with ⟨x, s₂⟩
      have ha : M.After s₁ s₂ := SkyMapOps.After.step' hg
      cases x with
      | error e =>
        refine ⟨ha, rs, [.raises e], by simp [a1], a2, fun i r hi => hP.stays h1 (a3 i r hi) ha, .inr ⟨rfl, .inr ⟨e, [], rfl, by simp, hk, ?_⟩⟩⟩
        exact hE _ _ _ _ h1 hg
      | ok r =>
        refine ⟨ha, rs ++ [r], [], by simp [a1], by simp; omega, ?_, .inl ⟨by simp, rfl⟩⟩
        intro i r' hi
        by_cases hl : i < rs.length
        · rw [List.getElem?_append_left hl] at hi
          exact hP.stays h1 (a3 i r' hi) ha
        · have hl' : i = rs.length := by
            have := (List.getElem?_eq_some_iff.1 hi).1
            simp at this
            omega
          subst hl'
          simp at hi
          subst hi
          exact hP s₁ h1 _ _ _ hg _ (SkyMapOps.After.refl _)
    · rw [if_neg hk]
      exact ⟨SkyMapOps.After.refl _, rs, [.stop], by simp [a1], a2, a3, .inr ⟨rfl, .inl ⟨by omega, by simp⟩⟩⟩
  · rw [b1]
    dsimp only
    refine ⟨SkyMapOps.After.refl _, rs, tail ++ [.stop], by simp [a1], a2, a3, .inr ⟨rfl, ?_⟩⟩
    rcases b2 with ⟨c1, c2⟩ | ⟨e, stops, rfl, c2, c3, c4⟩
    · refine .inl ⟨c1, fun x hx => ?_⟩
      rcases List.mem_append.1 hx with hx | hx
      · exact c2 x hx
      · simpa using hx
    · refine .inr ⟨e, stops ++ [.stop], rfl, fun x hx => ?_, c3, c4⟩
      rcases List.mem_append.1 hx with hx | hx
      · exact c2 x hx
      · simpa using hx

/-- A step of a program changes the sky map only by accesses. -/
theorem Session.step_after (S : Session σ Sky K) (u : Use) : M.After S.state (S.step M u).state := by
  cases u with
  | access i => exact SkyMapOps.After.step i _
  | iterTracts => exact SkyMapOps.After.refl _
  | nextTract j =>
    unfold Session.step
    dsimp only
    split
    · exact SkyMapOps.After.refl _
    · rename_i it _
      change M.After S.state (it.next M S.state).2
      unfold TractIter.next
      split
      · exact SkyMapOps.After.refl _
      · split
        · split <;> rename_i hg <;> exact SkyMapOps.After.step' hg
        · exact SkyMapOps.After.refl _
  | iterPatches i =>
    unfold Session.step
    dsimp only
    split <;> rename_i hg <;> exact SkyMapOps.After.step' hg
  | nextPatch j =>
    unfold Session.step
    dsimp only
    split <;> exact SkyMapOps.After.refl _

/-- Induction over the steps of a program. -/
theorem Session.run_ind {P : Session σ Sky K → Prop} {s : σ} (h0 : P ⟨s, [], []⟩) (hs : ∀ S u, M.After s S.state → P S → P (S.step M u))
    (prog : List Use) : M.After s (Session.run M s prog).state ∧ P (Session.run M s prog) := by
  unfold Session.run
  suffices h : ∀ S : Session σ Sky K, M.After s S.state ∧ P S → M.After s (prog.foldl (Session.step M) S).state ∧ P (prog.foldl (Session.step M) S) from
    h _ ⟨SkyMapOps.After.refl _, h0⟩
  induction prog with
  | nil => exact fun S h => h
  | cons u l ih => exact fun S h => ih _ ⟨h.1.trans (Session.step_after S u), hs S u h.1 h.2⟩

/-- The general form of C74 for tracts. -/
theorem iter_tracts_general {error : Nat → PyErr → Prop} {s : σ} (hP : M.Permanent s)
    (hE : ∀ (i : Nat) e s₁ s₂, M.After s s₁ → M.getItem i s₁ = (.error e, s₂) → error i e) (prog : List Use) :
    ∀ it ∈ (Session.run M s prog).tracts, IterSpec.Tracts M (Session.run M s prog).state error it.out := by
  have key := (Session.run_ind (M := M) (s := s) (P := fun S => ∀ it ∈ S.tracts, it.Good M error S.state) (by simp) ?_ prog).2
  · intro it hit
    obtain ⟨rs, tail, a1, a2, a3, a4⟩ := key it hit
    refine ⟨rs, tail, a1, a2, a3, ?_⟩
    rcases a4 with ⟨-, h⟩ | ⟨-, h⟩
    · exact .inl h
    · exact .inr h
  · intro S u ha hS
    have hstep := Session.step_after (M := M) S u
    have old : ∀ it ∈ S.tracts, it.Good M error (S.step M u).state := fun it hit => (hS it hit).mono hP ha hstep
    cases u with
    | access i => exact old
    | iterTracts =>
      intro it hit
      rcases List.mem_append.1 hit with hit | hit
      · exact old it hit
      · rw [List.mem_singleton] at hit
        subst hit
        exact ⟨[], [], rfl, by simp, by simp, .inl ⟨rfl, rfl⟩⟩
    | nextTract j =>
      cases hj : S.tracts[j]? with
      | none =>
        have e : S.step M (.nextTract j) = S := by simp [Session.step, hj]
        rw [e]; exact hS
      | some it₀ =>
        have e : S.step M (.nextTract j) = { S with state := (it₀.next M S.state).2, tracts := S.tracts.set j (it₀.next M S.state).1 } := by
          simp [Session.step, hj]
        rw [e] at old ⊢
        intro it hit
        rcases List.mem_or_eq_of_mem_set hit with hit | rfl
        · exact old it hit
        · exact ((hS it₀ (List.mem_of_getElem? hj)).next hP ha hE).2
    | iterPatches i =>
      have e : (S.step M (.iterPatches i)).tracts = S.tracts := by
        unfold Session.step; dsimp only; split <;> rfl
      rw [e]; exact old
    | nextPatch j =>
      have e : (S.step M (.nextPatch j)).tracts = S.tracts := by
        unfold Session.step; dsimp only; split <;> rfl
      rw [e]; exact old

/-- C74, lazily built sky maps: whatever the program does with the sky map between the calls of `next`, each of its iterators over tracts
gives the tracts `skyMap[0]`, `skyMap[1]`, ... in this order. -/
theorem C74_tracts_caching (m : CachingDef Sky K) (b₀ : TractBuilder) (prog : List Use) :
    ∀ it ∈ (Session.run (CachingSkyMap.skyMapOps m) (CachingSkyMap.init m b₀) prog).tracts,
      IterSpec.Tracts (CachingSkyMap.skyMapOps m) (Session.run (CachingSkyMap.skyMapOps m) (CachingSkyMap.init m b₀) prog).state
        (fun i e => (CachingSkyMap.getItem m i (CachingSkyMap.init m b₀)).1 = .error e) it.out := by
  apply iter_tracts_general (permanent_of_reachable (SkyMapOps.After.refl _))
  intro i e s₁ s₂ h1 hg
  have h := C19_history_independent h1 i
  rw [CachingSkyMap.skyMapOps_getItem] at hg
  rw [hg] at h
  cases hx : (CachingSkyMap.getItem m i (CachingSkyMap.init m b₀)).1 with
  | ok r => rw [hx] at h; cases h
  | error e' =>
    rw [hx] at h
    exact congrArg Except.error (Except.error.inj h).symm

/-- C74, sky maps whose constructor builds all tracts: the same, and no `next` raises anything but `StopIteration`. -/
theorem C74_tracts_eager (ts : List (TractRef Sky K)) (b : TractBuilder) (prog : List Use) :
    ∀ it ∈ (Session.run (EagerSkyMap.skyMapOps ts) b prog).tracts,
      IterSpec.Tracts (EagerSkyMap.skyMapOps ts) (Session.run (EagerSkyMap.skyMapOps ts) b prog).state (fun i _ => ts.length ≤ i) it.out := by
  apply iter_tracts_general (Search_permanent_eager ts b).1
  intro i e s₁ s₂ h1 hg
  by_contra hc
  simp only [EagerSkyMap.skyMapOps, PyS.lift] at hg
  rw [CachingSkyMap.pyGetItem_nat (List.getElem?_eq_getElem (show i < ts.length by omega))] at hg
  cases hg

/-- C74: one call of `next` gives exactly one answer, to the iterator that was asked. -/
theorem C74_one_answer (S : Session σ Sky K) (u : Use) (j : Nat) (it : TractIter Sky K) (h : S.tracts[j]? = some it) :
    ∃ it', (S.step M u).tracts[j]? = some it' ∧ (u = .nextTract j → ∃ x, it'.out = it.out ++ [x]) ∧ (u ≠ .nextTract j → it' = it) := by
  have hj : j < S.tracts.length := (List.getElem?_eq_some_iff.1 h).1
  have other : ∀ T : List (TractIter Sky K), T = S.tracts → u ≠ .nextTract j →
      ∃ it', T[j]? = some it' ∧ (u = .nextTract j → ∃ x, it'.out = it.out ++ [x]) ∧ (u ≠ .nextTract j → it' = it) := by
    rintro T rfl hu
    exact ⟨it, h, fun e => absurd e hu, fun _ => rfl⟩
  cases u with
  | access i => exact other _ rfl (by simp)
  | iterTracts =>
    refine ⟨it, ?_, by simp, fun _ => rfl⟩
    change (S.tracts ++ _)[j]? = _
    rw [List.getElem?_append_left hj, h]
  | nextTract k =>
    by_cases hk : k = j
    · subst hk
      have e : S.step M (.nextTract k) = { S with state := (it.next M S.state).2, tracts := S.tracts.set k (it.next M S.state).1 } := by
        simp [Session.step, h]
      rw [e]
      refine ⟨(it.next M S.state).1, by simp [hj], fun _ => ?_, fun hc => absurd rfl hc⟩
      unfold TractIter.next
      split
      · exact ⟨_, rfl⟩
      · split
        · split <;> exact ⟨_, rfl⟩
        · exact ⟨_, rfl⟩
    · refine ⟨it, ?_, fun e => by injection e with e; exact absurd e hk, fun _ => rfl⟩
      unfold Session.step
      dsimp only
      split
      · exact h
      · rw [List.getElem?_set_ne hk]; exact h
  | iterPatches i =>
    apply other _ _ (by simp)
    unfold Session.step; dsimp only; split <;> rfl
  | nextPatch k =>
    apply other _ _ (by simp)
    unfold Session.step; dsimp only; split <;> rfl

/-- C74: likewise for iterators over patches. -/
theorem C74_one_patch_answer (S : Session σ Sky K) (u : Use) (j : Nat) (it : PatchIter Sky K) (h : S.patches[j]? = some it) :
    ∃ it', (S.step M u).patches[j]? = some it' ∧ it'.tract = it.tract ∧ (u = .nextPatch j → ∃ x, it'.out = it.out ++ [x]) ∧
      (u ≠ .nextPatch j → it' = it) := by
  have hj : j < S.patches.length := (List.getElem?_eq_some_iff.1 h).1
  have other : ∀ T : List (PatchIter Sky K), T[j]? = some it → u ≠ .nextPatch j →
      ∃ it', T[j]? = some it' ∧ it'.tract = it.tract ∧ (u = .nextPatch j → ∃ x, it'.out = it.out ++ [x]) ∧ (u ≠ .nextPatch j → it' = it) := by
    intro T hT hu
    exact ⟨it, hT, rfl, fun e => absurd e hu, fun _ => rfl⟩
  cases u with
  | access i => exact other _ h (by simp)
  | iterTracts => exact other _ h (by simp)
  | nextTract k =>
    apply other _ _ (by simp)
    unfold Session.step; dsimp only; split <;> exact h
  | iterPatches i =>
    apply other _ _ (by simp)
    unfold Session.step; dsimp only; split
    · dsimp only; rw [List.getElem?_append_left hj, h]
    · exact h
  | nextPatch k =>
    by_cases hk : k = j
    · subst hk
      have e : S.step M (.nextPatch k) = { S with patches := S.patches.set k (it.next (M.builder S.state)) } := by
        simp [Session.step, h]
      rw [e]
      refine ⟨it.next (M.builder S.state), by simp [hj], ?_, fun _ => ?_, fun hc => absurd rfl hc⟩
      · unfold PatchIter.next
        split
        · rfl
        · split <;> rfl
      · unfold PatchIter.next
        split
        · exact ⟨_, rfl⟩
        · split <;> exact ⟨_, rfl⟩
    · refine ⟨it, ?_, rfl, fun e => by injection e with e; exact absurd e hk, fun _ => rfl⟩
      unfold Session.step
      dsimp only
      split
      · exact h
      · dsimp only; rw [List.getElem?_set_ne hk]; exact h

/-! ## Patches -/

/-- The indices of the patches of a tract in the order of iteration. -/
def gridOf (n : Index2D) : List Index2D := (pyRange 0 n.y).flatMap fun y => (pyRange 0 n.x).map fun x => ⟨x, y⟩

/-- Some answer of `getPatchInfo` on a tract of the sky map, at some moment after the tract was returned. -/
def Answer (M : SkyMapOps σ Sky K) (s : σ) (t : TractRef Sky K) (i : Index2D) (x : PyM (PatchInfo (Wcs Sky K))) : Prop :=
  ∃ s₁ j, M.After s s₁ ∧ M.getItem j s₁ = (.ok t, s₁) ∧ t.info.getPatchInfo (M.builder s₁) (.index2D i) = x

/-- Invariant of an iterator over patches. -/
def PatchIter.Good (M : SkyMapOps σ Sky K) (s s₁ : σ) (it : PatchIter Sky K) : Prop :=
  (∃ j, M.getItem j s₁ = (.ok it.tract, s₁)) ∧
  ∃ (ps : List (PatchInfo (Wcs Sky K))) (tail : List (NextRes (PatchInfo (Wcs Sky K)))), it.out = ps.map .yields ++ tail ∧
    (∀ (k : Nat) p, ps[k]? = some p → ∃ i, (gridOf it.tract.info.numPatches)[k]? = some i ∧ Answer M s it.tract i (.ok p)) ∧
    ((it.rest = (gridOf it.tract.info.numPatches).drop ps.length ∧ ps.length ≤ (gridOf it.tract.info.numPatches).length ∧ tail = []) ∨
     (it.rest = [] ∧ ps.length = (gridOf it.tract.info.numPatches).length ∧ ∀ x ∈ tail, x = .stop) ∨
     (it.rest = [] ∧ ∃ e stops i, tail = .raises e :: stops ∧ (∀ x ∈ stops, x = .stop) ∧
      (gridOf it.tract.info.numPatches)[ps.length]? = some i ∧ Answer M s it.tract i (.error e)))

theorem PatchIter.Good.mono {s s₁ s₂ : σ} {it : PatchIter Sky K} (hP : M.Permanent s) (h1 : M.After s s₁)
    (h2 : M.After s₁ s₂) (h : it.Good M s s₁) : it.Good M s s₂ := by
  obtain ⟨⟨j, hj⟩, h⟩ := h
  exact ⟨⟨j, hP.stays h1 hj h2⟩, h⟩

theorem PatchIter.Good.next {s s₁ : σ} {it : PatchIter Sky K} (h1 : M.After s s₁) (h : it.Good M s s₁) :
    (it.next (M.builder s₁)).Good M s s₁ := by
  obtain ⟨⟨j, hj⟩, ps, tail, a1, a2, a3⟩ := h
  unfold PatchIter.next
  cases hr : it.rest with
  | nil =>
    refine ⟨⟨j, hj⟩, ps, tail ++ [.stop], by simp [a1], a2, ?_⟩
    rcases a3 with ⟨b1, b2, rfl⟩ | ⟨b1, b2, b3⟩ | ⟨b1, e, stops, i, rfl, b3, b4, b5⟩
    · refine .inr (.inl ⟨rfl, ?_, by simp⟩)
      rw [hr] at b1
      have := List.drop_eq_nil_iff.1 b1.symm
      exact le_antisymm b2 this
    · refine .inr (.inl ⟨rfl, b2, fun x hx => ?_⟩)
      rcases List.mem_append.1 hx with hx | hx
      · exact b3 x hx
      · simpa using hx
    · refine .inr (.inr ⟨rfl, e, stops ++ [.stop], i, rfl, fun x hx => ?_, b4, b5⟩)
      rcases List.mem_append.1 hx with hx | hx
      · exact b3 x hx
      · simpa using hx
  | cons i l =>
    obtain ⟨b1, b2, rfl⟩ : it.rest = (gridOf it.tract.info.numPatches).drop ps.length ∧ ps.length ≤ (gridOf it.tract.info.numPatches).length ∧ tail = [] := by
      rcases a3 with h | ⟨h, -⟩ | ⟨h, -⟩
      · exact h
      · rw [hr] at h; cases h
      · rw [hr] at h; cases h
    rw [hr] at b1
    have hi : (gridOf it.tract.info.numPatches)[ps.length]? = some i := by
      have := congrArg (fun l => l[0]?) b1
      simpa using this.symm
    have hl : l = (gridOf it.tract.info.numPatches).drop (ps.length + 1) := by
      rw [← List.tail_drop, ← b1]; rfl
    have hlt := (List.getElem?_eq_some_iff.1 hi).1
    dsimp only
    cases hp : it.tract.info.getPatchInfo (M.builder s₁) (.index2D i) with
    | error e =>
      exact ⟨⟨j, hj⟩, ps, [.raises e], by simp [a1], a2, .inr (.inr ⟨rfl, e, [], i, rfl, by simp, hi, s₁, j, h1, hj, hp⟩)⟩
    | ok p =>
      refine ⟨⟨j, hj⟩, ps ++ [p], [], by simp [a1], ?_, .inl ⟨by simpa using hl, by simp; omega, rfl⟩⟩
      intro k p' hk
      by_cases hkl : k < ps.length
      · rw [List.getElem?_append_left hkl] at hk
        exact a2 k p' hk
      · have hk' : k = ps.length := by
          have := (List.getElem?_eq_some_iff.1 hk).1
          simp at this
          omega
        subst hk'
        simp at hk
        subst hk
        exact ⟨i, hi, s₁, j, h1, hj, hp⟩

theorem iter_patches_general {s : σ} (hP : M.Permanent s) (prog : List Use) :
    ∀ it ∈ (Session.run M s prog).patches, it.Good M s (Session.run M s prog).state := by
  refine (Session.run_ind (M := M) (s := s) (P := fun S => ∀ it ∈ S.patches, it.Good M s S.state) (by simp) ?_ prog).2
  intro S u ha hS
  have hstep := Session.step_after (M := M) S u
  have old : ∀ it ∈ S.patches, it.Good M s (S.step M u).state := fun it hit => (hS it hit).mono hP ha hstep
  cases u with
  | access i => exact old
  | iterTracts => exact old
  | nextTract j =>
    have e : (S.step M (.nextTract j)).patches = S.patches := by
      unfold Session.step; dsimp only; split <;> rfl
    rw [e]; exact old
  | iterPatches i =>
    rcases hg : M.getItem i S.state with ⟨x, s'⟩
    cases x with
    | error e =>
      have e : S.step M (.iterPatches i) = { S with state := s' } := by simp [Session.step, hg]
      rw [e] at old ⊢; exact old
    | ok r =>
      have e : S.step M (.iterPatches i) = { S with state := s', patches := S.patches ++ [PatchIter.start r] } := by simp [Session.step, hg]
      rw [e] at old ⊢
      intro it hit
      rcases List.mem_append.1 hit with hit | hit
      · exact old it hit
      · rw [List.mem_singleton] at hit
        subst hit
        exact ⟨⟨i, hP _ ha _ _ _ hg _ (SkyMapOps.After.refl _)⟩, [], [], rfl, by simp, .inl ⟨rfl, by simp, rfl⟩⟩
  | nextPatch j =>
    cases hj : S.patches[j]? with
    | none =>
      have e : S.step M (.nextPatch j) = S := by simp [Session.step, hj]
      rw [e]; exact hS
    | some it₀ =>
      have e : S.step M (.nextPatch j) = { S with patches := S.patches.set j (it₀.next (M.builder S.state)) } := by
        simp [Session.step, hj]
      rw [e] at old ⊢
      intro it hit
      rcases List.mem_or_eq_of_mem_set hit with hit | rfl
      · exact old it hit
      · exact (hS it₀ (List.mem_of_getElem? hj)).next ha

/-- The grid in terms of the sequential index. -/
theorem gridOf_get {n : Index2D} (hx : 0 ≤ n.x) (hy : 0 ≤ n.y) : ((gridOf n).length : Int) = n.x * n.y ∧
    ∀ (k : Nat) i, (gridOf n)[k]? = some i → i = ⟨(k : Int) % n.x, (k : Int) / n.x⟩ := by
  unfold gridOf
  rw [grid_eq n hx hy]
  constructor
  · simp only [List.length_map, List.length_range]
    exact Int.toNat_of_nonneg (Int.mul_nonneg hx hy)
  · intro k i hk
    simp only [List.getElem?_map, Option.map_eq_some_iff] at hk
    obtain ⟨a, ha, rfl⟩ := hk
    have := (List.getElem?_eq_some_iff.1 ha).2
    rw [List.getElem_range] at this
    rw [this]

namespace CachingSkyMap
variable {m : CachingDef Sky K} {b₀ : TractBuilder}

/-- C74, lazily built sky maps: whatever the program does between the calls of `next`, an iterator over the patches of a tract gives its
patches in the order of the sequential index, each with the right index, inner box and WCS; it gives all of them before `StopIteration`,
unless a call raises `IndexError`, after which the iterator has ended. -/
theorem C74_patches_caching (hx : 0 < b₀.patchInnerDimensions.x) (hy : 0 < b₀.patchInnerDimensions.y) (hb : 0 ≤ b₀.patchBorder)
    (prog : List Use) : ∀ it ∈ (Session.run (skyMapOps m) (init m b₀) prog).patches, ∃ ps : List (PatchInfo (Wcs Sky K)),
      IterSpec.Patches it.tract.info.len (fun e => e = .IndexError) ps it.out ∧
      ∀ (k : Nat) p, ps[k]? = some p → p.index = ⟨(k : Int) % it.tract.info.numPatches.x, (k : Int) / it.tract.info.numPatches.x⟩ ∧
        p.wcs = it.tract.info.wcs ∧
        p.innerBBox = ⟨⟨p.index.x * b₀.patchInnerDimensions.x, p.index.y * b₀.patchInnerDimensions.y⟩, b₀.patchInnerDimensions⟩ := by
  intro it hit
  obtain ⟨⟨j, hj⟩, ps, tail, a1, a2, a3⟩ := iter_patches_general (permanent_of_reachable (SkyMapOps.After.refl _)) prog it hit
  have hrun := (Session.run_ind (M := skyMapOps m) (s := init m b₀) (P := fun _ => True) trivial (fun _ _ _ _ => trivial) prog).1
  obtain ⟨k, rfl, hk, b, hf, -⟩ := fresh_of_getItem hrun hj
  have B := fresh_built hx hy hf
  obtain ⟨g1, g2⟩ := gridOf_get B.ready.nx B.ready.ny
  have ans : ∀ i x, Answer (skyMapOps m) (init m b₀) it.tract i x → (∀ e, x = .error e → e = .IndexError) ∧
      ∀ p, x = .ok p → p.index = i ∧ p.wcs = it.tract.info.wcs ∧
        p.innerBBox = ⟨⟨i.x * b₀.patchInnerDimensions.x, i.y * b₀.patchInnerDimensions.y⟩, b₀.patchInnerDimensions⟩ := by
    rintro i x ⟨s₁, j', h1, hg, hx'⟩
    obtain ⟨j'', r', hg', hn⟩ := C68_newest h1 hg
    obtain ⟨c1, c2⟩ := C68_getPatchInfo hx hy hb h1 hg' hn it.tract i
    by_cases hr : InRange r'.info.numPatches i
    · obtain ⟨p, d1, d2, d3, -, d5, -⟩ := c2 hr
      change _ = _ at hx'
      rw [show it.tract.info.getPatchInfo ((skyMapOps m).builder s₁) (.index2D i) = .ok p from d1] at hx'
      subst hx'
      refine ⟨fun e he => (by cases he), fun p' hp => ?_⟩
      cases hp
      exact ⟨d2, d3, d5⟩
    · rw [show it.tract.info.getPatchInfo ((skyMapOps m).builder s₁) (.index2D i) = .error .IndexError from c1 hr] at hx'
      subst hx'
      refine ⟨fun e he => (by cases he; rfl), fun p' hp => (by cases hp)⟩
  refine ⟨ps, ⟨tail, a1, ?_, ?_⟩, ?_⟩
  · unfold TractInfo.len
    rw [← g1]
    rcases a3 with ⟨-, h, -⟩ | ⟨-, h, -⟩ | ⟨-, e, stops, i, -, -, h, -⟩
    · exact_mod_cast h
    · exact_mod_cast h.le
    · exact_mod_cast (List.getElem?_eq_some_iff.1 h).1.le
  · unfold TractInfo.len
    rw [← g1]
    rcases a3 with ⟨-, -, h⟩ | ⟨-, h, h'⟩ | ⟨-, e, stops, i, h, h', h'', h3⟩
    · exact .inl h
    · exact .inr (.inl ⟨by exact_mod_cast h, h'⟩)
    · exact .inr (.inr ⟨e, stops, h, h', by exact_mod_cast (List.getElem?_eq_some_iff.1 h'').1, (ans i _ h3).1 e rfl⟩)
  · intro k p hp
    obtain ⟨i, hi, hA⟩ := a2 k p hp
    obtain ⟨c1, c2, c3⟩ := (ans i _ hA).2 p rfl
    rw [c1]
    exact ⟨g2 k i hi, c2, c3⟩

/-- C74, lazily built sky maps whose tracts all have the same number of patches: the iterator gives exactly the patches that the tract has
on a new sky map on which nothing else was accessed, and no call raises anything but `StopIteration` after the last one. -/
theorem C74_patches_uniform (hx : 0 < b₀.patchInnerDimensions.x) (hy : 0 < b₀.patchInnerDimensions.y) (hb : 0 ≤ b₀.patchBorder)
    (hu : m.Uniform b₀) (prog : List Use) : ∀ it ∈ (Session.run (skyMapOps m) (init m b₀) prog).patches,
      ∃ (i : Int) (r₀ : TractRef Sky K) (s₀ : MapState Sky K) (l ps : List (PatchInfo (Wcs Sky K))),
        getItem m i (init m b₀) = (.ok r₀, s₀) ∧ it.tract.info = r₀.info ∧ r₀.info.iter s₀.builder = .ok l ∧
        ps <+: l ∧ IterSpec.Patches (l.length : Int) (fun _ => False) ps it.out := by
  intro it hit
  obtain ⟨⟨j, hj⟩, ps, tail, a1, a2, a3⟩ := iter_patches_general (permanent_of_reachable (SkyMapOps.After.refl _)) prog it hit
  have hrun := (Session.run_ind (M := skyMapOps m) (s := init m b₀) (P := fun _ => True) trivial (fun _ _ _ _ => trivial) prog).1
  obtain ⟨k, rfl, hk, b, hf, hb1, hr1⟩ := fresh_of_getItem hrun hj
  have B := fresh_built hx hy hf
  have hb' : 0 ≤ b.patchBorder := by rw [B.border]; exact hb
  obtain ⟨g1, g2⟩ := gridOf_get B.ready.nx B.ready.ny
  have hg0 : getItem m k (init m b₀) = (.ok ⟨0, it.tract.info⟩, (getItem m k (init m b₀)).2) := Prod.ext hr1 rfl
  have hin : ∀ i ∈ gridOf it.tract.info.numPatches, InRange it.tract.info.numPatches i := by
    intro i hi
    simp only [gridOf, List.mem_flatMap, List.mem_map, mem_pyRange] at hi
    obtain ⟨y, hy, x, hx, rfl⟩ := hi
    exact ⟨hx.1, hx.2, hy.1, hy.2⟩
  have ans : ∀ i x, i ∈ gridOf it.tract.info.numPatches → Answer (skyMapOps m) (init m b₀) it.tract i x →
      x = .ok (b.patchVal it.tract.info.numPatches i it.tract.info.wcs) := by
    rintro i x hi ⟨s₁, j', h1, hg, hx'⟩
    obtain ⟨k', rfl, -, b1, hf1, hb2, hr2⟩ := fresh_of_getItem h1 hg
    have hg0' : getItem m k' (init m b₀) = (.ok ⟨0, it.tract.info⟩, (getItem m k' (init m b₀)).2) := Prod.ext hr2 rfl
    have e := (builder_uniform hx hy hu h1 hg (SkyMapOps.After.refl _) hg0').2
    have e' := built_builder_eq (fresh_built hx hy hf1) B rfl
    rw [← hx', ← B.ready.getPatchInfo_ok hb' (hin i hi), ← e', ← hb2, ← e]
    rfl
  refine ⟨k, ⟨0, it.tract.info⟩, _, (gridOf it.tract.info.numPatches).map fun i => b.patchVal it.tract.info.numPatches i it.tract.info.wcs, ps,
    hg0, rfl, ?_, ?_, tail, a1, ?_, ?_⟩
  · rw [hb1]
    exact pyMapM_ok_of _ _ _ fun i hi => B.ready.getPatchInfo_ok hb' (hin i hi) _
  · rw [List.prefix_iff_eq_take]
    apply List.ext_getElem? fun n => ?_
    by_cases hn : n < ps.length
    · obtain ⟨i, hi, hA⟩ := a2 n _ (List.getElem?_eq_getElem hn)
      have := Except.ok.inj (ans i _ (List.mem_of_getElem? hi) hA)
      rw [List.getElem?_eq_getElem hn, this]
      simp [hn, hi]
    · rw [List.getElem?_eq_none (by omega), List.getElem?_eq_none (by simp; omega)]
  · rw [List.length_map]
    rcases a3 with ⟨-, h, -⟩ | ⟨-, h, -⟩ | ⟨-, e, stops, i, -, -, h, -⟩
    · exact_mod_cast h
    · exact_mod_cast h.le
    · exact_mod_cast (List.getElem?_eq_some_iff.1 h).1.le
  · rw [List.length_map]
    rcases a3 with ⟨-, -, h⟩ | ⟨-, h, h'⟩ | ⟨-, e, stops, i, h, h', h'', h3⟩
    · exact .inl h
    · exact .inr (.inl ⟨by exact_mod_cast h, h'⟩)
    · have := ans i _ (List.mem_of_getElem? h'') h3
      cases this

end CachingSkyMap

/-- C74, sky maps whose constructor builds all tracts: if iterating over a tract in one go gives the patches `l`, an iterator over it that is
used at any other times gives them as well. -/
theorem C74_patches_eager (ts : List (TractRef Sky K)) (b : TractBuilder) (prog : List Use) :
    ∀ it ∈ (Session.run (EagerSkyMap.skyMapOps ts) b prog).patches, it.tract ∈ ts ∧
      ∀ l, it.tract.info.iter b = .ok l → ∃ ps, ps <+: l ∧ IterSpec.Patches (l.length : Int) (fun _ => False) ps it.out := by
  intro it hit
  obtain ⟨⟨j, hj⟩, ps, tail, a1, a2, a3⟩ := iter_patches_general (Search_permanent_eager ts b).1 prog it hit
  constructor
  · simp only [EagerSkyMap.skyMapOps, PyS.lift, Prod.mk.injEq, and_true] at hj
    unfold pyGetItem at hj
    dsimp only at hj
    generalize (if j < 0 then j + (ts.length : Int) else j) = j' at hj
    by_cases h0 : j' < 0
    · rw [if_pos h0] at hj; cases hj
    · rw [if_neg h0] at hj
      cases hc : ts[j'.toNat]? with
      | none => rw [hc] at hj; cases hj
      | some a =>
        rw [hc] at hj
        cases hj
        exact List.mem_of_getElem? hc
  intro l hl
  have hl' := (pyMapM_ok_iff _ _ _).1 hl
  have hlen : (gridOf it.tract.info.numPatches).length = l.length := hl'.length_eq
  have hget := (List.forall₂_iff_get.1 hl').2
  have ans : ∀ (k : Nat) i x, (gridOf it.tract.info.numPatches)[k]? = some i → Answer (EagerSkyMap.skyMapOps ts) b it.tract i x →
      ∃ p, l[k]? = some p ∧ x = .ok p := by
    rintro k i x hi ⟨s₁, j', h1, -, hx⟩
    obtain ⟨hk, rfl⟩ := List.getElem?_eq_some_iff.1 hi
    have hk' : k < l.length := hlen ▸ hk
    refine ⟨l[k], List.getElem?_eq_getElem hk', ?_⟩
    have := hget k hk hk'
    rw [eager_state ts h1] at hx
    rw [← hx]
    exact this
  refine ⟨ps, ?_, tail, a1, ?_, ?_⟩
  · rw [List.prefix_iff_eq_take]
    apply List.ext_getElem? fun n => ?_
    by_cases hn : n < ps.length
    · obtain ⟨i, hi, hA⟩ := a2 n _ (List.getElem?_eq_getElem hn)
      obtain ⟨p, h1, h2⟩ := ans n i _ hi hA
      cases h2
      rw [List.getElem?_eq_getElem hn, List.getElem?_take_of_lt hn, h1]
    · rw [List.getElem?_eq_none (by omega), List.getElem?_eq_none (by simp; omega)]
  · rw [← hlen]
    rcases a3 with ⟨-, h, -⟩ | ⟨-, h, -⟩ | ⟨-, e, stops, i, -, -, h, -⟩
    · exact_mod_cast h
    · exact_mod_cast h.le
    · exact_mod_cast (List.getElem?_eq_some_iff.1 h).1.le
  · rw [← hlen]
    rcases a3 with ⟨-, -, h⟩ | ⟨-, h, h'⟩ | ⟨-, e, stops, i, h, h', h'', h3⟩
    · exact .inl h
    · exact .inr (.inl ⟨by exact_mod_cast h, h'⟩)
    · obtain ⟨p, -, h4⟩ := ans _ _ _ h'' h3
      cases h4

/-! ## Concrete cases -/

/-- Two interleaved iterators over the tracts of a sky map with two tracts, the second of them accessed first. -/
example : (Session.run (CachingSkyMap.skyMapOps Ex.unequalMap) (CachingSkyMap.init Ex.unequalMap Ex.legacy)
    [.iterTracts, .access 1, .nextTract 0, .iterTracts, .nextTract 1, .nextTract 0, .nextTract 0, .nextTract 1]).tracts.map (fun it =>
      it.out.map fun | .yields r => some (r.oid, r.info.id) | _ => none) =
    [[some (1, 0), some (0, 1), none], [some (1, 0), some (0, 1)]] := by
  decide +kernel

/-- C74, what tracts of different sizes do to an iterator over patches: while a program goes through the patches of the larger tract it
accesses the smaller one; the fourth call of `next` raises `IndexError`, and the iterator has ended after 3 of the 48 patches. -/
theorem C74_fails_unequal : (Session.run (CachingSkyMap.skyMapOps Ex.unequalMap) (CachingSkyMap.init Ex.unequalMap Ex.legacy)
    [.iterPatches 1, .nextPatch 0, .access 0, .nextPatch 0, .nextPatch 0, .nextPatch 0, .nextPatch 0]).patches.map (fun it =>
      (it.tract.info.len, it.out.map fun | .yields p => some (Except.ok p.index) | .raises e => some (.error e) | .stop => none)) =
    [(48, [some (Except.ok ⟨0, 0⟩), some (.ok ⟨1, 0⟩), some (.ok ⟨2, 0⟩), some (.error PyErr.IndexError), none])] := by
  decide +kernel

/-- The hypotheses of the uniform case. -/
example : 0 < Ex.legacy.patchInnerDimensions.x ∧ 0 < Ex.legacy.patchInnerDimensions.y ∧ 0 ≤ Ex.legacy.patchBorder ∧ Ex.equalMap.Uniform Ex.legacy ∧
    (Session.run (CachingSkyMap.skyMapOps Ex.equalMap) (CachingSkyMap.init Ex.equalMap Ex.legacy)
      [.iterPatches 1, .nextPatch 0, .access 0, .nextPatch 0]).patches.map (fun it =>
      it.out.map fun | .yields p => some p.index | _ => none) = [[some ⟨0, 0⟩, some ⟨1, 0⟩]] :=
  ⟨by decide, by decide, by decide, Ex.equal_uniform, by decide +kernel⟩

end Skymap
