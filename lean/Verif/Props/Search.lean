import Verif.Props.Caching
import Verif.Props.Cells

/-! # C22 - C25: the generic searches of `BaseSkyMap`

The theorems are about any sky map `M` (any way of holding tracts, any history) in a state `s` from
which on tracts are permanent; `Search_permanent_caching` and `Search_permanent_eager` show that every
sky map class is one. -/

set_option linter.unusedSectionVars false

namespace Skymap
open BaseSkyMap

variable {Sky K σ : Type} {M : SkyMapOps σ Sky K} {s s' : σ}

/-- Replaying a loop once all its tracts are there. -/
theorem loop_replay {β : Type} (body : Nat → TractRef Sky K → PyS σ β) {L : List Nat} {l : List β}
    (h : List.Forall₂ (fun (i : Nat) x => ∃ r, M.getItem i s = (.ok r, s) ∧ body i r s = (.ok x, s)) L l) :
    PyS.mapM (fun i : Nat => M.getItem (i : Int) >>= body i) L s = (.ok l, s) := by
  induction h with
  | nil => rfl
  | cons h _ ih =>
    obtain ⟨r, h1, h2⟩ := h
    rw [PyS.mapM_cons, PyS.bind_ok (by rw [PyS.bind_ok h1]; exact h2), PyS.bind_ok ih]
    rfl

variable [Field K] [LinearOrder K] [FloorRing K]

/-! ## The hypothesis holds for all sky map classes -/

/-- Caching sky maps: Discrete, Rings, Healpix. -/
theorem Search_permanent_caching (m : CachingDef Sky K) (b₀ : TractBuilder) (s : MapState Sky K)
    (h : (CachingSkyMap.skyMapOps m).After (CachingSkyMap.init m b₀) s) :
    (CachingSkyMap.skyMapOps m).Permanent s := permanent_of_reachable h

theorem eager_state (ts : List (TractRef Sky K)) {b b' : TractBuilder} (h : (EagerSkyMap.skyMapOps ts).After b b') :
    b' = b :=
  h.ind (P := fun x => x = b) rfl fun _ _ e => e

/-- Sky maps with a list of tracts: Dodeca, Equat. -/
theorem Search_permanent_eager (ts : List (TractRef Sky K)) (b : TractBuilder) :
    (EagerSkyMap.skyMapOps ts).Permanent b ∧ (EagerSkyMap.skyMapOps ts).StableBuilder b := by
  constructor
  · intro s₁ h1 i r s₂ hg s₃ h3
    have e1 := eager_state ts h1
    have e2 : s₂ = s₁ := by
      have : (PyS.lift (pyGetItem ts i) : PyS TractBuilder _) s₁ = (.ok r, s₂) := hg
      simp only [PyS.lift, Prod.mk.injEq] at this
      exact this.2.symm
    have e3 := eager_state ts h3
    subst e2 e3
    exact hg
  · intro s₁ h1 i r s₂ hg s₃ h3
    rw [eager_state ts h3]

/-- Caching sky maps whose tracts all have the same number of patches have a stable builder. -/
theorem Search_stable_uniform (m : CachingDef Sky K) (b₀ : TractBuilder) (s : MapState Sky K)
    (hx : 0 < b₀.patchInnerDimensions.x) (hy : 0 < b₀.patchInnerDimensions.y) (hu : m.Uniform b₀)
    (h : (CachingSkyMap.skyMapOps m).After (CachingSkyMap.init m b₀) s) :
    (CachingSkyMap.skyMapOps m).StableBuilder s := by
  intro s₁ h1 i r s₂ hg s₃ h3
  obtain ⟨k, rfl, hk, b, hf, hb, hr0⟩ := fresh_of_getItem (h.trans h1) hg
  have g0 : CachingSkyMap.getItem m k (CachingSkyMap.init m b₀) =
      (.ok ⟨0, r.info⟩, (CachingSkyMap.getItem m k (CachingSkyMap.init m b₀)).2) :=
    Prod.ext_iff.2 ⟨hr0, rfl⟩
  have e1 := (builder_uniform hx hy hu (h.trans h1) hg h3 g0).2
  have e2 := (builder_uniform hx hy hu (h.trans h1) hg (SkyMapOps.After.refl _) g0).2
  exact e1.trans e2.symm

/-! ## C22 -/

/-- C22: `findTract` returns a tract whose centre is nearest to the coordinate, and among equally near
ones the one with the lowest index.  (`M.getItem k s' = (.ok r, s')` says that `r` is the tract with
index k.) -/
theorem C22_nearest (ops : SkyOps Sky K) (hP : M.Permanent s) (c : Sky) (r : TractRef Sky K)
    (h : findTract ops M c s = (.ok r, s')) :
    ∃ k : Nat, k < M.len ∧ M.getItem k s' = (.ok r, s') ∧
      ∀ j : Nat, j < M.len → ∃ r', M.getItem j s' = (.ok r', s') ∧
        (ops.separation c r.info.ctrCoord < ops.separation c r'.info.ctrCoord ∨
         (ops.separation c r.info.ctrCoord = ops.separation c r'.info.ctrCoord ∧ k ≤ j)) := by
  unfold findTract at h
  obtain ⟨l, s₁, h1, h2⟩ := PyS.bind_inv h
  cases hh : (pySort tupleLe l).head? with
  | none =>
    rw [hh] at h2
    simp [PyS.lift] at h2
  | some x =>
    rw [hh] at h2
    simp only [PyS.pure_apply, Prod.mk.injEq, Except.ok.injEq] at h2
    obtain ⟨rfl, rfl⟩ := h2
    obtain ⟨hm, hmin⟩ := sort_head hh
    obtain ⟨ha, h3⟩ := loop_spec (M := M) (fun i t => pure (ops.separation c t.info.ctrCoord, i, t))
      (fun i t _ => .ok (ops.separation c t.info.ctrCoord, i, t)) (fun _ _ _ => rfl) _ _ _ _ h1
    obtain ⟨h4, h5⟩ := forall₂_range h3
    have entry : ∀ k : Nat, k < M.len → ∃ r, l[k]? = some (ops.separation c r.info.ctrCoord, k, r) ∧
        M.getItem k s₁ = (.ok r, s₁) := by
      intro k hk
      obtain ⟨y, hy, r, s₀, s₂, g1, g2, g3, g4⟩ := h5 k hk
      simp only [Except.ok.injEq] at g4
      exact ⟨r, by rw [hy, g4], hP s₀ g1 k r s₂ g2 s₁ g3⟩
    obtain ⟨k, hk⟩ := List.getElem?_of_mem hm
    have hk' : k < M.len := by
      rw [← h4]
      exact (List.getElem?_eq_some_iff.1 hk).1
    obtain ⟨r, e1, e2⟩ := entry k hk'
    rw [hk] at e1
    simp only [Option.some.injEq] at e1
    subst e1
    refine ⟨k, hk', e2, fun j hj => ?_⟩
    obtain ⟨r', e3, e4⟩ := entry j hj
    refine ⟨r', e4, ?_⟩
    have := hmin _ (List.mem_of_getElem? e3)
    rw [tupleLe_iff] at this
    exact this

/-- C22: a sky map without tracts raises `IndexError`, and otherwise an exception is one that an access
to some tract raises. -/
theorem C22_errors (ops : SkyOps Sky K) (c : Sky) (e : PyErr) (h : findTract ops M c s = (.error e, s')) :
    (M.len = 0 ∧ e = .IndexError) ∨ ∃ i : Nat, i < M.len ∧ ∃ s₁, M.After s s₁ ∧ M.getItem i s₁ = (.error e, s') := by
  unfold findTract at h
  rcases hl : forTracts M (fun i t => pure (ops.separation c t.info.ctrCoord, i, t)) s with ⟨x, s₁⟩
  cases x with
  | error e' =>
    rw [PyS.bind_err hl] at h
    simp only [Prod.mk.injEq, Except.error.injEq] at h
    obtain ⟨rfl, rfl⟩ := h
    obtain ⟨i, hi, s₂, g1, g2⟩ := loop_err (M := M) (fun i t => pure (ops.separation c t.info.ctrCoord, i, t))
      (fun _ _ _ => ⟨_, rfl⟩) _ _ _ _ hl
    exact Or.inr ⟨i, List.mem_range.1 hi, s₂, g1, g2⟩
  | ok l =>
    rw [PyS.bind_ok hl] at h
    cases hh : (pySort tupleLe l).head? with
    | some x => rw [hh] at h; simp [PyS.pure_apply] at h
    | none =>
      rw [hh] at h
      simp only [PyS.lift, Prod.mk.injEq, Except.error.injEq] at h
      obtain ⟨-, h3⟩ := loop_spec (M := M) (fun i t => pure (ops.separation c t.info.ctrCoord, i, t))
        (fun i t _ => .ok (ops.separation c t.info.ctrCoord, i, t)) (fun _ _ _ => rfl) _ _ _ _ hl
      obtain ⟨h4, -⟩ := forall₂_range h3
      rw [sort_head_none hh] at h4
      exact Or.inl ⟨h4.symm, h.1.symm⟩

/-- C22: `findTract` succeeds whenever there are tracts and all of them can be accessed; with no tracts it
raises `IndexError`. -/
theorem C22_total (ops : SkyOps Sky K) (c : Sky) :
    (M.len = 0 → findTract ops M c s = (.error .IndexError, s)) ∧
    (0 < M.len → (∀ i : Nat, i < M.len → ∀ s₁, M.After s s₁ → ∃ r s₂, M.getItem i s₁ = (.ok r, s₂)) →
      ∃ r s', findTract ops M c s = (.ok r, s')) := by
  constructor
  · intro h0
    have hl : forTracts M (fun i t => pure (ops.separation c t.info.ctrCoord, i, t)) s = (.ok [], s) := by
      unfold forTracts
      rw [h0]
      rfl
    unfold findTract
    rw [PyS.bind_ok hl]
    rfl
  · intro h0 hg
    rcases hx : findTract ops M c s with ⟨x, s'⟩
    cases x with
    | ok r => exact ⟨r, s', rfl⟩
    | error e =>
      exfalso
      rcases C22_errors ops c e hx with ⟨h, -⟩ | ⟨i, hi, s₁, g1, g2⟩
      · omega
      · obtain ⟨r, s₂, g3⟩ := hg i hi s₁ g1
        rw [g3] at g2
        simp at g2

/-- The default `findTract` is a tract finder whose answers are final. -/
theorem findTract_finder (ops : SkyOps Sky K) (env : FloatEnv K) (hP : M.Permanent s) :
    M.TractFinder (findTract ops M) ∧ ∀ c, M.Settled (findTract ops M c) s := by
  refine ⟨⟨fun c => (C18_methods_only_access M env ops (fun _ _ => c) (fun _ => M.getItem 0)
      (fun c => SkyMapOps.OnlyAccesses.getItem _) c [] (.array []) (.array [])).2.1, ?_⟩, ?_⟩
  · intro c s r s' h
    unfold findTract at h
    obtain ⟨l, s₁, h1, h2⟩ := PyS.bind_inv h
    cases hh : (pySort tupleLe l).head? with
    | none => rw [hh] at h2; simp [PyS.lift] at h2
    | some x =>
      rw [hh] at h2
      simp only [PyS.pure_apply, Prod.mk.injEq, Except.ok.injEq] at h2
      obtain ⟨rfl, rfl⟩ := h2
      obtain ⟨hm, -⟩ := sort_head hh
      obtain ⟨-, h3⟩ := loop_spec (M := M) (fun i t => pure (ops.separation c t.info.ctrCoord, i, t))
        (fun i t _ => .ok (ops.separation c t.info.ctrCoord, i, t)) (fun _ _ _ => rfl) _ _ _ _ h1
      obtain ⟨h4, h5⟩ := forall₂_range h3
      obtain ⟨k, hk⟩ := List.getElem?_of_mem hm
      have hk' : k < M.len := by rw [← h4]; exact (List.getElem?_eq_some_iff.1 hk).1
      obtain ⟨y, hy, r, s₀, s₂, g1, g2, g3, g4⟩ := h5 k hk'
      rw [hk] at hy
      simp only [Option.some.injEq, Except.ok.injEq] at hy g4
      subst hy g4
      exact ⟨k, s₀, s₂, g1, g2, g3⟩
  · intro c s₁ ha r s₂ h s₃ h3
    unfold findTract at h ⊢
    obtain ⟨l, s₁', h1, h2⟩ := PyS.bind_inv h
    obtain ⟨-, h4⟩ := loop_spec (M := M) (fun i t => pure (ops.separation c t.info.ctrCoord, i, t))
        (fun i t _ => .ok (ops.separation c t.info.ctrCoord, i, t)) (fun _ _ _ => rfl) _ _ _ _ h1
    cases hh : (pySort tupleLe l).head? with
    | none => rw [hh] at h2; simp [PyS.lift] at h2
    | some x =>
      rw [hh] at h2
      simp only [PyS.pure_apply, Prod.mk.injEq, Except.ok.injEq] at h2
      obtain ⟨rfl, rfl⟩ := h2
      have hl : forTracts M (fun i t => pure (ops.separation c t.info.ctrCoord, i, t)) s₃ = (.ok l, s₃) := by
        apply loop_replay
        refine List.Forall₂.imp ?_ h4
        rintro i y ⟨r, t0, t1, g1, g2, g3, g4⟩
        simp only [Except.ok.injEq] at g4
        refine ⟨r, hP t0 (ha.trans g1) i r t1 g2 s₃ (g3.trans h3), ?_⟩
        dsimp only
        rw [PyS.pure_apply, g4]
      rw [PyS.bind_ok hl, hh]
      rfl

/-! ## C23 -/

/-- A loop over coordinates, each looked up with a method whose answers are final. -/
theorem map_settled {find : Sky → PyS σ (TractRef Sky K)} (hF : M.TractFinder find)
    {β : Type} (f : TractRef Sky K → β) (L : List Sky) :
    ∀ (s s' : σ) (l : List β), (∀ c, M.Settled (find c) s) →
    PyS.mapM (fun c => do let t ← find c; return f t) L s = (.ok l, s') →
    M.After s s' ∧ List.Forall₂ (fun c x => ∃ r, find c s' = (.ok r, s') ∧ x = f r) L l := by
  induction L with
  | nil =>
    intro s s' l _ h
    change (Except.ok [], s) = _ at h
    simp only [Prod.mk.injEq, Except.ok.injEq] at h
    obtain ⟨rfl, rfl⟩ := h
    exact ⟨SkyMapOps.After.refl _, .nil⟩
  | cons c L ih =>
    intro s s' l hS h
    rw [PyS.mapM_cons] at h
    obtain ⟨x, s₁, h1, h2⟩ := PyS.bind_inv h
    obtain ⟨r, s₁', h3, h4⟩ := PyS.bind_inv h1
    rw [PyS.pure_apply] at h4
    simp only [Prod.mk.injEq, Except.ok.injEq] at h4
    obtain ⟨rfl, rfl⟩ := h4
    obtain ⟨xs, s₂, h5, h6⟩ := PyS.bind_inv h2
    rw [PyS.pure_apply] at h6
    simp only [Prod.mk.injEq, Except.ok.injEq] at h6
    obtain ⟨rfl, rfl⟩ := h6
    have ha : M.After s s₁' := by
      have := hF.only c s
      rw [h3] at this
      exact this
    obtain ⟨i1, i2⟩ := ih _ _ _ (fun c' s₁ g => hS c' s₁ (ha.trans g)) h5
    exact ⟨ha.trans i1, .cons ⟨r, hS c s (SkyMapOps.After.refl _) r _ h3 _ i1, rfl⟩ i2⟩

/-- C23: `findTractIdArray` returns one id per (ra, dec) pair, in order: that of the tract which
`findTract` returns for the pair.  Numbers are treated as arrays of length one.  `find` is the sky map's
`findTract` method, the default one or an override. -/
theorem C23_elementwise {find : Sky → PyS σ (TractRef Sky K)} (hF : M.TractFinder find)
    (hS : ∀ c, M.Settled (find c) s) (mkSky : K → K → Sky) (ra dec : NpArg K) (ids : List Int)
    (h : findTractIdArray mkSky find ra dec s = (.ok ids, s')) :
    ids.length = min ra.atleast1d.length dec.atleast1d.length ∧
    ∀ (k : Nat) (x y : K), ra.atleast1d[k]? = some x → dec.atleast1d[k]? = some y →
      ∃ r, find (mkSky x y) s' = (.ok r, s') ∧ ids[k]? = some r.info.id := by
  obtain ⟨-, h2⟩ := map_settled hF (fun t => t.info.id) _ s s' ids hS h
  have hl := h2.length_eq
  rw [List.length_map, List.length_zip] at hl
  refine ⟨hl.symm, fun k x y hx hy => ?_⟩
  have hz : ((ra.atleast1d.zip dec.atleast1d).map fun p => mkSky p.1 p.2)[k]? = some (mkSky x y) := by
    rw [List.getElem?_map, List.getElem?_zip_eq_some (z := (x, y)) |>.2 ⟨hx, hy⟩]
    rfl
  obtain ⟨hk, hk'⟩ := List.getElem?_eq_some_iff.1 hz
  have hk2 : k < ids.length := by rw [← h2.length_eq]; exact hk
  obtain ⟨r, g1, g2⟩ := (List.forall₂_iff_get.1 h2).2 k hk hk2
  simp only [List.get_eq_getElem] at g1 g2
  rw [hk'] at g1
  exact ⟨r, g1, by rw [List.getElem?_eq_getElem hk2, g2]⟩

/-! ## C24 -/

/-- What `findTractPatchList` computes in general: per tract the patch list with the builder as it was
just after the access to this tract. -/
theorem findTractPatchList_general (env : FloatEnv K) (coordList : List Sky)
    {l : List (TractRef Sky K × List (PatchInfo (Wcs Sky K)))}
    (h : findTractPatchList env M coordList s = (.ok l, s')) :
    ∃ es : List (TractRef Sky K × List (PatchInfo (Wcs Sky K))), es.length = M.len ∧
      l = es.filter (fun e => !e.2.isEmpty) ∧ M.After s s' ∧
      ∀ k : Nat, k < M.len → ∃ r pl s₀ s₁, es[k]? = some (r, pl) ∧ M.After s s₀ ∧ M.getItem k s₀ = (.ok r, s₁) ∧
        M.After s₁ s' ∧ r.info.findPatchList env (M.builder s₁) coordList = .ok pl := by
  unfold findTractPatchList at h
  obtain ⟨es, s₁, h1, h2⟩ := PyS.bind_inv h
  rw [PyS.pure_apply] at h2
  simp only [Prod.mk.injEq, Except.ok.injEq] at h2
  obtain ⟨rfl, rfl⟩ := h2
  obtain ⟨ha, h3⟩ := loop_spec (M := M)
    (fun _ t => (do let pl ← BaseSkyMap.findPatchList env M t coordList; return (t, pl)))
    (fun _ t s => (t.info.findPatchList env (M.builder s) coordList).map fun pl => (t, pl))
    (by
      intro i t s
      have hf : BaseSkyMap.findPatchList env M t coordList s =
        (t.info.findPatchList env (M.builder s) coordList, s) := rfl
      cases hv : t.info.findPatchList env (M.builder s) coordList with
      | error e => rw [hv] at hf; rw [PyS.bind_err hf]; rfl
      | ok a => rw [hv] at hf; rw [PyS.bind_ok hf]; rfl) _ _ _ _ h1
  obtain ⟨h4, h5⟩ := forall₂_range h3
  refine ⟨es, h4, rfl, ha, fun k hk => ?_⟩
  obtain ⟨x, hx, r, s₀, s₂, g1, g2, g3, g4⟩ := h5 k hk
  cases hf : r.info.findPatchList env (M.builder s₂) coordList with
  | error e => rw [hf] at g4; simp [Except.map] at g4
  | ok pl =>
    rw [hf] at g4
    simp only [Except.map, Except.ok.injEq] at g4
    exact ⟨r, pl, s₀, s₂, by rw [hx, g4], g1, g2, g3, hf⟩

/-- C24: with a stable builder (uniform tracts, or Dodeca and Equat), `findTractPatchList` is exact: take
for every tract, in order, the pair of the tract and its `findPatchList`; the answer consists of the
pairs with a non-empty list. -/
theorem C24_exact (env : FloatEnv K) (coordList : List Sky) (hP : M.Permanent s) (hB : M.StableBuilder s)
    {l : List (TractRef Sky K × List (PatchInfo (Wcs Sky K)))}
    (h : findTractPatchList env M coordList s = (.ok l, s')) :
    ∃ es : List (TractRef Sky K × List (PatchInfo (Wcs Sky K))), es.length = M.len ∧
      (∀ k : Nat, k < M.len → ∃ r pl, es[k]? = some (r, pl) ∧ M.getItem k s' = (.ok r, s') ∧
        r.info.findPatchList env (M.builder s') coordList = .ok pl) ∧
      l = es.filter (fun e => !e.2.isEmpty) := by
  obtain ⟨es, h1, h2, ha, h3⟩ := findTractPatchList_general env coordList h
  refine ⟨es, h1, fun k hk => ?_, h2⟩
  obtain ⟨r, pl, s₀, s₁, g1, g2, g3, g4, g5⟩ := h3 k hk
  exact ⟨r, pl, g1, hP s₀ g2 k r s₁ g3 s' g4, by rw [hB s₀ g2 k r s₁ g3 s' g4]; exact g5⟩

/-- C24: on a caching sky map of which no tract has been accessed, the answer is exact even if tracts
differ in size: the list for tract k is what a newly built sky map with only tract k accessed gives. -/
theorem C24_exact_when_new (m : CachingDef Sky K) (b₀ : TractBuilder) (env : FloatEnv K) (coordList : List Sky)
    {l : List (TractRef Sky K × List (PatchInfo (Wcs Sky K)))} {s' : MapState Sky K}
    (h : findTractPatchList env (CachingSkyMap.skyMapOps m) coordList (CachingSkyMap.init m b₀) = (.ok l, s')) :
    ∃ es : List (TractRef Sky K × List (PatchInfo (Wcs Sky K))), es.length = m.numTracts ∧
      (∀ k : Nat, k < m.numTracts → ∃ r pl r₀ s₀, es[k]? = some (r, pl) ∧
        CachingSkyMap.getItem m k s' = (.ok r, s') ∧
        CachingSkyMap.getItem m k (CachingSkyMap.init m b₀) = (.ok r₀, s₀) ∧
        r₀.info = r.info ∧ r₀.info.findPatchList env s₀.builder coordList = .ok pl) ∧
      l = es.filter (fun e => !e.2.isEmpty) := by
  -- the k-th access of the loop is the first access to tract k
  have key : ∀ (L : List Nat) (s s' : MapState Sky K) (l : List (TractRef Sky K × List (PatchInfo (Wcs Sky K)))),
      (CachingSkyMap.skyMapOps m).After (CachingSkyMap.init m b₀) s →
      L.Nodup → (∀ k ∈ L, s.cache[k]? = some none) →
      PyS.mapM (fun i : Nat => (CachingSkyMap.skyMapOps m).getItem (i : Int) >>= fun t => (do
        let pl ← BaseSkyMap.findPatchList env (CachingSkyMap.skyMapOps m) t coordList; return (t, pl))) L s =
          (.ok l, s') →
      (CachingSkyMap.skyMapOps m).After s s' ∧ List.Forall₂ (fun (k : Nat) e => ∃ (t : TractInfo Sky K)
        (b : TractBuilder), CachingSkyMap.fresh m b₀ k = .ok (t, b) ∧ e.1.info = t ∧
        t.findPatchList env b coordList = .ok e.2 ∧ s'.cache[k]? = some (some e.1)) L l := by
    intro L
    induction L with
    | nil =>
      intro s s' l _ _ _ h
      change (Except.ok [], s) = _ at h
      simp only [Prod.mk.injEq, Except.ok.injEq] at h
      obtain ⟨rfl, rfl⟩ := h
      exact ⟨SkyMapOps.After.refl _, .nil⟩
    | cons k L ih =>
      intro s s' l hr hn hc h
      rw [PyS.mapM_cons] at h
      obtain ⟨x, s₁, h1, h2⟩ := PyS.bind_inv h
      obtain ⟨r, s₁', h3, h4⟩ := PyS.bind_inv h1
      obtain ⟨pl, s₁'', h3', h4'⟩ := PyS.bind_inv h4
      have h3'' : (PyS.lift (r.info.findPatchList env s₁'.builder coordList) : PyS (MapState Sky K) _) s₁' = _ := h3'
      simp only [PyS.lift, Prod.mk.injEq] at h3''
      obtain ⟨hpl, rfl⟩ := h3''
      rw [PyS.pure_apply] at h4'
      simp only [Prod.mk.injEq, Except.ok.injEq] at h4'
      obtain ⟨rfl, rfl⟩ := h4'
      obtain ⟨xs, s₂, h5, h6⟩ := PyS.bind_inv h2
      rw [PyS.pure_apply] at h6
      simp only [Prod.mk.injEq, Except.ok.injEq] at h6
      obtain ⟨rfl, rfl⟩ := h6
      have I := (CachingSkyMap.Inv.init m b₀).after hr
      have hck := hc k (by simp)
      have h3g : CachingSkyMap.getItem m k s = (.ok r, s₁') := h3
      rw [CachingSkyMap.getItem_gen I hck] at h3g
      cases hf : CachingSkyMap.fresh m b₀ k with
      | error e => rw [hf] at h3g; simp at h3g
      | ok p =>
        obtain ⟨t, b⟩ := p
        rw [hf] at h3g
        simp only [Prod.mk.injEq, Except.ok.injEq] at h3g
        obtain ⟨rfl, hs1⟩ := h3g
        have hst : (CachingSkyMap.skyMapOps m).After s s₁' := SkyMapOps.After.step' h3
        obtain ⟨i1, i2⟩ := ih s₁' _ _ (hr.trans hst) (List.nodup_cons.1 hn).2 (by
          intro j hj
          have hne : k ≠ j := by rintro rfl; exact (List.nodup_cons.1 hn).1 hj
          rw [← hs1]
          have := CachingSkyMap.stored_cache_ne s t b hne
          rw [this]
          exact hc j (by simp [hj])) h5
        refine ⟨hst.trans i1, .cons ⟨t, b, hf, rfl, ?_, ?_⟩ i2⟩
        · rw [← hs1] at hpl; exact hpl
        · have hlen : k < s.cache.length := (List.getElem?_eq_some_iff.1 hck).1
          refine CachingSkyMap.cache_stable (I.after hst) i1 ?_
          rw [← hs1]
          exact CachingSkyMap.stored_cache_self s t b hlen
  unfold findTractPatchList at h
  obtain ⟨es, s₁, h1, h2⟩ := PyS.bind_inv h
  rw [PyS.pure_apply] at h2
  simp only [Prod.mk.injEq, Except.ok.injEq] at h2
  obtain ⟨rfl, rfl⟩ := h2
  obtain ⟨ha, h3⟩ := key (List.range m.numTracts) _ _ _ (SkyMapOps.After.refl _) List.nodup_range (by
    intro k hk
    rw [List.mem_range] at hk
    simp [CachingSkyMap.init, hk]) h1
  obtain ⟨h4, h5⟩ := forall₂_range h3
  refine ⟨es, h4, fun k hk => ?_, rfl⟩
  obtain ⟨⟨r, pl⟩, hx, t, b, g1, g2, g3, g4⟩ := h5 k hk
  dsimp only at g2 g3 g4
  subst g2
  refine ⟨r, pl, ⟨0, r.info⟩, CachingSkyMap.stored (CachingSkyMap.init m b₀) k r.info b, hx,
    CachingSkyMap.getItem_cached ((CachingSkyMap.Inv.init m b₀).after ha) g4, ?_, rfl, g3⟩
  rw [CachingSkyMap.getItem_gen (CachingSkyMap.Inv.init m b₀) (by simp [CachingSkyMap.init, hk]), g1]
  rfl

/-! ## C25 -/

theorem patchListEq_refl {W : Type} (l : List (PatchInfo W)) : patchListEq l l = true := by
  induction l with
  | nil => rfl
  | cons a l ih => simp [patchListEq, ih, (C17_patch_eq a a a).1]

theorem nodup_eraseDups' (l : List Nat) : l.eraseDups.Nodup := by
  induction hn : l.length using Nat.strong_induction_on generalizing l with
  | _ n ih =>
    cases l with
    | nil => simp
    | cons a l =>
      rw [List.eraseDups_cons, List.nodup_cons]
      have hlen : (l.filter fun b => !b == a).length < n := by
        have := List.length_filter_le (fun b => !b == a) l
        simp only [List.length_cons] at hn
        omega
      refine ⟨?_, ih _ hlen _ rfl⟩
      rw [List.mem_eraseDups]
      simp

/-- One step of `findClosestTractPatchList`: a pair is appended unless it is there already. -/
def addOnce (ret : List (TractRef Sky K × List (PatchInfo (Wcs Sky K))))
    (e : TractRef Sky K × List (PatchInfo (Wcs Sky K))) : List (TractRef Sky K × List (PatchInfo (Wcs Sky K))) :=
  if !e.2.isEmpty && !inRetList e ret then ret ++ [e] else ret

/-- Appending unseen pairs, when pairs of the same tract are equal, removes duplicates. -/
theorem foldl_addOnce (es : List (TractRef Sky K × List (PatchInfo (Wcs Sky K)))) :
    ∀ ret : List (TractRef Sky K × List (PatchInfo (Wcs Sky K))),
    (∀ e ∈ ret ++ es, ∀ e' ∈ ret ++ es, e.1.oid = e'.1.oid → e = e') →
    (es.foldl addOnce ret).map (·.1.oid) = ret.map (·.1.oid) ++
        (((es.filter fun e => !e.2.isEmpty).map (·.1.oid)).filter
          fun o => !(ret.map (·.1.oid)).contains o).eraseDups ∧
    ∀ e, e ∈ es.foldl addOnce ret ↔ e ∈ ret ∨ (e ∈ es ∧ e.2 ≠ []) := by
  induction es with
  | nil => intro ret _; simp
  | cons e es ih =>
    intro ret huniq
    rw [List.foldl_cons]
    have hin : inRetList e ret = (ret.map (·.1.oid)).contains e.1.oid := by
      rw [Bool.eq_iff_iff]
      unfold inRetList
      rw [List.any_eq_true, List.contains_iff_mem, List.mem_map]
      constructor
      · rintro ⟨x, hx, hh⟩
        simp only [Bool.and_eq_true, decide_eq_true_eq] at hh
        exact ⟨x, hx, hh.1⟩
      · rintro ⟨x, hx, hh⟩
        refine ⟨x, hx, ?_⟩
        have := huniq x (by simp [hx]) e (by simp) hh
        subst this
        simp [patchListEq_refl]
    by_cases hemp : e.2.isEmpty
    · have e1 : addOnce ret e = ret := by simp [addOnce, hemp]
      rw [e1]
      obtain ⟨i1, i2⟩ := ih ret (fun a ha b hb => huniq a (by
        rw [List.mem_append] at ha ⊢; simp only [List.mem_cons]; tauto) b (by
        rw [List.mem_append] at hb ⊢; simp only [List.mem_cons]; tauto))
      refine ⟨by rw [i1]; simp [hemp], fun x => ?_⟩
      rw [i2]
      have : e.2 = [] := by simpa using hemp
      constructor
      · rintro (h | ⟨h, h'⟩)
        · exact Or.inl h
        · exact Or.inr ⟨by simp [h], h'⟩
      · rintro (h | ⟨h, h'⟩)
        · exact Or.inl h
        · rcases List.mem_cons.1 h with rfl | h
          · exact absurd this h'
          · exact Or.inr ⟨h, h'⟩
    · have hemp' : e.2 ≠ [] := by simpa using hemp
      have hemp2 : e.2.isEmpty = false := by simpa using hemp
      cases hc : (ret.map (·.1.oid)).contains e.1.oid with
      | true =>
        have e1 : addOnce ret e = ret := by simp only [addOnce, hin, hc]; simp
        rw [e1]
        obtain ⟨i1, i2⟩ := ih ret (fun a ha b hb => huniq a (by
          rw [List.mem_append] at ha ⊢; simp only [List.mem_cons]; tauto) b (by
          rw [List.mem_append] at hb ⊢; simp only [List.mem_cons]; tauto))
        have hmem : e ∈ ret := by
          rw [List.contains_iff_mem, List.mem_map] at hc
          obtain ⟨x, hx, hh⟩ := hc
          have := huniq x (by simp [hx]) e (by simp) hh
          exact this ▸ hx
        refine ⟨?_, fun x => ?_⟩
        · rw [i1, List.filter_cons_of_pos (by simp [hemp2]), List.map_cons, List.filter_cons_of_neg (by simp only [hc]; simp)]
        · rw [i2]
          constructor
          · rintro (h | ⟨h, h'⟩)
            · exact Or.inl h
            · exact Or.inr ⟨by simp [h], h'⟩
          · rintro (h | ⟨h, h'⟩)
            · exact Or.inl h
            · rcases List.mem_cons.1 h with rfl | h
              · exact Or.inl hmem
              · exact Or.inr ⟨h, h'⟩
      | false =>
        have e1 : addOnce ret e = ret ++ [e] := by simp only [addOnce, hin, hc, hemp2]; simp
        rw [e1]
        obtain ⟨i1, i2⟩ := ih (ret ++ [e]) (fun a ha b hb => huniq a (by
          simp only [List.mem_append, List.mem_cons, List.not_mem_nil, or_false] at ha ⊢; tauto) b (by
          simp only [List.mem_append, List.mem_cons, List.not_mem_nil, or_false] at hb ⊢; tauto))
        refine ⟨?_, fun x => ?_⟩
        · rw [i1, List.filter_cons_of_pos (by simp [hemp2]), List.map_cons, List.filter_cons_of_pos (by simp only [hc]; simp),
            List.eraseDups_cons, List.map_append, List.append_assoc]
          congr 1
          simp only [List.map_cons, List.map_nil, List.cons_append, List.nil_append]
          congr 1
          rw [List.filter_filter]
          congr 1
          apply List.filter_congr
          intro o _
          simp only [List.contains_append, List.contains_cons, List.contains_nil, Bool.or_false, Bool.not_or]
          rw [Bool.and_comm]
        · rw [i2]
          simp only [List.mem_append, List.mem_cons, List.not_mem_nil, or_false]
          constructor
          · rintro ((h | rfl) | ⟨h, h'⟩)
            · exact Or.inl h
            · exact Or.inr ⟨Or.inl rfl, hemp'⟩
            · exact Or.inr ⟨Or.inr h, h'⟩
          · rintro (h | ⟨rfl | h, h'⟩)
            · exact Or.inl (Or.inl h)
            · exact Or.inl (Or.inr rfl)
            · exact Or.inr ⟨h, h'⟩

/-- The loop of `findClosestTractPatchList` with final answers. -/
theorem closest_loop {find : Sky → PyS σ (TractRef Sky K)} (env : FloatEnv K) (coordList : List Sky)
    (hF : M.TractFinder find) (L : List Sky) :
    ∀ (s s' : σ) (ret l : List (TractRef Sky K × List (PatchInfo (Wcs Sky K)))),
    (∀ c, M.Settled (find c) s) → M.StableBuilder s →
    PyS.foldM (fun retList c => do
      let t ← find c
      let pl ← BaseSkyMap.findPatchList env M t coordList
      return if !pl.isEmpty && !inRetList (t, pl) retList then retList ++ [(t, pl)] else retList) L ret s =
        (.ok l, s') →
    M.After s s' ∧ ∃ es, List.Forall₂ (fun c e => find c s' = (.ok e.1, s') ∧
      e.1.info.findPatchList env (M.builder s') coordList = .ok e.2) L es ∧ l = es.foldl addOnce ret := by
  induction L with
  | nil =>
    intro s s' ret l _ _ h
    change (Except.ok ret, s) = _ at h
    simp only [Prod.mk.injEq, Except.ok.injEq] at h
    obtain ⟨rfl, rfl⟩ := h
    exact ⟨SkyMapOps.After.refl _, [], .nil, rfl⟩
  | cons c L ih =>
    intro s s' ret l hS hB h
    rw [PyS.foldM_cons] at h
    obtain ⟨x, s₁, h1, h2⟩ := PyS.bind_inv h
    obtain ⟨r, s₁', h3, h4⟩ := PyS.bind_inv h1
    obtain ⟨pl, s₁'', h3', h4'⟩ := PyS.bind_inv h4
    have h3'' : (PyS.lift (r.info.findPatchList env (M.builder s₁') coordList) : PyS σ _) s₁' = _ := h3'
    simp only [PyS.lift, Prod.mk.injEq] at h3''
    obtain ⟨hpl, rfl⟩ := h3''
    rw [PyS.pure_apply] at h4'
    simp only [Prod.mk.injEq, Except.ok.injEq] at h4'
    obtain ⟨rfl, rfl⟩ := h4'
    have ha : M.After s s₁' := by
      have := hF.only c s
      rw [h3] at this
      exact this
    obtain ⟨i1, es, i2, i3⟩ := ih _ _ _ _ (fun c' s₁ g => hS c' s₁ (ha.trans g))
      (fun s₁ g => hB s₁ (ha.trans g)) h2
    refine ⟨ha.trans i1, (r, pl) :: es, .cons ⟨hS c s (SkyMapOps.After.refl _) r _ h3 _ i1, ?_⟩ i2, ?_⟩
    · obtain ⟨i, t1, t2, g1, g2, g3⟩ := hF.accessed c s r s₁' h3
      dsimp only
      rw [hB t1 g1 i r t2 g2 s' (g3.trans i1), ← hB t1 g1 i r t2 g2 s₁' g3]
      exact hpl
    · rw [i3]
      rfl

/-- C25: with a stable builder, `findClosestTractPatchList` is exact.  Take for every coordinate, in
order, the pair of its `findTract` and that tract's `findPatchList`.  The answer has no tract twice, its
tracts are those of the pairs with a non-empty list, in the order in which they occur first, and its
pairs are exactly those pairs. -/
theorem C25_exact {find : Sky → PyS σ (TractRef Sky K)} (env : FloatEnv K) (coordList : List Sky)
    (hF : M.TractFinder find) (hS : ∀ c, M.Settled (find c) s) (hB : M.StableBuilder s)
    (hobj : ∀ i j r r' s₁, M.After s s₁ → M.getItem i s₁ = (.ok r, s₁) → M.getItem j s₁ = (.ok r', s₁) →
      r.oid = r'.oid → r = r')
    (hP : M.Permanent s)
    (l : List (TractRef Sky K × List (PatchInfo (Wcs Sky K))))
    (h : findClosestTractPatchList env M find coordList s = (.ok l, s')) :
    ∃ es : List (TractRef Sky K × List (PatchInfo (Wcs Sky K))), es.length = coordList.length ∧
      (∀ (k : Nat) (c : Sky), coordList[k]? = some c → ∃ r pl, es[k]? = some (r, pl) ∧
        find c s' = (.ok r, s') ∧ r.info.findPatchList env (M.builder s') coordList = .ok pl) ∧
      (l.map (·.1.oid)).Nodup ∧
      l.map (·.1.oid) = ((es.filter fun e => !e.2.isEmpty).map (·.1.oid)).eraseDups ∧
      ∀ e, e ∈ l ↔ e ∈ es ∧ e.2 ≠ [] := by
  obtain ⟨ha, es, h1, h2⟩ := closest_loop env coordList hF coordList s s' [] l hS hB h
  have hobj' : ∀ e ∈ es, ∀ e' ∈ es, e.1.oid = e'.1.oid → e = e' := by
    have acc : ∀ e ∈ es, (∃ i, M.getItem i s' = (.ok e.1, s')) ∧
        e.1.info.findPatchList env (M.builder s') coordList = .ok e.2 := by
      intro e he
      obtain ⟨k, hk⟩ := List.getElem?_of_mem he
      obtain ⟨hk1, hk2⟩ := List.getElem?_eq_some_iff.1 hk
      have hk3 : k < coordList.length := by rw [h1.length_eq]; exact hk1
      obtain ⟨g1, g2⟩ := (List.forall₂_iff_get.1 h1).2 k hk3 hk1
      simp only [List.get_eq_getElem, hk2] at g1 g2
      obtain ⟨i, t1, t2, q1, q2, q3⟩ := hF.accessed _ s' e.1 s' g1
      exact ⟨⟨i, hP t1 (ha.trans q1) i e.1 t2 q2 s' q3⟩, g2⟩
    intro e he e' he' ho
    obtain ⟨⟨i, a1⟩, a2⟩ := acc e he
    obtain ⟨⟨j, b1⟩, b2⟩ := acc e' he'
    have hr := hobj i j e.1 e'.1 s' ha a1 b1 ho
    obtain ⟨r, pl⟩ := e
    obtain ⟨r', pl'⟩ := e'
    dsimp only at hr a2 b2
    subst hr
    rw [a2] at b2
    simp only [Except.ok.injEq] at b2
    rw [b2]
  obtain ⟨f1, f2⟩ := foldl_addOnce es [] (by simpa using hobj')
  simp only [List.map_nil, List.contains_nil, Bool.not_false, List.filter_true, List.nil_append] at f1
  rw [← h2] at f1 f2
  refine ⟨es, h1.length_eq.symm, ?_, ?_, f1, fun e => by rw [f2]; simp⟩
  · intro k c hc
    obtain ⟨hk, hk'⟩ := List.getElem?_eq_some_iff.1 hc
    have hk2 : k < es.length := by rw [← h1.length_eq]; exact hk
    obtain ⟨g1, g2⟩ := (List.forall₂_iff_get.1 h1).2 k hk hk2
    simp only [List.get_eq_getElem] at g1 g2
    rw [hk'] at g1
    exact ⟨_, _, List.getElem?_eq_getElem hk2, g1, g2⟩
  · rw [f1]
    exact nodup_eraseDups' _

/-- The hypothesis on object identity holds for caching sky maps after any history ... -/
theorem Search_objects_caching (m : CachingDef Sky K) (b₀ : TractBuilder) (s : MapState Sky K)
    (h : (CachingSkyMap.skyMapOps m).After (CachingSkyMap.init m b₀) s) :
    ∀ i j r r' s₁, (CachingSkyMap.skyMapOps m).After s s₁ → (CachingSkyMap.skyMapOps m).getItem i s₁ = (.ok r, s₁) →
      (CachingSkyMap.skyMapOps m).getItem j s₁ = (.ok r', s₁) → r.oid = r'.oid → r = r' := by
  intro i j r r' s₁ ha h1 h2 ho
  have := (C18_generated_once (h.trans ha)).2.2 i j r r' h1 h2 ho
  subst this
  rw [h1] at h2
  simpa using h2

/-- ... and for sky maps that build all tracts at once. -/
theorem Search_objects_eager {env : FloatEnv K} {ops : SkyOps Sky K} {l : List (TractArgs Sky K)} {n : Nat}
    {ts : List (TractRef Sky K)} {b₀ b : TractBuilder} (h : EagerSkyMap.buildAll env ops l n b₀ = .ok (ts, b)) :
    ts.map TractRef.oid = List.range' n l.length ∧
    ∀ i j r r' s₁, (EagerSkyMap.skyMapOps ts).getItem i s₁ = (.ok r, s₁) →
      (EagerSkyMap.skyMapOps ts).getItem j s₁ = (.ok r', s₁) → r.oid = r'.oid → r = r' := by
  have h1 : ts.map TractRef.oid = List.range' n l.length := by
    induction l generalizing n b₀ ts with
    | nil =>
      simp only [EagerSkyMap.buildAll, Except.ok.injEq, Prod.mk.injEq] at h
      obtain ⟨rfl, rfl⟩ := h
      rfl
    | cons a l ih =>
      unfold EagerSkyMap.buildAll at h
      cases h1 : TractInfo.new env ops b₀ a with
      | error e => rw [h1] at h; simp [bind, Except.bind] at h
      | ok p =>
        obtain ⟨t, b'⟩ := p
        rw [h1] at h
        simp only [bind, Except.bind] at h
        cases h2 : EagerSkyMap.buildAll env ops l (n + 1) b' with
        | error e => rw [h2] at h; simp at h
        | ok p =>
          obtain ⟨ts', b''⟩ := p
          rw [h2] at h
          simp only [pure, Except.pure, Except.ok.injEq, Prod.mk.injEq] at h
          obtain ⟨rfl, rfl⟩ := h
          rw [List.map_cons, ih h2, List.length_cons, List.range'_succ]
  refine ⟨h1, fun i j r r' s₁ hi hj ho => ?_⟩
  have mem : ∀ i r, (EagerSkyMap.skyMapOps ts).getItem i s₁ = (.ok r, s₁) → ∃ k : Nat, ts[k]? = some r := by
    intro i r hi
    have : (PyS.lift (pyGetItem ts i) : PyS TractBuilder _) s₁ = (.ok r, s₁) := hi
    simp only [PyS.lift, Prod.mk.injEq, and_true] at this
    unfold pyGetItem at this
    dsimp only at this
    generalize (if i < 0 then i + (ts.length : Int) else i) = q at this
    split at this
    · simp at this
    · cases hq : ts[q.toNat]? with
      | none => rw [hq] at this; simp at this
      | some a =>
        rw [hq] at this
        simp only [Except.ok.injEq] at this
        exact ⟨q.toNat, by rw [hq, this]⟩
  obtain ⟨k, hk⟩ := mem i r hi
  obtain ⟨k', hk'⟩ := mem j r' hj
  have nd : (ts.map TractRef.oid).Nodup := by rw [h1]; exact List.nodup_range'
  have e1 : (ts.map TractRef.oid)[k]? = some r.oid := by rw [List.getElem?_map, hk]; rfl
  have e2 : (ts.map TractRef.oid)[k']? = some r.oid := by rw [List.getElem?_map, hk', ho]; rfl
  have hkl : k < (ts.map TractRef.oid).length := (List.getElem?_eq_some_iff.1 e1).1
  have : k = k' := List.getElem?_inj hkl nd |>.1 (e1.trans e2.symm)
  subst this
  rw [hk] at hk'
  simpa using hk'

/-! ## Examples and a counterexample -/

/-- `findTract` on a map with three tracts of which 0 and 2 have the same centre: the lowest index wins
the tie; and nearest otherwise. -/
example : ([⟨20, 30⟩, ⟨28, 30⟩, ⟨24, 31⟩].map fun c : P2 ℚ =>
    (findTract Ex.ops (CachingSkyMap.skyMapOps Ex.equalMap) c (Ex.start Ex.equalMap)).1.map fun r => r.info.id) =
    [.ok 0, .ok 1, .ok 0] := by
  decide +kernel

/-- What a user sees of `findTractPatchList`: ids and patch indices. -/
def Ex.seen (x : PyM (List (TractRef (P2 ℚ) ℚ × List (PatchInfo (Wcs (P2 ℚ) ℚ))))) :
    PyM (List (Int × List Index2D)) :=
  x.map fun l => l.map fun e => (e.1.info.id, e.2.map fun p => p.index)

/-- C24 depends on its hypothesis: on a `DiscreteSkyMap` with a large and a small tract the first call
succeeds and the identical second call raises `IndexError`, because the small tract was built last. -/
theorem C24_second_call_fails :
    let f := findTractPatchList Ex.env (CachingSkyMap.skyMapOps Ex.largeFirstMap) [⟨44, 30⟩]
    Ex.seen (f (Ex.start Ex.largeFirstMap)).1 = .ok [(0, [⟨4, 3⟩, ⟨4, 4⟩, ⟨5, 3⟩, ⟨5, 4⟩])] ∧
    Ex.seen (f (f (Ex.start Ex.largeFirstMap)).2).1 = .error .IndexError := by
  decide +kernel

/-- All three searches succeed on the uniform map with three tracts; the two tracts with the same centre
are both found by `findTractPatchList`, and only the first by `findClosestTractPatchList`. -/
example :
    Ex.seen (findTractPatchList Ex.env (CachingSkyMap.skyMapOps Ex.equalMap) [⟨20, 30⟩, ⟨21, 31⟩]
      (Ex.start Ex.equalMap)).1 =
      .ok [(0, [⟨0, 1⟩, ⟨0, 2⟩, ⟨1, 1⟩, ⟨1, 2⟩, ⟨2, 1⟩, ⟨2, 2⟩]), (2, [⟨0, 1⟩, ⟨0, 2⟩, ⟨1, 1⟩, ⟨1, 2⟩, ⟨2, 1⟩, ⟨2, 2⟩])] ∧
    Ex.seen (findClosestTractPatchList Ex.env (CachingSkyMap.skyMapOps Ex.equalMap)
      (findTract Ex.ops (CachingSkyMap.skyMapOps Ex.equalMap)) [⟨20, 30⟩, ⟨21, 31⟩] (Ex.start Ex.equalMap)).1 =
      .ok [(0, [⟨0, 1⟩, ⟨0, 2⟩, ⟨1, 1⟩, ⟨1, 2⟩, ⟨2, 1⟩, ⟨2, 2⟩])] ∧
    (findTractIdArray (fun x y => ⟨x, y⟩) (findTract Ex.ops (CachingSkyMap.skyMapOps Ex.equalMap))
      (.array [20, 29]) (.array [30, 30]) (Ex.start Ex.equalMap)).1 = .ok [0, 1] := by
  decide +kernel

/-- The hypotheses of C24 and C25 are met by this map, after any history. -/
example (s : MapState (P2 ℚ) ℚ)
    (h : (CachingSkyMap.skyMapOps Ex.equalMap).After (CachingSkyMap.init Ex.equalMap Ex.legacy) s) :
    (CachingSkyMap.skyMapOps Ex.equalMap).Permanent s ∧ (CachingSkyMap.skyMapOps Ex.equalMap).StableBuilder s ∧
    (CachingSkyMap.skyMapOps Ex.equalMap).TractFinder (findTract Ex.ops (CachingSkyMap.skyMapOps Ex.equalMap)) ∧
    ∀ c, (CachingSkyMap.skyMapOps Ex.equalMap).Settled (findTract Ex.ops (CachingSkyMap.skyMapOps Ex.equalMap) c) s :=
  ⟨permanent_of_reachable h, Search_stable_uniform _ _ _ (by decide) (by decide) Ex.equal_uniform h,
    findTract_finder _ Ex.env (permanent_of_reachable h)⟩

end Skymap
