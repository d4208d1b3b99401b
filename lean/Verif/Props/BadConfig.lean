import Verif.Model.AllMaps
import Verif.Props.Defaults
import Verif.Props.Healpix
import Verif.Props.AllMaps

/-!
# C88: configurations that cannot work

Which wrong configurations are refused by the constructor, which give a sky map that fails at every use, and what a sky map without
tracts does.
-/

namespace Skymap
open BaseSkyMap

/-! ## Specification -/

/-- A configured patch has no pixels: no length is negative and one of them is zero. -/
def SkyMapConfig.NoPixels (c : SkyMapConfig Dbl) : Prop :=
  match c.builderName with
  | .legacy => ∃ x y, c.legacy.patchInnerDimensions = [x, y] ∧ 0 ≤ x ∧ 0 ≤ y ∧ (x = 0 ∨ y = 0)
  | .cells => ∃ x y, c.cells.cellInnerDimensions = [x, y] ∧ 0 ≤ x ∧ 0 ≤ y ∧ 0 ≤ c.cells.numCellsPerPatchInner ∧
      (x = 0 ∨ y = 0 ∨ c.cells.numCellsPerPatchInner = 0)

/-- The configured patch (or cell) dimensions of the selected tract builder. -/
def SkyMapConfig.dimensions (c : SkyMapConfig Dbl) : List Int :=
  match c.builderName with
  | .legacy => c.legacy.patchInnerDimensions
  | .cells => c.cells.cellInnerDimensions

/-! ## Refused by every constructor -/

section
variable {Sky K : Type} [Field K] [LinearOrder K] [FloorRing K]

/-- C88: a projection code that is not three characters long, or more than two dimensions, are refused by the constructor of every class. -/
theorem C88_refused (impl : ClassImpl Sky K) (cls : MapClass) (config : SkyMapConfig Dbl) (version : Version)
    (h : config.projection.length ≠ 3 ∨ 2 < config.dimensions.length) : ∃ e, SkyMapObj.new impl cls config version = .error e := by
  unfold SkyMapObj.new
  obtain ⟨e, c, he⟩ : ∃ e c, BaseSkyMap.init config = (.error e, c) := by
    unfold BaseSkyMap.init wcsFactoryCheck
    by_cases hp : config.projection.length ≠ 3
    · simp [hp]
    · simp only [hp, if_false]
      have hd := h.resolve_left hp
      unfold SkyMapConfig.dimensions at hd
      unfold SkyMapConfig.makeBuilder LegacyTractBuilder.new CellTractBuilder.new
      cases hb : config.builderName <;> simp only [hb] at hd ⊢
      · split
        · rename_i h; simp [h] at hd
        · exact ⟨_, _, rfl⟩
      · split
        · rename_i h; simp [h] at hd
        · exact ⟨_, _, rfl⟩
  exact ⟨e, by simp [he]⟩

/-! ## Patches without pixels -/

theorem init_noPixels {config c : SkyMapConfig Dbl} {b : TractBuilder} (h : config.NoPixels) (hi : BaseSkyMap.init config = (.ok b, c)) :
    b.patchInnerDimensions.x = 0 ∨ (0 < b.patchInnerDimensions.x ∧ b.patchInnerDimensions.y = 0) := by
  unfold BaseSkyMap.init at hi
  simp only at hi
  split at hi
  · simp at hi
  · simp only [Prod.mk.injEq, SkyMapConfig.makeBuilder] at hi
    replace hi := hi.1
    unfold SkyMapConfig.NoPixels at h
    cases hb : config.builderName <;> simp only [hb] at h hi
    · obtain ⟨x, y, h1, h2, h3, h4⟩ := h
      simp only [LegacyTractBuilder.new, h1, Except.ok.injEq] at hi
      subst hi
      simp only
      omega
    · obtain ⟨x, y, h1, h2, h3, h4, h5⟩ := h
      simp only [CellTractBuilder.new, h1, Except.ok.injEq] at hi
      subst hi
      simp only
      rcases h5 with h5 | h5 | h5
      · simp [h5]
      · rcases (mul_nonneg h2 h4).eq_or_lt with h6 | h6
        · exact .inl h6.symm
        · exact .inr ⟨h6, by simp [h5]⟩
      · simp [h5]

theorem new_noPixels (env : FloatEnv K) (ops : SkyOps Sky K) {b : TractBuilder} (a : TractArgs Sky K)
    (h : b.patchInnerDimensions.x = 0 ∨ (0 < b.patchInnerDimensions.x ∧ b.patchInnerDimensions.y = 0)) : ∃ e, TractInfo.new env ops b a = .error e := by
  unfold TractInfo.new
  cases minimumBoundingBox env ops a with
  | error e => exact ⟨e, rfl⟩
  | ok m => exact ⟨.ZeroDivisionError, by simp only [bind, Except.bind, C01_zero_dimension b _ h]⟩

theorem pyGetItem_in {α : Type} {l : List α} {i : ℤ} {x : α} (h : pyGetItem l i = .ok x) : x ∈ l := by
  unfold pyGetItem at h
  by_cases h0 : i < 0 <;> simp only [h0, if_true, if_false] at h
  · split at h
    · simp at h
    · split at h
      · rename_i a ha
        obtain rfl := Except.ok.inj h
        exact List.mem_of_getElem? ha
      · simp at h
  · split at h
    · rename_i a ha
      obtain rfl := Except.ok.inj h
      exact List.mem_of_getElem? ha
    · simp at h

/-- A sky map all of whose accesses raise an exception and change nothing. -/
def Dead {σ : Type} (M : SkyMapOps σ Sky K) (s : σ) : Prop := ∀ i, ∃ e, M.getItem i s = (.error e, s)

theorem init_dead (m : CachingDef Sky K) {b : TractBuilder}
    (h : b.patchInnerDimensions.x = 0 ∨ (0 < b.patchInnerDimensions.x ∧ b.patchInnerDimensions.y = 0)) :
    Dead (CachingSkyMap.skyMapOps m) (CachingSkyMap.init m b) := by
  intro i
  simp only [CachingSkyMap.skyMapOps, CachingSkyMap.getItem]
  split
  · exact ⟨_, rfl⟩
  · cases hc : pyGetItem (CachingSkyMap.init m b).cache i with
    | error e => exact ⟨e, rfl⟩
    | ok x =>
      have hx : x = none := List.eq_of_mem_replicate (pyGetItem_in hc)
      subst hx
      simp only [CachingSkyMap.generateTract]
      cases m.tractArgs i with
      | error e => exact ⟨e, rfl⟩
      | ok a =>
        obtain ⟨e, he⟩ := new_noPixels m.env m.ops a h
        refine ⟨e, ?_⟩
        simp only [show (CachingSkyMap.init m b).builder = b from rfl, he]

namespace Dead
variable {σ : Type} {M : SkyMapOps σ Sky K} {s : σ}

omit [Field K] [LinearOrder K] [FloorRing K] in
theorem forTracts (h : Dead M s) (hn : 0 < M.len) {β : Type} (body : Nat → TractRef Sky K → PyS σ β) :
    ∃ e, BaseSkyMap.forTracts M body s = (.error e, s) := by
  obtain ⟨n, hn⟩ : ∃ n, M.len = n + 1 := ⟨M.len - 1, by omega⟩
  unfold BaseSkyMap.forTracts
  obtain ⟨e, he⟩ := h ((0 : ℕ) : ℤ)
  refine ⟨e, ?_⟩
  rw [hn, List.range_succ_eq_map, PyS.mapM_cons]
  exact PyS.bind_err (PyS.bind_err he)

end Dead

/-- C88: a sky map whose every access raises: so do the searches and the registration, and nothing is changed, not even in the butler. -/
theorem C88_dead {σ : Type} {M : SkyMapOps σ Sky K} {s : σ} (h : Dead M s) (hn : 0 < M.len) :
    (∃ e, iter M s = (.error e, s)) ∧
    (∀ ops c, ∃ e, findTract ops M c s = (.error e, s)) ∧
    (∀ env l, ∃ e, findTractPatchList env M l s = (.error e, s)) ∧
    (∀ ops env c l, ∃ e, findClosestTractPatchList env M (findTract ops M) (c :: l) s = (.error e, s)) ∧
    ∀ H fault name hashed reg calls, ∃ e,
      register H fault M name ⟨s, hashed, reg, calls⟩ = (.error e, ⟨s, hashed, reg, calls⟩) := by
  have hfind : ∀ ops c, ∃ e, findTract ops M c s = (.error e, s) := by
    intro ops c
    obtain ⟨e, he⟩ := h.forTracts hn (fun i t => pure (ops.separation c t.info.ctrCoord, i, t))
    exact ⟨e, PyS.bind_err he⟩
  refine ⟨h.forTracts hn _, hfind, ?_, ?_, ?_⟩
  · intro env l
    obtain ⟨e, he⟩ := h.forTracts hn (fun _ t => do
      let pl ← findPatchList env M t l
      return (t, pl))
    exact ⟨e, PyS.bind_err he⟩
  · intro ops env c l
    obtain ⟨e, he⟩ := hfind ops c
    refine ⟨e, ?_⟩
    unfold findClosestTractPatchList
    rw [PyS.foldM_cons]
    exact PyS.bind_err (PyS.bind_err he)
  · intro H fault name hashed reg calls
    obtain ⟨e, he⟩ := h.forTracts hn (fun _ t => pure t.info.numPatches)
    refine ⟨e, PyS.bind_err (PyS.bind_err ?_)⟩
    simp only [onMap, he]

omit [Field K] [LinearOrder K] [FloorRing K] in
theorem mapM_fails {σ α β : Type} {M : SkyMapOps σ Sky K} {f : α → PyS σ β} (hf : ∀ a, M.OnlyAccesses (f a)) {l : List α} {a : α} (ha : a ∈ l) (s : σ)
    (h : ∀ s', M.After s s' → ∃ e s'', f a s' = (.error e, s'')) : ∃ e s', M.After s s' ∧ PyS.mapM f l s = (.error e, s') := by
  have hacc := SkyMapOps.OnlyAccesses.mapM hf l s
  rcases hr : PyS.mapM f l s with ⟨r, s'⟩
  rw [hr] at hacc
  cases r with
  | error e => exact ⟨e, s', hacc, rfl⟩
  | ok r =>
    exfalso
    clear hacc
    induction l generalizing s r with
    | nil => simp at ha
    | cons a' l ih =>
      rw [PyS.mapM_cons] at hr
      obtain ⟨b, s1, h1, h2⟩ := PyS.bind_inv hr
      obtain ⟨bs, s2, h3, -⟩ := PyS.bind_inv h2
      have hs1 : M.After s s1 := by
        have := hf a' s
        rwa [h1] at this
      rcases List.mem_cons.1 ha with rfl | ha
      · obtain ⟨e, s'', he⟩ := h s (SkyMapOps.After.refl s)
        rw [he] at h1
        simp at h1
      · have hs2 : s2 = s' := by
          rw [PyS.bind_ok h3] at h2
          simp only [PyS.pure_apply, Prod.mk.injEq] at h2
          exact h2.2
        subst hs2
        exact ih ha s1 (fun s' hs' => h s' (hs1.trans hs')) _ h3

/-- C88: one tract of a sky map raises at each access, after whatever accesses: then iteration, `findTract`, `findTractPatchList` and `register` raise, and
the registry of the butler is as it was. -/
theorem C88_one_bad_tract {σ : Type} {M : SkyMapOps σ Sky K} {s : σ} {k : ℕ} (hk : k < M.len)
    (h : ∀ s', M.After s s' → ∃ e s'', M.getItem k s' = (.error e, s'')) :
    (∃ e s', iter M s = (.error e, s')) ∧
    (∀ ops c, ∃ e s', findTract ops M c s = (.error e, s')) ∧
    (∀ env l, ∃ e s', findTractPatchList env M l s = (.error e, s')) ∧
    ∀ H fault name hashed reg calls, ∃ e s',
      register H fault M name ⟨s, hashed, reg, calls⟩ = (.error e, ⟨s', hashed, reg, calls⟩) := by
  have hft : ∀ {β : Type} (body : Nat → TractRef Sky K → PyS σ β), (∀ i t, M.OnlyAccesses (body i t)) →
      ∃ e s', M.After s s' ∧ forTracts M body s = (.error e, s') := by
    intro β body hb
    refine mapM_fails (fun i => (SkyMapOps.OnlyAccesses.getItem _).bind fun t => hb i t) (List.mem_range.2 hk) s fun s' hs' => ?_
    obtain ⟨e, s'', he⟩ := h s' hs'
    exact ⟨e, s'', PyS.bind_err he⟩
  refine ⟨?_, ?_, ?_, ?_⟩
  · obtain ⟨e, s', -, he⟩ := hft (fun _ t => pure t) fun _ _ => SkyMapOps.OnlyAccesses.pure _
    exact ⟨e, s', he⟩
  · intro ops c
    obtain ⟨e, s', -, he⟩ := hft (fun i t => pure (ops.separation c t.info.ctrCoord, i, t)) fun _ _ => SkyMapOps.OnlyAccesses.pure _
    exact ⟨e, s', PyS.bind_err he⟩
  · intro env l
    obtain ⟨e, s', -, he⟩ := hft (fun _ t => do
      let pl ← findPatchList env M t l
      return (t, pl)) fun _ t => SkyMapOps.OnlyAccesses.bind
        (SkyMapOps.OnlyAccesses.get.bind fun _ => SkyMapOps.OnlyAccesses.lift _) fun _ => SkyMapOps.OnlyAccesses.pure _
    exact ⟨e, s', PyS.bind_err he⟩
  · intro H fault name hashed reg calls
    obtain ⟨e, s', -, he⟩ := hft (fun _ t => pure t.info.numPatches) fun _ _ => SkyMapOps.OnlyAccesses.pure _
    refine ⟨e, s', PyS.bind_err (PyS.bind_err ?_)⟩
    simp only [onMap, he]

/-! ## Sky maps without tracts -/

/-- C88: a sky map without tracts: iteration and `findTractPatchList` give empty lists, `findTract` raises IndexError, so does `findClosestTractPatchList`
of any positions, and `register` raises ValueError before it calls the butler. -/
theorem C88_empty {σ : Type} {M : SkyMapOps σ Sky K} (hn : M.len = 0) (s : σ) :
    iter M s = (.ok [], s) ∧
    (∀ ops c, findTract ops M c s = (.error .IndexError, s)) ∧
    (∀ env l, findTractPatchList env M l s = (.ok [], s)) ∧
    (∀ ops env l, findClosestTractPatchList env M (findTract ops M) l s =
      (if l.isEmpty then .ok [] else .error .IndexError, s)) ∧
    ∀ H fault name hashed reg calls,
      register H fault M name ⟨s, hashed, reg, calls⟩ = (.error .ValueError, ⟨s, hashed, reg, calls⟩) := by
  have hft : ∀ {β : Type} (body : Nat → TractRef Sky K → PyS σ β), forTracts M body s = (.ok [], s) := by
    intro β body
    unfold forTracts
    rw [hn]
    rfl
  have hfind : ∀ ops c, findTract ops M c s = (.error .IndexError, s) := by
    intro ops c
    unfold findTract
    rw [PyS.bind_ok (hft _)]
    rfl
  refine ⟨hft _, hfind, ?_, ?_, ?_⟩
  · intro env l
    unfold findTractPatchList
    rw [PyS.bind_ok (hft _)]
    rfl
  · intro ops env l
    unfold findClosestTractPatchList
    cases l with
    | nil => rfl
    | cons c l =>
      rw [PyS.foldM_cons]
      exact PyS.bind_err (PyS.bind_err (hfind ops c))
  · intro H fault name hashed reg calls
    refine PyS.bind_err ?_
    unfold skymapRecord
    rw [PyS.bind_ok (a := []) (s' := (⟨s, hashed, reg, calls⟩ : World σ Sky)) (by simp only [onMap, hft])]
    rfl

end

/-- C88: `findTract` of the rings and HEALPix sky maps, which compute the index, raise as well. -/
theorem C88_dead_findTract {K : Type} [Field K] [LinearOrder K] [FloorRing K] :
    (∀ (A : FloatArith K) (R : Rings K) {σ : Type} {M : SkyMapOps σ (SpherePoint K) K} {s : σ}, Dead M s →
      ∀ p, ∃ e, R.findTract A M p s = (.error e, s)) ∧
    ∀ (pi : K) (hp : HpGeom K) n nest {m : CachingDef (SpherePoint K) K} {s : MapState (SpherePoint K) K}, Dead (CachingSkyMap.skyMapOps m) s →
      ∀ p, ∃ e, HealpixSkyMap.findTract pi hp n nest m p s = (.error e, s) := by
  refine ⟨fun A R σ M s h p => ?_, fun pi hp n nest m s h p => h _⟩
  unfold Rings.findTract
  rw [PyS.bind_apply]
  cases hi : R.findIndex A p with
  | error e => exact ⟨e, rfl⟩
  | ok i => exact h i

/-! ## The classes of sky maps -/

theorem buildAll_noPixels (env : FloatEnv ℝ) (ops : SkyOps (SpherePoint ℝ) ℝ) {b : TractBuilder} {l : List (TractArgs (SpherePoint ℝ) ℝ)} (hl : l ≠ []) (n : ℕ)
    (h : b.patchInnerDimensions.x = 0 ∨ (0 < b.patchInnerDimensions.x ∧ b.patchInnerDimensions.y = 0)) :
    ∃ e, EagerSkyMap.buildAll env ops l n b = .error e := by
  cases l with
  | nil => simp at hl
  | cons a l =>
    obtain ⟨e, he⟩ := new_noPixels env ops a h
    exact ⟨e, by simp only [EagerSkyMap.buildAll, he, bind, Except.bind]⟩

theorem new_inv {Sky K : Type} [Field K] [LinearOrder K] [FloorRing K] {impl : ClassImpl Sky K} {cls : MapClass} {config : SkyMapConfig Dbl}
    {version : Version} {o : SkyMapObj Sky K} (h : SkyMapObj.new impl cls config version = .ok o) :
    ∃ b c, BaseSkyMap.init config = (.ok b, c) ∧
      ((∃ m, impl.tracts cls c (SkyMapObj.versionOf cls version) = .ok (.inl m) ∧ o.tracts = .caching m (CachingSkyMap.init m b)) ∨
       ∃ l ts b', impl.tracts cls c (SkyMapObj.versionOf cls version) = .ok (.inr l) ∧ EagerSkyMap.buildAll impl.env impl.ops l 0 b = .ok (ts, b') ∧
        o.tracts = .eager ts b') := by
  unfold SkyMapObj.new at h
  split at h
  · simp at h
  · rename_i b c hi
    refine ⟨b, c, hi, ?_⟩
    split at h
    · simp at h
    · rename_i m hm
      obtain rfl := Except.ok.inj h
      exact .inl ⟨m, hm, rfl⟩
    · rename_i l hl
      split at h
      · simp at h
      · rename_i ts b' hb
        obtain rfl := Except.ok.inj h
        exact .inr ⟨l, ts, b', hl, hb, rfl⟩

theorem dodeca_length {tiny : ℝ} {mk : SpherePoint ℝ → Wcs (SpherePoint ℝ) ℝ} {o : Dodeca.SetOrder} {w : Bool} {ov : ℝ} {r}
    (h : DodecaSkyMap.tracts tiny mk o w ov = .ok r) : r.2.length = 12 := by
  unfold DodecaSkyMap.tracts at h
  obtain ⟨D, -, h⟩ := bindOk h
  obtain ⟨l, hl, h⟩ := bindOk h
  obtain rfl := Except.ok.inj h
  exact ((pyMapM_ok_iff _ _ _).1 hl).length_eq.symm

theorem equat_length {A : FloatArith ℝ} {mk : SpherePoint ℝ → Wcs (SpherePoint ℝ) ℝ} {c : EquatConfig ℝ} {l}
    (h : Equat.tracts A mk c = .ok l) : c.numTracts ≠ 0 ∧ l.length = c.numTracts.toNat := by
  unfold Equat.tracts at h
  obtain ⟨d0, -, h⟩ := bindOk h
  obtain ⟨d1, -, h⟩ := bindOk h
  by_cases h0 : c.numTracts = 0
  · simp [h0, bind, Except.bind, throw, throwThe, MonadExceptOf.throw] at h
  · simp only [h0, if_false] at h
    refine ⟨h0, ?_⟩
    rw [← ((pyMapM_ok_iff _ _ _).1 h).length_eq]
    simp [pyRange]

theorem buildAll_length {Sky K : Type} [Field K] [LinearOrder K] [FloorRing K] {env : FloatEnv K} {ops : SkyOps Sky K} {l : List (TractArgs Sky K)} {n : ℕ}
    {b b' : TractBuilder} {ts} (h : EagerSkyMap.buildAll env ops l n b = .ok (ts, b')) : ts.length = l.length := by
  induction l generalizing n b b' ts with
  | nil =>
    simp only [EagerSkyMap.buildAll, Except.ok.injEq, Prod.mk.injEq] at h
    rw [← h.1]
    rfl
  | cons a l ih =>
    unfold EagerSkyMap.buildAll at h
    obtain ⟨⟨t, b1⟩, -, h⟩ := bindOk h
    obtain ⟨⟨ts1, b2⟩, h1, h⟩ := bindOk h
    have := ih h1
    simp only [pure, Except.pure, Except.ok.injEq, Prod.mk.injEq] at h
    rw [← h.1]
    simp [this]

namespace SkyLib
variable (L : SkyLib) (config : SkyMapConfig Dbl) (version : Version)

/-- C88: with patches without pixels the dodecahedral sky map, and the equatorial ones with tracts, cannot be built; of the other classes a sky map may be
built, but no tract of it can be obtained: each access raises an exception and changes nothing. -/
theorem C88_noPixels (h : config.NoPixels) :
    (∀ w, ∃ e, SkyMapObj.new L.impl (.dodeca w) config version = .error e) ∧
    (∀ n r, 0 < n → ∃ e, SkyMapObj.new L.impl (.equat n r) config version = .error e) ∧
    ∀ cls o, SkyMapObj.new L.impl cls config version = .ok o →
      (∀ i, ∃ e, SkyMapObj.getItem i o = (.error e, o)) ∧
      (∀ m s, o.tracts = .caching m s → Dead (CachingSkyMap.skyMapOps m) s) := by
  have key : ∀ cls o, SkyMapObj.new L.impl cls config version = .ok o →
      (∃ m b, o.tracts = .caching m (CachingSkyMap.init m b) ∧ Dead (CachingSkyMap.skyMapOps m) (CachingSkyMap.init m b)) ∨
      ∃ n r b, cls = .equat n r ∧ n < 0 ∧ o.tracts = .eager [] b := by
    intro cls o ho
    obtain ⟨b, c, hi, ⟨m, hm, ht⟩ | ⟨l, ts, b', hl, hb, ht⟩⟩ := new_inv ho
    · exact .inl ⟨m, b, ht, init_dead m (init_noPixels h hi)⟩
    · have hl0 : l = [] := by
        by_contra hne
        obtain ⟨e, he⟩ := buildAll_noPixels L.impl.env L.impl.ops hne 0 (init_noPixels h hi)
        rw [he] at hb
        simp at hb
      subst hl0
      simp only [EagerSkyMap.buildAll, Except.ok.injEq, Prod.mk.injEq] at hb
      obtain ⟨rfl, rfl⟩ := hb
      right
      cases cls with
      | dodeca w =>
        simp only [SkyLib.impl, SkyLib.tracts] at hl
        cases hd : DodecaSkyMap.tracts L.tiny (L.wcs c) L.order w (L.val c.tractOverlap) with
        | error e => simp [hd, Except.map] at hl
        | ok r =>
          have := dodeca_length hd
          simp only [hd, Except.map, Except.ok.injEq, Sum.inr.injEq] at hl
          simp [hl] at this
      | equat n r =>
        simp only [SkyLib.impl, SkyLib.tracts] at hl
        cases hd : Equat.tracts L.arith (L.wcs c) ⟨n, r.map L.val, L.val c.tractOverlap⟩ with
        | error e => simp [hd, Except.map] at hl
        | ok r' =>
          have := equat_length hd
          simp only [hd, Except.map, Except.ok.injEq, Sum.inr.injEq] at hl
          subst hl
          simp only [List.length_nil] at this
          exact ⟨n, r, b, rfl, by omega, ht⟩
      | rings n s =>
        simp only [SkyLib.impl, SkyLib.tracts] at hl
        split at hl
        · simp at hl
        · split at hl
          · simp at hl
          · rename_i v _
            cases hd : Rings.new L.arith ⟨n.toNat, L.val s, L.val c.tractOverlap⟩ v <;> simp [hd, Except.map] at hl
      | healpix n nest =>
        simp only [SkyLib.impl, SkyLib.tracts] at hl
        cases hd : HealpixSkyMap.cachingDef L.arith.pi L.env L.ops L.hp (L.wcs c) ⟨n, nest, L.arith.deg2rad (L.val c.tractOverlap)⟩ <;>
          simp [hd, Except.map] at hl
      | discrete a b c => simp [SkyLib.impl, SkyLib.tracts] at hl
  have notCaching : ∀ cls o, SkyMapObj.new L.impl cls config version = .ok o → cls.isCaching = false → ∀ m s, o.tracts ≠ .caching m s := by
    intro cls o ho hc m s hm
    obtain ⟨b, c, hi, ⟨m', hm', -⟩ | ⟨l, ts, b', hl, hb, ht⟩⟩ := new_inv ho
    · cases cls with
      | dodeca w =>
        simp only [SkyLib.impl, SkyLib.tracts] at hm'
        cases hd : DodecaSkyMap.tracts L.tiny (L.wcs c) L.order w (L.val c.tractOverlap) <;> simp [hd, Except.map] at hm'
      | equat n r =>
        simp only [SkyLib.impl, SkyLib.tracts] at hm'
        cases hd : Equat.tracts L.arith (L.wcs c) ⟨n, r.map L.val, L.val c.tractOverlap⟩ <;> simp [hd, Except.map] at hm'
      | rings n s => simp [MapClass.isCaching] at hc
      | healpix n nest => simp [MapClass.isCaching] at hc
      | discrete a b c => simp [MapClass.isCaching] at hc
    · rw [ht] at hm; simp at hm
  refine ⟨fun w => ?_, fun n r hn => ?_, fun cls o ho => ?_⟩
  · cases ho : SkyMapObj.new L.impl (.dodeca w) config version with
    | error e => exact ⟨e, rfl⟩
    | ok o =>
      rcases key _ o ho with ⟨m, b, h1, -⟩ | ⟨n, r, b, h1, -⟩
      · exact absurd h1 (notCaching _ o ho rfl _ _)
      · simp at h1
  · cases ho : SkyMapObj.new L.impl (.equat n r) config version with
    | error e => exact ⟨e, rfl⟩
    | ok o =>
      rcases key _ o ho with ⟨m, b, h1, -⟩ | ⟨n', r', b, h1, h2, -⟩
      · exact absurd h1 (notCaching _ o ho rfl _ _)
      · simp only [MapClass.equat.injEq] at h1; omega
  · rcases key _ o ho with ⟨m, b, h1, h2⟩ | ⟨n, r, b, -, -, h1⟩
    · refine ⟨fun i => ?_, fun m' s' h' => ?_⟩
      · obtain ⟨e, he⟩ := h2 i
        refine ⟨e, ?_⟩
        simp only [CachingSkyMap.skyMapOps] at he
        unfold SkyMapObj.getItem
        cases o with
        | mk hashed tracts =>
          simp only at h1
          subst h1
          simp only [he]
      · rw [h1] at h'
        simp only [Tracts.caching.injEq] at h'
        obtain ⟨rfl, rfl⟩ := h'
        exact h2
    · refine ⟨fun i => ⟨.IndexError, ?_⟩, fun m s h' => ?_⟩
      · unfold SkyMapObj.getItem
        simp only [h1, pyGetItem]
        split <;> simp_all
      · rw [h1] at h'; simp at h'

/-- C88: no equatorial sky map with zero tracts, no HEALPix one with a negative log2NSide, and no rings sky map without rings or with a version other than 0
and 1 can be built. -/
theorem C88_class_refused :
    (∀ r, ∃ e, SkyMapObj.new L.impl (.equat 0 r) config version = .error e) ∧
    (∀ n nest, n < 0 → ∃ e, SkyMapObj.new L.impl (.healpix n nest) config version = .error e) ∧
    (∀ n a, n ≤ 0 ∨ (version ≠ .int 0 ∧ version ≠ .int 1) → ∃ e, SkyMapObj.new L.impl (.rings n a) config version = .error e) := by
  refine ⟨fun r => ?_, fun n nest hn => ?_, fun n a hn => ?_⟩
  · cases ho : SkyMapObj.new L.impl (.equat 0 r) config version with
    | error e => exact ⟨e, rfl⟩
    | ok o =>
      obtain ⟨b, c, -, ⟨m, h, -⟩ | ⟨l, -, -, h, -⟩⟩ := new_inv ho <;>
      · simp only [SkyLib.impl, SkyLib.tracts] at h
        cases hd : Equat.tracts L.arith (L.wcs c) ⟨0, r.map L.val, L.val c.tractOverlap⟩ with
        | error e => simp [hd, Except.map] at h
        | ok l => exact absurd rfl (equat_length hd).1
  · cases ho : SkyMapObj.new L.impl (.healpix n nest) config version with
    | error e => exact ⟨e, rfl⟩
    | ok o =>
      obtain ⟨b, c, -, ⟨m, h, -⟩ | ⟨l, -, -, h, -⟩⟩ := new_inv ho <;>
      · simp only [SkyLib.impl, SkyLib.tracts, (C53_number_of_tracts (c := ⟨n, nest, _⟩)).2 hn] at h
        simp [Except.map] at h
  · cases ho : SkyMapObj.new L.impl (.rings n a) config version with
    | error e => exact ⟨e, rfl⟩
    | ok o =>
      obtain ⟨b, c, -, ⟨m, h, -⟩ | ⟨l, -, -, h, -⟩⟩ := new_inv ho <;>
      · simp only [SkyLib.impl, SkyLib.tracts, SkyMapObj.versionOf, MapClass.isCaching, if_true] at h
        split at h
        · simp at h
        · split at h
          · simp at h
          · rename_i hn' _ v
            have hv : v ≠ 0 ∧ v ≠ 1 := by
              rcases hn with hn | hn
              · omega
              · exact ⟨fun h => hn.1 (by rw [h]), fun h => hn.2 (by rw [h])⟩
            simp [Rings.new, hv, Except.map] at h

/-- C88: a sky map has no tracts exactly if it is an equatorial one with a negative number of tracts or a discrete one without radii (arithmetic as IEEE's,
at most 2^31 rings). -/
theorem C88_no_tracts (hA : L.arith.Ieee) {cls : MapClass} {o : SkyMapObj (SpherePoint ℝ) ℝ} (ho : SkyMapObj.new L.impl cls config version = .ok o)
    (hr : ∀ n a, cls = .rings n a → n ≤ 2 ^ 31) :
    o.len = 0 ↔ (∃ n r, cls = .equat n r ∧ n < 0) ∨ ∃ ra dec, cls = .discrete ra dec [] := by
  obtain ⟨b, c, -, ⟨m, h, ht⟩ | ⟨l, ts, b', h, hb, ht⟩⟩ := new_inv ho
  · have hlen : o.len = m.numTracts := by simp [SkyMapObj.len, ht]
    rw [hlen]
    cases cls with
    | dodeca w =>
      simp only [SkyLib.impl, SkyLib.tracts] at h
      cases hd : DodecaSkyMap.tracts L.tiny (L.wcs c) L.order w (L.val c.tractOverlap) <;> simp [hd, Except.map] at h
    | equat n r =>
      simp only [SkyLib.impl, SkyLib.tracts] at h
      cases hd : Equat.tracts L.arith (L.wcs c) ⟨n, r.map L.val, L.val c.tractOverlap⟩ <;> simp [hd, Except.map] at h
    | rings n a =>
      simp only [SkyLib.impl, SkyLib.tracts] at h
      split at h
      · simp at h
      · split at h
        · simp at h
        · rename_i hn _ v _
          cases hd : Rings.new L.arith ⟨n.toNat, L.val a, L.val c.tractOverlap⟩ v with
          | error e => simp [hd, Except.map] at h
          | ok R =>
            have hwf := (Rings.new_wf_rounding hA hd (by simp only; omega) (by have := hr n a rfl; simp only; omega)).1.numTracts_ge
            simp only [hd, Except.map, Except.ok.injEq, Sum.inl.injEq] at h
            subst h
            simp only [Rings.cachingDef, reduceCtorEq, false_and, exists_false, or_false, iff_false]
            omega
    | healpix n nest =>
      simp only [SkyLib.impl, SkyLib.tracts] at h
      by_cases hn : n < 0
      · rw [(C53_number_of_tracts (c := ⟨n, nest, _⟩)).2 hn] at h
        simp [Except.map] at h
      · obtain ⟨m', h1, h2⟩ := (C53_number_of_tracts (pi := L.arith.pi) (env := L.env) (ops := L.ops) (hp := L.hp) (makeWcs := L.wcs c)
          (c := ⟨n, nest, L.arith.deg2rad (L.val c.tractOverlap)⟩)).1 (by simp only; omega)
        rw [h1] at h
        simp only [Except.map, Except.ok.injEq, Sum.inl.injEq] at h
        subst h
        simp only [CachingSkyMap.skyMapOps] at h2
        rw [h2]
        simp
    | discrete ra dec rad =>
      simp only [SkyLib.impl, SkyLib.tracts, Except.ok.injEq, Sum.inl.injEq] at h
      subst h
      simp [DiscreteSkyMap.cachingDef]
  · have hlen : o.len = l.length := by simp [SkyMapObj.len, ht, buildAll_length hb]
    rw [hlen]
    cases cls with
    | dodeca w =>
      simp only [SkyLib.impl, SkyLib.tracts] at h
      cases hd : DodecaSkyMap.tracts L.tiny (L.wcs c) L.order w (L.val c.tractOverlap) with
      | error e => simp [hd, Except.map] at h
      | ok r =>
        have := dodeca_length hd
        simp only [hd, Except.map, Except.ok.injEq, Sum.inr.injEq] at h
        rw [← h, this]
        simp
    | equat n r =>
      simp only [SkyLib.impl, SkyLib.tracts] at h
      cases hd : Equat.tracts L.arith (L.wcs c) ⟨n, r.map L.val, L.val c.tractOverlap⟩ with
      | error e => simp [hd, Except.map] at h
      | ok r' =>
        have := equat_length hd
        simp only [hd, Except.map, Except.ok.injEq, Sum.inr.injEq] at h
        rw [← h, this.2]
        simp only [MapClass.equat.injEq, reduceCtorEq, exists_false, or_false]
        simp only at this
        constructor
        · intro h0
          exact ⟨n, r, ⟨rfl, rfl⟩, by omega⟩
        · rintro ⟨n', r', ⟨rfl, rfl⟩, h0⟩
          omega
    | rings n a =>
      simp only [SkyLib.impl, SkyLib.tracts] at h
      split at h
      · simp at h
      · split at h
        · simp at h
        · rename_i v _
          cases hd : Rings.new L.arith ⟨n.toNat, L.val a, L.val c.tractOverlap⟩ v <;> simp [hd, Except.map] at h
    | healpix n nest =>
      simp only [SkyLib.impl, SkyLib.tracts] at h
      cases hd : HealpixSkyMap.cachingDef L.arith.pi L.env L.ops L.hp (L.wcs c) ⟨n, nest, L.arith.deg2rad (L.val c.tractOverlap)⟩ <;>
        simp [hd, Except.map] at h
    | discrete a b c => simp [SkyLib.impl, SkyLib.tracts] at h

/-- C88: the constructor of the discrete sky map does not compare the lengths of the three lists.  There are as many tracts as radii; the tracts without a
right ascension or declination raise IndexError at each access, after whatever accesses.  If there is one, iteration, `findTract`, `findTractPatchList` and
`register` raise, and the registry is as it was. -/
theorem C88_lists {ra dec rad : List Dbl} {o : SkyMapObj (SpherePoint ℝ) ℝ} (ho : SkyMapObj.new L.impl (.discrete ra dec rad) config version = .ok o) :
    ∃ m s₀, o.tracts = .caching m s₀ ∧ o.len = rad.length ∧
      (∀ s, (CachingSkyMap.skyMapOps m).After s₀ s →
        (∀ i : ℤ, ¬ (0 ≤ i ∧ i < ra.length ∧ i < dec.length ∧ i < rad.length) → CachingSkyMap.getItem m i s = (.error .IndexError, s)) ∧
        (ra.length < rad.length ∨ dec.length < rad.length →
          (∃ e s', iter (CachingSkyMap.skyMapOps m) s = (.error e, s')) ∧
          (∀ p, ∃ e s', findTract L.ops (CachingSkyMap.skyMapOps m) p s = (.error e, s')) ∧
          (∀ l, ∃ e s', findTractPatchList L.env (CachingSkyMap.skyMapOps m) l s = (.error e, s')) ∧
          ∀ H fault name hashed reg calls, ∃ e s',
            register H fault (CachingSkyMap.skyMapOps m) name ⟨s, hashed, reg, calls⟩ = (.error e, ⟨s', hashed, reg, calls⟩))) := by
  obtain ⟨b, c, -, ⟨m, h, ht⟩ | ⟨l, ts, b', h, hb, ht⟩⟩ := new_inv ho
  · simp only [SkyLib.impl, SkyLib.tracts, Except.ok.injEq, Sum.inl.injEq] at h
    have hn : m.numTracts = rad.length := by rw [← h]; simp [DiscreteSkyMap.cachingDef]
    have hargs : ∀ k : ℕ, ¬ (k < ra.length ∧ k < dec.length) → ∀ b₀, CachingSkyMap.fresh m b₀ k = .error .IndexError := by
      intro k hk b₀
      have : m.tractArgs k = .error .IndexError := by
        rw [← h]
        have hlt : ¬ (k : ℤ) < 0 := by omega
        simp only [DiscreteSkyMap.cachingDef, pyGetItem, hlt, if_false, Int.toNat_natCast]
        by_cases h1 : k < ra.length
        · have h2 : dec.length ≤ k := by omega
          rw [List.getElem?_eq_none (l := dec.map L.val) (by simpa using h2)]
          rw [List.getElem?_eq_getElem (l := ra.map L.val) (by simpa using h1)]
          rfl
        · rw [List.getElem?_eq_none (l := ra.map L.val) (by simpa using h1)]
          rfl
      simp [CachingSkyMap.fresh, this]
    have hget : ∀ s, (CachingSkyMap.skyMapOps m).After (CachingSkyMap.init m b) s → ∀ i : ℤ,
        ¬ (0 ≤ i ∧ i < ra.length ∧ i < dec.length ∧ i < rad.length) → CachingSkyMap.getItem m i s = (.error .IndexError, s) := by
      intro s hs i hi
      have hinv := (CachingSkyMap.Inv.init m b).after hs
      rcases CachingSkyMap.getItem_spec hinv i with ⟨-, e⟩ | ⟨k, rfl, hk, ⟨r, hc, e⟩ | ⟨-, er, hf, e⟩ | ⟨hc, t, b', hf, e⟩⟩
      · exact e
      · obtain ⟨-, b', hf⟩ := hinv.info k r hc
        rw [hargs k (by omega)] at hf
        simp at hf
      · rw [hargs k (by omega)] at hf
        rw [e]
        simp only [Except.error.injEq] at hf
        rw [hf]
      · rw [hargs k (by omega)] at hf
        simp at hf
    refine ⟨m, _, ht, by simp [SkyMapObj.len, ht, hn], fun s hs => ⟨hget s hs, fun hshort => ?_⟩⟩
    have := C88_one_bad_tract (M := CachingSkyMap.skyMapOps m) (s := s) (k := min ra.length dec.length)
      (by simp only [CachingSkyMap.skyMapOps]; omega) (fun s' hs' => ⟨.IndexError, s', hget s' (hs.trans hs') _ (by omega)⟩)
    exact ⟨this.1, fun p => this.2.1 _ p, fun l => this.2.2.1 _ l, this.2.2.2⟩
  · simp [SkyLib.impl, SkyLib.tracts] at h

/-- C88: what the lists of a discrete sky map hold beyond the shortest of them has no influence on the tracts that can be obtained: tract i of a new sky map
is that of the sky map with all three lists cut to the same length. -/
theorem C88_surplus {ra dec rad : List Dbl} {o : SkyMapObj (SpherePoint ℝ) ℝ} (ho : SkyMapObj.new L.impl (.discrete ra dec rad) config version = .ok o)
    {n : ℕ} {o' : SkyMapObj (SpherePoint ℝ) ℝ}
    (ho' : SkyMapObj.new L.impl (.discrete (ra.take n) (dec.take n) (rad.take n)) config version = .ok o')
    {i : ℤ} (h0 : 0 ≤ i) (hn : i < n) : (SkyMapObj.getItem i o).1 = (SkyMapObj.getItem i o').1 := by
  obtain ⟨b, c, hi, ⟨m, h, ht⟩ | ⟨l, ts, b', h, hb, ht⟩⟩ := new_inv ho
  · obtain ⟨b', c', hi', ⟨m', h', ht'⟩ | ⟨l, ts, b', h', hb, ht'⟩⟩ := new_inv ho'
    · rw [hi'] at hi
      obtain ⟨hbb, rfl⟩ := Prod.mk.inj hi
      obtain rfl := Except.ok.inj hbb
      obtain ⟨k, rfl⟩ := Int.eq_ofNat_of_zero_le h0
      have hk : k < n := by omega
      simp only [SkyLib.impl, SkyLib.tracts, Except.ok.injEq, Sum.inl.injEq] at h h'
      have hargs : m.tractArgs k = m'.tractArgs k := by
        rw [← h, ← h']
        have hlt : ¬ (k : ℤ) < 0 := by omega
        simp only [DiscreteSkyMap.cachingDef, pyGetItem, hlt, if_false, Int.toNat_natCast, List.getElem?_map, List.getElem?_take, hk, if_true]
      have hf : CachingSkyMap.fresh m b' k = CachingSkyMap.fresh m' b' k := by
        unfold CachingSkyMap.fresh
        rw [hargs, ← h, ← h']
        rfl
      have hN : m.numTracts = rad.length := by rw [← h]; simp [DiscreteSkyMap.cachingDef]
      have hN' : m'.numTracts = min n rad.length := by rw [← h']; simp [DiscreteSkyMap.cachingDef]
      simp only [SkyMapObj.getItem, ht, ht']
      by_cases hr : k < rad.length
      · rw [CachingSkyMap.getItem_gen (CachingSkyMap.Inv.init m b') (i := k) (by simp [CachingSkyMap.init, hN, hr]),
          CachingSkyMap.getItem_gen (CachingSkyMap.Inv.init m' b') (i := k) (by simp [CachingSkyMap.init, hN', hr, hk]), hf]
        cases CachingSkyMap.fresh m' b' k with
        | error e => rfl
        | ok p => rfl
      · rw [CachingSkyMap.getItem_out (CachingSkyMap.Inv.init m b') (by omega), CachingSkyMap.getItem_out (CachingSkyMap.Inv.init m' b') (by omega)]
    · simp [SkyLib.impl, SkyLib.tracts] at h'
  · simp [SkyLib.impl, SkyLib.tracts] at h

end SkyLib

/-! ## Hypotheses met -/

/-- A discrete sky map with patches of 0 by 5 pixels and two tracts is built, and its tracts cannot be obtained. -/
example : ∃ o m s, SkyMapObj.new AllMaps.Ex.lib.impl (.discrete [0, 0] [0, 0] [0, 1]) { Ex.hashConfig with builderName := .legacy, legacy := ⟨[0, 5], 7⟩ } (.int 0) = .ok o ∧
    o.tracts = .caching m s ∧ o.len = 2 ∧ Dead (CachingSkyMap.skyMapOps m) s := by
  have ho : ∃ o, SkyMapObj.new AllMaps.Ex.lib.impl (.discrete [0, 0] [0, 0] [0, 1]) { Ex.hashConfig with builderName := .legacy, legacy := ⟨[0, 5], 7⟩ } (.int 0) = .ok o := ⟨_, rfl⟩
  obtain ⟨o, ho⟩ := ho
  obtain ⟨m, s, h1, h2, -⟩ := AllMaps.Ex.lib.C88_lists _ _ ho
  exact ⟨o, m, s, ho, h1, h2, ((AllMaps.Ex.lib.C88_noPixels { Ex.hashConfig with builderName := .legacy, legacy := ⟨[0, 5], 7⟩ } (.int 0)
    (by exact ⟨0, 5, rfl, by decide, by decide, .inl rfl⟩)).2.2 _ o ho).2 m s h1⟩

/-- A discrete sky map with two right ascensions, one declination and three radii cannot be registered. -/
example (reg : Registry (SpherePoint ℝ)) : ∃ o m s, SkyMapObj.new AllMaps.Ex.lib.impl (.discrete [0, 0] [0] [0, 1, 2]) Ex.hashConfig (.int 0) = .ok o ∧
    o.tracts = .caching m s ∧ ∃ e s', register id (fun _ => none) (CachingSkyMap.skyMapOps m) "d" ⟨s, o.hashed, reg, 0⟩ = (.error e, ⟨s', o.hashed, reg, 0⟩) := by
  have ho : ∃ o, SkyMapObj.new AllMaps.Ex.lib.impl (.discrete [0, 0] [0] [0, 1, 2]) Ex.hashConfig (.int 0) = .ok o := ⟨_, rfl⟩
  obtain ⟨o, ho⟩ := ho
  obtain ⟨m, s, h1, h2, h3⟩ := AllMaps.Ex.lib.C88_lists _ _ ho
  exact ⟨o, m, s, ho, h1, ((h3 s (SkyMapOps.After.refl s)).2 (.inl (by decide))).2.2.2 _ _ _ _ _ _⟩

/-- Wrong configurations of the four kinds that are refused. -/
example : (∃ e, SkyMapObj.new AllMaps.Ex.lib.impl (.discrete [] [] []) { Ex.hashConfig with projection := "TANX" } (.int 0) = .error e) ∧
    (∃ e, SkyMapObj.new AllMaps.Ex.lib.impl (.equat 0 [0, 0]) Ex.hashConfig (.int 0) = .error e) ∧
    (∃ e, SkyMapObj.new AllMaps.Ex.lib.impl (.healpix (-1) true) Ex.hashConfig (.int 0) = .error e) ∧
    (∃ e, SkyMapObj.new AllMaps.Ex.lib.impl (.rings 3 0) Ex.hashConfig (.int 2) = .error e) :=
  ⟨C88_refused _ _ _ _ (.inl (by decide)), (AllMaps.Ex.lib.C88_class_refused _ _).1 _, (AllMaps.Ex.lib.C88_class_refused _ _).2.1 _ _ (by decide),
    (AllMaps.Ex.lib.C88_class_refused _ _).2.2 _ _ (.inr ⟨by decide, by decide⟩)⟩

/-- An equatorial sky map of minus two tracts is built and has no tract. -/
example : ∃ o, SkyMapObj.new AllMaps.Ex.lib.impl (.equat (-2) [0, 0]) Ex.hashConfig (.int 0) = .ok o ∧ o.len = 0 := by
  have ho : ∃ o, SkyMapObj.new AllMaps.Ex.lib.impl (.equat (-2) [0, 0]) Ex.hashConfig (.int 0) = .ok o := ⟨_, rfl⟩
  obtain ⟨o, ho⟩ := ho
  exact ⟨o, ho, (AllMaps.Ex.lib.C88_no_tracts _ _ FloatArith.exact_ieee ho (by simp)).2 (.inl ⟨_, _, rfl, by decide⟩)⟩

end Skymap
