import Verif.Lemmas.Search
import Verif.Model.Discrete
import Verif.Spec.ExampleMap
import Verif.Props.FindPatch

/-! # C18 - C21: tract access, caching, the shared builder, discrete sky maps -/

set_option linter.unusedSectionVars false

namespace Skymap
open CachingSkyMap

variable {Sky K : Type} [Field K] [LinearOrder K] [FloorRing K]
variable {m : CachingDef Sky K} {b₀ : TractBuilder} {s s' : MapState Sky K}

/-! ## C18 -/

/-- C18: every index outside 0 .. len-1, negative or not, raises `IndexError` and changes nothing. -/
theorem C18_out_of_range (h : (skyMapOps m).After (init m b₀) s) (i : Int)
    (hi : i < 0 ∨ ((skyMapOps m).len : Int) ≤ i) : getItem m i s = (.error .IndexError, s) :=
  getItem_out ((Inv.init m b₀).after h) (by
    change _ ∨ (m.numTracts : Int) ≤ i at hi
    omega)

/-- C18: after any history, a tract that has been returned is returned again - the identical object -
by every later access, whatever happens in between; and its id is its index. -/
theorem C18_permanent (hid : ∀ i a, m.tractArgs i = .ok a → a.id = i)
    (h : (skyMapOps m).After (init m b₀) s) (i : Int) (r : TractRef Sky K)
    (hg : getItem m i s = (.ok r, s')) :
    (0 ≤ i ∧ i < (skyMapOps m).len) ∧ r.info.id = i ∧
      ∀ s'', (skyMapOps m).After s' s'' → getItem m i s'' = (.ok r, s'') := by
  have I := (Inv.init m b₀).after h
  obtain ⟨k, rfl, hk, hc⟩ := cached_after_ok I hg
  have I' : Inv m b₀ s' := by
    have := I.getItem (k : Int); rw [hg] at this; exact this
  refine ⟨⟨by omega, by change (k : Int) < m.numTracts; omega⟩, ?_, fun s'' ha => ?_⟩
  · obtain ⟨-, b', hf⟩ := I'.info k r hc
    unfold fresh at hf
    split at hf
    · simp at hf
    · rename_i a ha
      obtain ⟨mb, bbox, n, -, -, e⟩ := TractInfo.new_inv hf
      rw [e]
      exact hid _ _ ha
  · exact getItem_cached (I'.after ha) (cache_stable I' ha hc)

/-- C18, in the form used by the searches. -/
theorem permanent_of_reachable (h : (skyMapOps m).After (init m b₀) s) : (skyMapOps m).Permanent s := by
  intro s₁ h1 i r s₂ hg s₃ h3
  have I := (Inv.init m b₀).after (h.trans h1)
  obtain ⟨k, rfl, hk, hc⟩ := cached_after_ok I hg
  have I' : Inv m b₀ s₂ := by
    have := I.getItem (k : Int)
    rw [show CachingSkyMap.getItem m (k : Int) s₁ = _ from hg] at this; exact this
  exact getItem_cached (I'.after h3) (cache_stable I' h3 hc)

/-- C18: an access that raises changes nothing, so that it can be retried; it raises because this
tract cannot be generated, or because the index is out of range. -/
theorem C18_failure_changes_nothing (h : (skyMapOps m).After (init m b₀) s) (i : Int) (e : PyErr)
    (hg : getItem m i s = (.error e, s')) :
    s' = s ∧ getItem m i (init m b₀) = (.error e, init m b₀) := by
  have I := (Inv.init m b₀).after h
  rcases getItem_spec I i with ⟨hi, e1⟩ | ⟨k, rfl, hk, ⟨r', hr, e1⟩ | ⟨-, er, hf, e1⟩ | ⟨hc', t, b, hf, e1⟩⟩
  · rw [e1] at hg
    simp only [Prod.mk.injEq, Except.error.injEq] at hg
    obtain ⟨rfl, rfl⟩ := hg
    exact ⟨rfl, getItem_out (Inv.init m b₀) hi⟩
  · rw [e1] at hg; simp at hg
  · rw [e1] at hg
    simp only [Prod.mk.injEq, Except.error.injEq] at hg
    obtain ⟨rfl, rfl⟩ := hg
    refine ⟨rfl, ?_⟩
    rw [getItem_gen (Inv.init m b₀) (by simp [init, hk]), hf]
  · rw [e1] at hg; simp at hg

/-- C18: tract objects are created at most once per index: after any history the number of objects
ever created is the number of tracts now cached, hence at most the number of tracts; and different
indices give different objects. -/
theorem C18_generated_once (h : (skyMapOps m).After (init m b₀) s) :
    s.nextOid = s.cache.countP Option.isSome ∧ s.nextOid ≤ (skyMapOps m).len ∧
    ∀ i j r r', getItem m i s = (.ok r, s) → getItem m j s = (.ok r', s) → r.oid = r'.oid → i = j := by
  have I := (Inv.init m b₀).after h
  refine ⟨I.count, ?_, ?_⟩
  · rw [I.count]
    have := List.countP_le_length (p := Option.isSome) (l := s.cache)
    rw [I.len] at this
    exact this
  · intro i j r r' hi hj he
    obtain ⟨k, rfl, -, h1⟩ := cached_after_ok I hi
    obtain ⟨k', rfl, -, h2⟩ := cached_after_ok I hj
    rw [I.inj k k' r r' h1 h2 he]

/-- C18: iterating yields the tracts 0 .. len-1 in order, the same objects as later accesses do; an
exception in the iteration is that of an access to some tract. -/
theorem C18_iteration (hid : ∀ i a, m.tractArgs i = .ok a → a.id = i)
    (h : (skyMapOps m).After (init m b₀) s) :
    (∀ l, BaseSkyMap.iter (skyMapOps m) s = (.ok l, s') → l.length = (skyMapOps m).len ∧
      ∀ k : Nat, k < (skyMapOps m).len → ∃ r, l[k]? = some r ∧ r.info.id = k ∧ getItem m k s' = (.ok r, s')) ∧
    (∀ e, BaseSkyMap.iter (skyMapOps m) s = (.error e, s') → ∃ k : Nat, k < (skyMapOps m).len ∧
      getItem m k (init m b₀) = (.error e, init m b₀)) := by
  constructor
  · intro l hl
    obtain ⟨ha, h2⟩ := loop_spec (M := skyMapOps m) (fun _ t => pure t) (fun _ t _ => .ok t) (fun _ _ _ => rfl)
      _ _ _ _ hl
    obtain ⟨h3, h4⟩ := forall₂_range h2
    refine ⟨h3, fun k hk => ?_⟩
    obtain ⟨x, hx, r, s₀, s₁, g1, g2, g3, g4⟩ := h4 k hk
    simp only [Except.ok.injEq] at g4
    subst g4
    obtain ⟨-, h6, h7⟩ := C18_permanent hid (h.trans g1) k r g2
    exact ⟨r, hx, h6, h7 _ g3⟩
  · intro e he
    obtain ⟨i, hi, s₁, g1, g2⟩ := loop_err (M := skyMapOps m) (fun _ t => pure t) (fun _ t _ => ⟨t, rfl⟩)
      _ _ _ _ he
    exact ⟨i, List.mem_range.1 hi, (C18_failure_changes_nothing (h.trans g1) i e g2).2⟩

/-- C18: the generic methods change a sky map only by accessing tracts, so histories that use them are
covered by the theorems above (any overriding `findTract` that does so too). -/
theorem C18_methods_only_access {σ : Type} (M : SkyMapOps σ Sky K) (env : FloatEnv K) (ops : SkyOps Sky K)
    (mkSky : K → K → Sky) (ft : Sky → PyS σ (TractRef Sky K)) (hft : ∀ c, M.OnlyAccesses (ft c))
    (c : Sky) (l : List Sky) (ra dec : BaseSkyMap.NpArg K) :
    M.OnlyAccesses (BaseSkyMap.iter M) ∧ M.OnlyAccesses (BaseSkyMap.findTract ops M c) ∧
    M.OnlyAccesses (BaseSkyMap.findTractIdArray mkSky ft ra dec) ∧
    M.OnlyAccesses (BaseSkyMap.findTractPatchList env M l) ∧
    M.OnlyAccesses (BaseSkyMap.findClosestTractPatchList env M ft l) := by
  have hfp : ∀ t l, M.OnlyAccesses (BaseSkyMap.findPatchList env M t l) := fun t l =>
    SkyMapOps.OnlyAccesses.get.bind fun s => SkyMapOps.OnlyAccesses.lift _
  refine ⟨?_, ?_, ?_, ?_, ?_⟩
  · exact .mapM (fun i => (SkyMapOps.OnlyAccesses.getItem _).bind fun t => .pure _) _
  · refine SkyMapOps.OnlyAccesses.bind
      (.mapM (fun i => (SkyMapOps.OnlyAccesses.getItem _).bind fun t => .pure _) _) fun l => ?_
    split
    · exact .pure _
    · exact .lift _
  · exact .mapM (fun c => (hft c).bind fun t => .pure _) _
  · exact SkyMapOps.OnlyAccesses.bind
      (.mapM (fun i => (SkyMapOps.OnlyAccesses.getItem _).bind fun t => (hfp t l).bind fun pl => .pure _) _)
      fun l => .pure _
  · exact .foldM (fun b a => (hft a).bind fun t => (hfp t l).bind fun pl => .pure _) _ _

/-! ## C19 -/

/-- C19: whatever was accessed before, `skyMap[i]` gives what a freshly built sky map gives: the same
id, centre, vertices, overlap, number of patches, bounding box and WCS, or the same exception. -/
theorem C19_history_independent (h : (skyMapOps m).After (init m b₀) s) (i : Int) :
    (getItem m i s).1.map TractRef.info = (getItem m i (init m b₀)).1.map TractRef.info := by
  have I := (Inv.init m b₀).after h
  have I0 := Inv.init m b₀
  rcases getItem_spec I i with ⟨hi, e1⟩ | ⟨k, rfl, hk, ⟨r', hr, e1⟩ | ⟨-, er, hf, e1⟩ | ⟨hc', t, b, hf, e1⟩⟩
  · rw [e1, getItem_out I0 hi]
  · obtain ⟨-, b', hf⟩ := I.info k r' hr
    rw [e1, getItem_gen I0 (by simp [init, hk]), hf]
    rfl
  · rw [e1, getItem_gen I0 (by simp [init, hk]), hf]
  · rw [e1, getItem_gen I0 (by simp [init, hk]), hf]
    rfl

/-! ## C20 -/

/-- Fresh generation in terms of accesses. -/
theorem fresh_of_getItem (h : (skyMapOps m).After (init m b₀) s) {i : Int} {r : TractRef Sky K}
    (hg : getItem m i s = (.ok r, s')) :
    ∃ k : Nat, i = k ∧ k < m.numTracts ∧ ∃ b, fresh m b₀ k = .ok (r.info, b) ∧
      (getItem m i (init m b₀)).2.builder = b ∧ (getItem m i (init m b₀)).1 = .ok ⟨0, r.info⟩ := by
  have I := (Inv.init m b₀).after h
  obtain ⟨k, rfl, hk, hc⟩ := cached_after_ok I hg
  have I' : Inv m b₀ s' := by
    have := I.getItem (k : Int); rw [hg] at this; exact this
  obtain ⟨-, b', hf⟩ := I'.info k r hc
  refine ⟨k, rfl, hk, b', hf, ?_, ?_⟩ <;>
  · rw [getItem_gen (Inv.init m b₀) (by simp [init, hk]), hf]
    rfl

theorem fresh_built {k : Int} {t : TractInfo Sky K} {b : TractBuilder} (hx : 0 < b₀.patchInnerDimensions.x)
    (hy : 0 < b₀.patchInnerDimensions.y) (hf : fresh m b₀ k = .ok (t, b)) : t.Built b₀ b := by
  unfold fresh at hf
  split at hf
  · simp at hf
  · exact TractInfo.new_built hf hx hy

/-- Two builders set up for the same number of patches are the same. -/
theorem built_builder_eq {t t' : TractInfo Sky K} {b b' : TractBuilder} (B : t.Built b₀ b) (B' : t'.Built b₀ b')
    (hn : t.numPatches = t'.numPatches) : b = b' := by
  have e1 := B.dims; have e2 := B'.dims
  have e3 := B.border; have e4 := B'.border
  have e5 := B.kind; have e6 := B'.kind
  have e7 := B.ready.st; have e8 := B'.ready.st
  obtain ⟨k, d, p, s⟩ := b
  obtain ⟨k', d', p', s'⟩ := b'
  dsimp only at *
  subst e1 e3 e5
  subst e2 e4 e6
  rw [e7, e8, hn]

/-- With uniform tracts, once a tract was returned the builder is that of this tract, for ever. -/
theorem builder_uniform (hx : 0 < b₀.patchInnerDimensions.x) (hy : 0 < b₀.patchInnerDimensions.y)
    (hu : m.Uniform b₀) (h : (skyMapOps m).After (init m b₀) s) {i : Int} {r : TractRef Sky K}
    (hg : getItem m i s = (.ok r, s')) {s'' : MapState Sky K} (h' : (skyMapOps m).After s' s'')
    {r₀ : TractRef Sky K} {s₀ : MapState Sky K} (hg₀ : getItem m i (init m b₀) = (.ok r₀, s₀)) :
    r.info = r₀.info ∧ s''.builder = s₀.builder := by
  obtain ⟨k, rfl, hk, b, hf, hb, hr0⟩ := fresh_of_getItem h hg
  rw [hg₀] at hb hr0
  simp only [Except.ok.injEq] at hr0
  subst hr0
  refine ⟨rfl, ?_⟩
  have hs : (skyMapOps m).After (init m b₀) s' := h.trans (SkyMapOps.After.step' (M := skyMapOps m) hg)
  have I'' := (Inv.init m b₀).after (hs.trans h')
  obtain ⟨k', hkk, -, hc⟩ := cached_after_ok ((Inv.init m b₀).after h) hg
  have hc' := cache_stable ((Inv.init m b₀).after hs) h' hc
  have hlt := (I''.info _ _ hc').1
  rcases builder_reachable (hs.trans h') with ⟨h0, -⟩ | ⟨j, t, hj, hj'⟩
  · omega
  · have g1 : getItem m j (init m b₀) = (.ok ⟨0, t⟩, stored (init m b₀) j t s''.builder) := by
      rw [getItem_gen (Inv.init m b₀) (by simp [init, hj]), hj']
      rfl
    have e := hu j k _ _ _ _ g1 hg₀
    dsimp only at hb
    rw [hb]
    exact built_builder_eq (fresh_built hx hy hj') (fresh_built hx hy hf) e

/-- C20, true part: if all tracts have the same number of patches, then after any history, with a
tract `r = skyMap[i]` accessed at any point of it, every patch lookup on `r` gives exactly what it
gives on a freshly built sky map in which only tract i was accessed (`r₀` and state `s₀`). -/
theorem C20_uniform_partial (hx : 0 < b₀.patchInnerDimensions.x) (hy : 0 < b₀.patchInnerDimensions.y)
    (hu : m.Uniform b₀)
    (h : (skyMapOps m).After (init m b₀) s) (i : Int) (r : TractRef Sky K) (hg : getItem m i s = (.ok r, s'))
    (s'' : MapState Sky K) (h' : (skyMapOps m).After s' s'')
    (r₀ : TractRef Sky K) (s₀ : MapState Sky K) (hg₀ : getItem m i (init m b₀) = (.ok r₀, s₀)) :
    (∀ index, r.info.getPatchInfo s''.builder index = r₀.info.getPatchInfo s₀.builder index) ∧
    (r.info.iter s''.builder = r₀.info.iter s₀.builder) ∧
    (∀ c, r.info.findPatch m.env s''.builder c = r₀.info.findPatch m.env s₀.builder c) ∧
    (∀ l, r.info.findPatchList m.env s''.builder l = r₀.info.findPatchList m.env s₀.builder l) ∧
    (∀ p, r.info.getSequentialPatchIndex s''.builder p = r₀.info.getSequentialPatchIndex s₀.builder p) ∧
    (∀ p, r.info.getSequentialPatchIndexFromPair s''.builder p =
      r₀.info.getSequentialPatchIndexFromPair s₀.builder p) ∧
    (∀ n, r.info.getPatchIndexPair s''.builder n = r₀.info.getPatchIndexPair s₀.builder n) := by
  obtain ⟨e1, e2⟩ := builder_uniform hx hy hu h hg h' hg₀
  rw [e1, e2]
  exact ⟨fun _ => rfl, rfl, fun _ => rfl, fun _ => rfl, fun _ => rfl, fun _ => rfl, fun _ => rfl⟩


/-- C20, why it fails in general: the tract constructed last wins.  If `r` was obtained and later an
access constructs another tract `r'` (a new object), then `r.getPatchInfo` accepts exactly the patch
indices of `r'`, and numbers them as `r'` does. -/
theorem C20_last_tract_wins (hx : 0 < b₀.patchInnerDimensions.x) (hy : 0 < b₀.patchInnerDimensions.y)
    (hb : 0 ≤ b₀.patchBorder) (h : (skyMapOps m).After (init m b₀) s) (j : Int) (r' : TractRef Sky K)
    (hg : getItem m j s = (.ok r', s')) (hnew : r'.oid = s.nextOid) (r : TractRef Sky K) (k : Index2D) :
    ((∃ p, r.info.getPatchInfo s'.builder (.index2D k) = .ok p) ↔ InRange r'.info.numPatches k) ∧
    (∀ p, r.info.getPatchInfo s'.builder (.index2D k) = .ok p →
      p.sequentialIndex = r'.info.numPatches.x * k.y + k.x) ∧
    r.info.getSequentialPatchIndexFromPair s'.builder (.index2D k) = .ok (r'.info.numPatches.x * k.y + k.x) := by
  have I := (Inv.init m b₀).after h
  rcases getItem_spec I j with ⟨hi, e1⟩ | ⟨n, rfl, hk, ⟨r1, hr, e1⟩ | ⟨-, er, hf, e1⟩ | ⟨hc', t, b, hf, e1⟩⟩
  · rw [e1] at hg; simp at hg
  · rw [e1] at hg
    simp only [Prod.mk.injEq, Except.ok.injEq] at hg
    obtain ⟨rfl, rfl⟩ := hg
    have := (I.info n r1 hr).1
    omega
  · rw [e1] at hg; simp at hg
  · rw [e1] at hg
    simp only [Prod.mk.injEq, Except.ok.injEq] at hg
    obtain ⟨rfl, rfl⟩ := hg
    have B := fresh_built hx hy hf
    have hb' : 0 ≤ b.patchBorder := by rw [B.border]; exact hb
    change ((∃ p, b.getPatchInfo _ _ = .ok p) ↔ InRange t.numPatches k) ∧
      (∀ p, b.getPatchInfo (.index2D k) _ = .ok p → _ = t.numPatches.x * k.y + k.x) ∧
      b.getSequentialPatchIndexFromPair _ = .ok (t.numPatches.x * k.y + k.x)
    refine ⟨⟨fun ⟨p, hp⟩ => ((B.ready.getPatchInfo_iff hb' _ _ _).1 hp).1,
      fun hi => ⟨_, B.ready.getPatchInfo_ok hb' hi _⟩⟩, fun p hp => ?_, ?_⟩
    · rw [((B.ready.getPatchInfo_iff hb' _ _ _).1 hp).2, TractBuilder.patchVal_seq]
    · simp [TractBuilder.getSequentialPatchIndexFromPair, TractBuilder.getState, B.st, bind, Except.bind, pure,
        Except.pure]

/-- What a user sees of a tract's patches. -/
structure Ex.Probe where
  numPatches : Index2D
  patchNumber4 : PyM Index2D
  numberOfPatch11 : PyM Int
  countByIteration : PyM Nat
  deriving DecidableEq

/-- What a user sees of tract i's patches (obtained after the accesses `before`) after some more
accesses `later`: the number of patches, the patch with sequential index 4, the sequential index of
patch (1,1), and the number of patches found by iterating (or the exception). -/
def Ex.probe (i : Int) (before later : List Int) : PyM Ex.Probe :=
  let (x, s) := getItem Ex.unequalMap i (Ex.visit Ex.unequalMap before)
  let s' := later.foldl (fun s i => (getItem Ex.unequalMap i s).2) s
  x.map fun r => ⟨r.info.numPatches, (r.info.getPatchInfo s'.builder (.number 4)).map (·.index),
    r.info.getSequentialPatchIndexFromPair s'.builder (.index2D ⟨1, 1⟩), (r.info.iter s'.builder).map List.length⟩

/-- C20 is false: a `DiscreteSkyMap` with radii 5 and 11.  On a fresh sky map, patch number 4 of tract 0
is patch (1,1); after tract 1 has been accessed as well, patch number 4 of tract 0 is (4,0) - not even a
patch of tract 0, which has 3 by 4 patches - and the number of patch (1,1) has become 7.  Iterating over
tract 1 (6 by 8 patches) works if it was accessed last and raises `IndexError` after an access to
tract 0. -/
theorem C20_fails_unequal_radii :
    Ex.probe 0 [] [] = .ok ⟨⟨3, 4⟩, .ok ⟨1, 1⟩, .ok 4, .ok 12⟩ ∧
    Ex.probe 0 [] [1] = .ok ⟨⟨3, 4⟩, .ok ⟨4, 0⟩, .ok 7, .ok 12⟩ ∧
    Ex.probe 1 [] [] = .ok ⟨⟨6, 8⟩, .ok ⟨4, 0⟩, .ok 7, .ok 48⟩ ∧
    Ex.probe 1 [] [0] = .ok ⟨⟨6, 8⟩, .ok ⟨1, 1⟩, .ok 4, .error .IndexError⟩ := by
  decide +kernel

/-- C20 as stated in the property list is refuted. -/
theorem C20_false : ¬ ∀ (m : CachingDef (P2 ℚ) ℚ) (b₀ : TractBuilder) (s s' s'' s₀ : MapState (P2 ℚ) ℚ) (i : Int)
    (r r₀ : TractRef (P2 ℚ) ℚ), 0 < b₀.patchInnerDimensions.x → 0 < b₀.patchInnerDimensions.y → 0 ≤ b₀.patchBorder →
    (skyMapOps m).After (init m b₀) s → getItem m i s = (.ok r, s') → (skyMapOps m).After s' s'' →
    getItem m i (init m b₀) = (.ok r₀, s₀) →
    ∀ n, (r.info.getPatchInfo s''.builder (.number n)).map (·.index) =
      (r₀.info.getPatchInfo s₀.builder (.number n)).map (·.index) := by
  intro H
  obtain ⟨h1, h2, -, -⟩ := C20_fails_unequal_radii
  unfold Ex.probe at h1 h2
  simp only [List.foldl_nil, List.foldl_cons] at h1 h2
  obtain ⟨r, e, hr⟩ := Except.map_ok_inv h1
  obtain ⟨r2, e2, hr2⟩ := Except.map_ok_inv h2
  rw [e] at e2
  simp only [Except.ok.injEq] at e2
  subst e2
  simp only [Ex.Probe.mk.injEq] at hr hr2
  have hg : getItem Ex.unequalMap 0 (init Ex.unequalMap Ex.legacy) =
      (.ok r, (getItem Ex.unequalMap 0 (init Ex.unequalMap Ex.legacy)).2) := by
    rw [Prod.ext_iff]; exact ⟨e, rfl⟩
  have := H Ex.unequalMap Ex.legacy _ _ _ _ 0 r r (by decide) (by decide) (by decide)
    (SkyMapOps.After.refl (M := skyMapOps Ex.unequalMap) (init Ex.unequalMap Ex.legacy)) hg
    (SkyMapOps.After.step (M := skyMapOps Ex.unequalMap) 1 _) hg 4
  have a1 := hr.2.1
  have a2 := hr2.2.1
  change Except.map _ (r.info.getPatchInfo ((getItem Ex.unequalMap 1 (getItem Ex.unequalMap 0
    (init Ex.unequalMap Ex.legacy)).2).2).builder (.number 4)) = _ at a2
  change Except.map _ (r.info.getPatchInfo ((getItem Ex.unequalMap 0
    (init Ex.unequalMap Ex.legacy)).2).builder (.number 4)) = _ at a1
  rw [skyMapOps_getItem, a2, a1] at this
  simp at this

/-! ## C20 for sky maps that build all tracts at once -/

/-- All tracts of an eagerly built sky map are looked up with the builder of the last tract: `t` is any
of its tracts, `last` the last one. -/
theorem C20_eager_last_tract_wins {env : FloatEnv K} {ops : SkyOps Sky K} {l : List (TractArgs Sky K)} {n : Nat}
    {ts : List (TractRef Sky K)} {b : TractBuilder} (h : EagerSkyMap.buildAll env ops l n b₀ = .ok (ts, b))
    (hx : 0 < b₀.patchInnerDimensions.x) (hy : 0 < b₀.patchInnerDimensions.y) (hb : 0 ≤ b₀.patchBorder)
    (last : TractRef Sky K) (hl : ts.getLast? = some last) (t : TractRef Sky K) (k : Index2D) :
    ((∃ p, t.info.getPatchInfo b (.index2D k) = .ok p) ↔ InRange last.info.numPatches k) ∧
    t.info.getSequentialPatchIndexFromPair b (.index2D k) = .ok (last.info.numPatches.x * k.y + k.x) := by
  have B : last.info.Built b₀ b := by
    induction l generalizing n b₀ ts with
    | nil =>
      simp only [EagerSkyMap.buildAll, Except.ok.injEq, Prod.mk.injEq] at h
      obtain ⟨rfl, rfl⟩ := h
      simp at hl
    | cons a l ih =>
      unfold EagerSkyMap.buildAll at h
      cases h1 : TractInfo.new env ops b₀ a with
      | error e => rw [h1] at h; simp [bind, Except.bind] at h
      | ok p =>
        obtain ⟨t, b'⟩ := p
        rw [h1] at h
        simp only [bind, Except.bind] at h
        have B := TractInfo.new_built h1 hx hy
        cases h2 : EagerSkyMap.buildAll env ops l (n + 1) b' with
        | error e => rw [h2] at h; simp at h
        | ok p =>
          obtain ⟨ts', b''⟩ := p
          rw [h2] at h
          simp only [pure, Except.pure, Except.ok.injEq, Prod.mk.injEq] at h
          obtain ⟨rfl, rfl⟩ := h
          cases ts' with
          | nil =>
            cases l with
            | nil =>
              simp only [EagerSkyMap.buildAll, Except.ok.injEq, Prod.mk.injEq] at h2
              obtain ⟨-, rfl⟩ := h2
              simp only [List.getLast?_singleton, Option.some.injEq] at hl
              subst hl
              exact B
            | cons a' l' =>
              exfalso
              unfold EagerSkyMap.buildAll at h2
              simp only [bind, Except.bind] at h2
              split at h2
              · simp at h2
              · split at h2 <;> simp [pure, Except.pure] at h2
          | cons x xs =>
            rw [List.getLast?_cons_cons] at hl
            have := ih (n := n + 1) (b₀ := b') (ts := x :: xs) h2 (by rw [B.dims]; exact hx) (by rw [B.dims]; exact hy)
              (by rw [B.border]; exact hb) hl
            exact ⟨this.ready, this.dims.trans B.dims, this.border.trans B.border, this.kind.trans B.kind,
              this.box, this.st⟩
  have hb' : 0 ≤ b.patchBorder := by rw [B.border]; exact hb
  refine ⟨⟨fun ⟨p, hp⟩ => ((B.ready.getPatchInfo_iff hb' _ _ _).1 hp).1,
      fun hi => ⟨_, B.ready.getPatchInfo_ok hb' hi _⟩⟩, ?_⟩
  simp [TractInfo.getSequentialPatchIndexFromPair, TractBuilder.getSequentialPatchIndexFromPair,
    TractBuilder.getState, B.st, bind, Except.bind, pure, Except.pure]

/-! ## C21 -/

/-- C21: `validate` accepts exactly the configurations whose lists have equal lengths and raises
`ValueError` for the others (provided that the individual fields are valid). -/
theorem C21_validate (c : DiscreteConfig K) :
    (c.validate (.ok ()) = .ok () ↔ c.raList.length = c.radiusList.length ∧ c.decList.length = c.radiusList.length) ∧
    (c.validate (.ok ()) = .ok () ∨ c.validate (.ok ()) = .error .ValueError) ∧
    (∀ e, c.validate (.error e) = .error e) := by
  refine ⟨?_, ?_, fun e => rfl⟩
  all_goals
    unfold DiscreteConfig.validate
    by_cases h1 : c.radiusList.length = c.raList.length <;> by_cases h2 : c.radiusList.length = c.decList.length <;>
      simp [h1, h2, bind, Except.bind, throw, throwThe, MonadExceptOf.throw, pure, Except.pure, eq_comm] <;> omega

/-- C21: a `DiscreteSkyMap` with a valid configuration has one tract per configured position.  Tract i
(after any history) has id i, the configured centre and overlap, and contains the four positions at
distance radius + overlap from the centre, in the directions of the axes (wherever the projection is
finite), and no more than is needed for them: in x (and in y) some two of them are further apart than
all but one patch of the tract (less two pixels).  If the configured position is refused (a declination
beyond the poles) then accessing the tract raises. -/
theorem C21_tracts [IsStrictOrderedRing K] (env : FloatEnv K) (ops : SkyOps Sky K) (g : SkyGeom Sky K) (c : DiscreteConfig K)
    (hv : c.validate (.ok ()) = .ok ()) (he : env.Ok)
    (hx : 0 < b₀.patchInnerDimensions.x) (hy : 0 < b₀.patchInnerDimensions.y)
    (hm : m = DiscreteSkyMap.cachingDef env ops g c)
    (h : (skyMapOps m).After (init m b₀) s) :
    (skyMapOps m).len = c.radiusList.length ∧
    ∀ i : Nat, i < c.radiusList.length → ∃ ra dec radius,
      c.raList[i]? = some ra ∧ c.decList[i]? = some dec ∧ c.radiusList[i]? = some radius ∧
      (∀ e, g.point ra dec = .error e → getItem m i s = (.error e, s)) ∧
      ∀ r, getItem m i s = (.ok r, s') → ∃ ctr, g.point ra dec = .ok ctr ∧ r.info.id = i ∧ r.info.ctrCoord = ctr ∧
        r.info.tractOverlap = g.angle c.tractOverlap ∧
        let edge := fun k : Nat => ops.offset ctr (90 * (k : K)) (g.angle radius + g.angle c.tractOverlap)
        let wcs := g.makeWcs ctr
        (∀ k : Nat, k < 4 → wcs.skyToPixel (edge k) ≠ .nonfinite → r.info.contains (edge k) = true) ∧
        (r.info.getBBox.isEmpty = false →
          (∃ k k', k < 4 ∧ k' < 4 ∧ ∃ p p', wcs.PixelOf (edge k) p ∧ wcs.PixelOf (edge k') p' ∧
            (r.info.numPatches.x - 1) * b₀.patchInnerDimensions.x < p'.x - p.x + 2) ∧
          (∃ k k', k < 4 ∧ k' < 4 ∧ ∃ p p', wcs.PixelOf (edge k) p ∧ wcs.PixelOf (edge k') p' ∧
            (r.info.numPatches.y - 1) * b₀.patchInnerDimensions.y < p'.y - p.y + 2)) := by
  subst hm
  refine ⟨rfl, fun i hi => ?_⟩
  obtain ⟨v1, v2⟩ := (C21_validate c).1.1 hv
  have hra : c.raList[i]? = some (c.raList[i]'(by omega)) := List.getElem?_eq_getElem (by omega)
  have hdec : c.decList[i]? = some (c.decList[i]'(by omega)) := List.getElem?_eq_getElem (by omega)
  have hrad : c.radiusList[i]? = some (c.radiusList[i]'hi) := List.getElem?_eq_getElem hi
  have I := (Inv.init _ b₀).after h
  refine ⟨_, _, _, hra, hdec, hrad, fun e he' => ?_, fun r hg => ?_⟩
  · have hfr : fresh (DiscreteSkyMap.cachingDef env ops g c) b₀ (i : Int) = .error e := by
      unfold fresh DiscreteSkyMap.cachingDef
      simp only [pyGetItem_nat hra, pyGetItem_nat hdec, he', bind, Except.bind]
    rcases getItem_spec I (i : Int) with ⟨h1, -⟩ | ⟨k, hk, hk', ⟨r, hr, -⟩ | ⟨-, e', h3, h4⟩ | ⟨-, t, b, h3, -⟩⟩
    · exact absurd ⟨by omega, by exact_mod_cast hi⟩ h1
    · obtain rfl : i = k := by omega
      obtain ⟨-, b', hf⟩ := I.info i r hr
      rw [hfr] at hf; simp at hf
    · obtain rfl : i = k := by omega
      rw [hfr] at h3
      obtain rfl := Except.error.inj h3
      exact h4
    · obtain rfl : i = k := by omega
      rw [hfr] at h3; simp at h3
  obtain ⟨k, hk, -, hc⟩ := cached_after_ok I hg
  obtain rfl : i = k := by omega
  have I' : Inv (DiscreteSkyMap.cachingDef env ops g c) b₀ s' := by
    have := I.getItem (i : Int); rw [hg] at this; exact this
  obtain ⟨-, b', hf⟩ := I'.info i r hc
  unfold fresh DiscreteSkyMap.cachingDef at hf
  obtain ⟨ctr, hctr⟩ : ∃ ctr, g.point c.raList[i] c.decList[i] = .ok ctr := by
    cases hp : g.point c.raList[i] c.decList[i] with
    | ok ctr => exact ⟨ctr, rfl⟩
    | error e => simp [pyGetItem_nat hra, pyGetItem_nat hdec, hp, bind, Except.bind] at hf
  simp only [hctr, pyGetItem_nat hra, pyGetItem_nat hdec, pyGetItem_nat hrad, bind, Except.bind, pure, Except.pure] at hf
  have e := TractInfo.new_inv hf
  obtain ⟨mb, bbox, n, -, -, e⟩ := e
  refine ⟨ctr, hctr, by rw [e], by rw [e], by rw [e], ?_⟩
  refine ⟨fun k hk hp => ?_, fun hne => ?_⟩
  · refine C12_covers_sample_points he hf hx hy _ ?_ hp
    rw [C12_sample_points]
    exact Or.inr (Or.inr ⟨_, rfl, k, hk, rfl⟩)
  · have key : ∀ d, d ∈ samplePoints ops (⟨(i : Int), ctr,
        .explicit (g.angle c.radiusList[i]), g.angle c.tractOverlap, g.makeWcs ctr,
        none⟩ : TractArgs Sky K) → ∃ k : Nat, k < 4 ∧ d = ops.offset ctr (90 * (k : K))
          (g.angle c.radiusList[i] + g.angle c.tractOverlap) := by
      intro d hd
      rw [C12_sample_points] at hd
      rcases hd with ⟨l, hl, -⟩ | ⟨l, hl, -⟩ | ⟨rr, hl, k, hk, e⟩
      · simp at hl
      · simp at hl
      · simp only [TractShape.explicit.injEq] at hl
        subst hl
        exact ⟨k, hk, e⟩
    obtain ⟨⟨d1, m1, d2, m2, p1, p2, w1, w2, w3⟩, ⟨d3, m3, d4, m4, p3, p4, w4, w5, w6⟩⟩ :=
      C12_not_too_large he hf hx hy hne
    obtain ⟨k1, l1, rfl⟩ := key _ m1
    obtain ⟨k2, l2, rfl⟩ := key _ m2
    obtain ⟨k3, l3, rfl⟩ := key _ m3
    obtain ⟨k4, l4, rfl⟩ := key _ m4
    exact ⟨⟨k1, k2, l1, l2, p1, p2, w1, w2, w3⟩, ⟨k3, k4, l3, l4, p3, p4, w4, w5, w6⟩⟩

/-- C21, hence also C18 and C19 apply: the ids are the indices, for every configuration. -/
theorem C21_ids (env : FloatEnv K) (ops : SkyOps Sky K) (g : SkyGeom Sky K) (c : DiscreteConfig K) (i : Int)
    (a : TractArgs Sky K) (h : (DiscreteSkyMap.cachingDef env ops g c).tractArgs i = .ok a) : a.id = i := by
  simp only [DiscreteSkyMap.cachingDef, bind, Except.bind, pure, Except.pure] at h
  split at h
  · simp at h
  split at h
  · simp at h
  split at h
  · simp at h
  split at h
  · simp at h
  simp only [Except.ok.injEq] at h
  rw [← h]

/-! ## Examples -/

/-- The access history [1, 5, 0, -1] of the unequal map returns tracts 1 and 0 and raises twice; the
objects are numbered in the order of creation. -/
example : ([1, 5, 0, -1].map fun i : Int =>
    (getItem Ex.unequalMap i (Ex.visit Ex.unequalMap [1, 0])).1.map fun r => (r.oid, r.info.id)) =
    [.ok (0, 1), .error .IndexError, .ok (1, 0), .error .IndexError] := by
  decide +kernel

example : (skyMapOps Ex.unequalMap).After (init Ex.unequalMap Ex.legacy) (Ex.visit Ex.unequalMap [1, 0, 7]) :=
  ⟨[1, 0, 7], rfl⟩

example : ∀ i a, Ex.unequalMap.tractArgs i = .ok a → a.id = i := C21_ids _ _ _ _

example : Ex.unequal.validate (.ok ()) = .ok () := by decide
example : DiscreteConfig.validate (.ok ()) (⟨[1, 2], [3], [4, 5], 0⟩ : DiscreteConfig ℚ) = .error .ValueError := by
  decide

/-- The uniformity hypothesis of `C20_uniform_partial` is met by a map of three tracts. -/
theorem Ex.equal_uniform : Ex.equalMap.Uniform Ex.legacy := by
  have key : ∀ k : Nat, k < 3 → ∀ r s, getItem Ex.equalMap (k : Int) (init Ex.equalMap Ex.legacy) = (.ok r, s) →
      r.info.numPatches = ⟨3, 4⟩ := by
    intro k hk r s h
    have e : ∀ k ∈ List.range 3, (getItem Ex.equalMap (k : Int) (init Ex.equalMap Ex.legacy)).1.map
        (fun r => r.info.numPatches) = .ok ⟨3, 4⟩ := by decide +kernel
    have := e k (List.mem_range.2 hk)
    rw [h] at this
    simpa [Except.map] using this
  intro i j r r' s s' h h'
  obtain ⟨k, rfl, hk, -⟩ := cached_after_ok (Inv.init _ _) h
  obtain ⟨k', rfl, hk', -⟩ := cached_after_ok (Inv.init _ _) h'
  have hk3 : Ex.equalMap.numTracts = 3 := rfl
  rw [key k (by omega) r s h, key k' (by omega) r' s' h']

end Skymap
