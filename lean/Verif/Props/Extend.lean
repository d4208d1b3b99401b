import Verif.Props.Search
import Verif.Props.Packer

/-!
# C93: appending tracts to a discrete sky map

`DiscreteSkyMap` takes its tracts from three lists of its configuration.  A configuration with more entries at the end of these lists has
the same tracts under the same ids, and further ones.
-/

set_option linter.unusedSectionVars false

namespace Skymap
open CachingSkyMap

/-! ## Specification -/

/-- `c'` is the configuration `c` with more positions at the end; `c` has as many right ascensions and declinations as radii. -/
structure DiscreteConfig.ExtendedTo {K : Type} (c c' : DiscreteConfig K) : Prop where
  ra : c.raList <+: c'.raList
  dec : c.decList <+: c'.decList
  radius : c.radiusList <+: c'.radiusList
  overlap : c.tractOverlap = c'.tractOverlap
  lenRa : c.raList.length = c.radiusList.length
  lenDec : c.decList.length = c.radiusList.length

/-! ## Lemmas -/

theorem pyGetItem_prefix {α : Type} {l l' : List α} (h : l <+: l') {i : Nat} (hi : i < l.length) :
    pyGetItem l' (i : Int) = pyGetItem l (i : Int) := by
  obtain ⟨r, rfl⟩ := h
  rw [pyGetItem_nat (List.getElem?_eq_getElem hi), pyGetItem_nat]
  rw [List.getElem?_append_left hi]
  exact List.getElem?_eq_getElem hi

section
variable {Sky K : Type} [Field K] [LinearOrder K] [FloorRing K]
variable {env : FloatEnv K} {ops : SkyOps Sky K} {g : SkyGeom Sky K} {c c' : DiscreteConfig K} {b₀ : TractBuilder}

theorem extended_len (E : c.ExtendedTo c') : (DiscreteSkyMap.cachingDef env ops g c).numTracts ≤
    (DiscreteSkyMap.cachingDef env ops g c').numTracts := E.radius.length_le

theorem extended_args (E : c.ExtendedTo c') {i : Nat} (hi : i < c.radiusList.length) :
    (DiscreteSkyMap.cachingDef env ops g c').tractArgs i = (DiscreteSkyMap.cachingDef env ops g c).tractArgs i := by
  unfold DiscreteSkyMap.cachingDef
  dsimp only
  rw [pyGetItem_prefix E.ra (by rw [E.lenRa]; exact hi), pyGetItem_prefix E.dec (by rw [E.lenDec]; exact hi),
    pyGetItem_prefix E.radius hi, E.overlap]

/-- The first access to a tract of the two sky maps. -/
theorem extended_first (E : c.ExtendedTo c') {i : Nat} (hi : i < c.radiusList.length) :
    (getItem (DiscreteSkyMap.cachingDef env ops g c') i (init (DiscreteSkyMap.cachingDef env ops g c') b₀)).1 =
        (getItem (DiscreteSkyMap.cachingDef env ops g c) i (init (DiscreteSkyMap.cachingDef env ops g c) b₀)).1 ∧
      (getItem (DiscreteSkyMap.cachingDef env ops g c') i (init (DiscreteSkyMap.cachingDef env ops g c') b₀)).2.builder =
        (getItem (DiscreteSkyMap.cachingDef env ops g c) i (init (DiscreteSkyMap.cachingDef env ops g c) b₀)).2.builder := by
  have hn : i < (DiscreteSkyMap.cachingDef env ops g c).numTracts := hi
  have hn' : i < (DiscreteSkyMap.cachingDef env ops g c').numTracts := lt_of_lt_of_le hn E.radius.length_le
  have z : (init (DiscreteSkyMap.cachingDef env ops g c) b₀).cache[i]? = some none := by
    unfold init; rw [List.getElem?_replicate, if_pos hn]
  have z' : (init (DiscreteSkyMap.cachingDef env ops g c') b₀).cache[i]? = some none := by
    unfold init; rw [List.getElem?_replicate, if_pos hn']
  rw [getItem_gen (Inv.init _ _) z, getItem_gen (Inv.init _ _) z']
  have hf : fresh (DiscreteSkyMap.cachingDef env ops g c') b₀ i = fresh (DiscreteSkyMap.cachingDef env ops g c) b₀ i := by
    unfold fresh
    rw [extended_args E hi]
    rfl
  rw [hf]
  cases fresh (DiscreteSkyMap.cachingDef env ops g c) b₀ i with
  | error e => exact ⟨rfl, rfl⟩
  | ok r => exact ⟨rfl, rfl⟩

/-! ## Theorems -/

section
variable (E : c.ExtendedTo c') {s s' : MapState Sky K}
  (h : (skyMapOps (DiscreteSkyMap.cachingDef env ops g c)).After (init (DiscreteSkyMap.cachingDef env ops g c) b₀) s)
  (h' : (skyMapOps (DiscreteSkyMap.cachingDef env ops g c')).After (init (DiscreteSkyMap.cachingDef env ops g c') b₀) s')
include E h h'

/-- C93: at any points of their histories the sky map and the extended one give the same tract for every index of the former, or raise the
same exception. -/
theorem C93_tracts (i : Int) (hi : 0 ≤ i ∧ i < (skyMapOps (DiscreteSkyMap.cachingDef env ops g c)).len) :
    (getItem (DiscreteSkyMap.cachingDef env ops g c) i s).1.map TractRef.info =
      (getItem (DiscreteSkyMap.cachingDef env ops g c') i s').1.map TractRef.info := by
  rw [C19_history_independent h, C19_history_independent h']
  obtain ⟨k, rfl⟩ := Int.eq_ofNat_of_zero_le hi.1
  have hk : k < c.radiusList.length := by
    have := hi.2
    change (k : Int) < (c.radiusList.length : Int) at this
    omega
  rw [(extended_first E hk).1]

/-- C93: `findTract` of the extended sky map finds the tract that the sky map finds, unless one of the new tracts has its centre strictly
nearer: then it finds a new tract. -/
theorem C93_findTract (p : Sky) (r r' : TractRef Sky K) (s₁ s₁' : MapState Sky K)
    (hr : BaseSkyMap.findTract ops (skyMapOps (DiscreteSkyMap.cachingDef env ops g c)) p s = (.ok r, s₁))
    (hr' : BaseSkyMap.findTract ops (skyMapOps (DiscreteSkyMap.cachingDef env ops g c')) p s' = (.ok r', s₁')) :
    r'.info = r.info ∨ (c.radiusList.length ≤ r'.info.id ∧
      ops.separation p r'.info.ctrCoord < ops.separation p r.info.ctrCoord) := by
  have P := permanent_of_reachable h
  have P' := permanent_of_reachable h'
  have a1 : (skyMapOps (DiscreteSkyMap.cachingDef env ops g c)).After s s₁ := by
    have := (findTract_finder ops env P).1.only p s
    rw [hr] at this; exact this
  have a1' : (skyMapOps (DiscreteSkyMap.cachingDef env ops g c')).After s' s₁' := by
    have := (findTract_finder ops env P').1.only p s'
    rw [hr'] at this; exact this
  obtain ⟨k, hk, hg, hmin⟩ := C22_nearest ops P p r hr
  obtain ⟨k', hk', hg', hmin'⟩ := C22_nearest ops P' p r' hr'
  have same := C93_tracts E (h.trans a1) (h'.trans a1')
  change k < c.radiusList.length at hk
  have hkk : k < (skyMapOps (DiscreteSkyMap.cachingDef env ops g c')).len :=
    lt_of_lt_of_le hk E.radius.length_le
  -- the old tract in the extended sky map
  obtain ⟨q, hq, dq⟩ := hmin' k hkk
  have e1 : q.info = r.info := by
    have := same k ⟨by omega, by change (k : Int) < (c.radiusList.length : Int); omega⟩
    rw [show getItem (DiscreteSkyMap.cachingDef env ops g c) k s₁ = _ from hg,
      show getItem (DiscreteSkyMap.cachingDef env ops g c') k s₁' = _ from hq] at this
    simp only [Except.map, Except.ok.injEq] at this
    exact this.symm
  rw [e1] at dq
  by_cases hn : k' < c.radiusList.length
  · left
    obtain ⟨q', hq', dq'⟩ := hmin k' hn
    have e2 : q'.info = r'.info := by
      have := same k' ⟨by omega, by change (k' : Int) < (c.radiusList.length : Int); omega⟩
      rw [show getItem (DiscreteSkyMap.cachingDef env ops g c) k' s₁ = _ from hq',
        show getItem (DiscreteSkyMap.cachingDef env ops g c') k' s₁' = _ from hg'] at this
      simp only [Except.map, Except.ok.injEq] at this
      exact this
    rw [e2] at dq'
    have : k = k' := by
      rcases dq with d | ⟨d, d1⟩ <;> rcases dq' with d' | ⟨d', d1'⟩
      · exact absurd d (not_lt.2 d'.le)
      · rw [d'] at d; exact absurd d (lt_irrefl _)
      · rw [d] at d'; exact absurd d' (lt_irrefl _)
      · omega
    subst this
    rw [hq] at hg'
    simp only [Prod.mk.injEq, Except.ok.injEq] at hg'
    rw [← hg'.1, e1]
  · right
    have hid : r'.info.id = k' := by
      refine (C18_permanent ?_ (h'.trans a1') (k' : Int) r' (s' := s₁') hg').2.1
      intro i a ha
      unfold DiscreteSkyMap.cachingDef at ha
      dsimp only at ha
      revert ha
      cases pyGetItem c'.raList i <;> cases pyGetItem c'.decList i <;> try (intro ha; simp [bind, Except.bind] at ha; done)
      rename_i x y
      simp only [bind, Except.bind]
      cases g.point x y <;> cases pyGetItem c'.radiusList i <;> intro ha <;> simp [pure, Except.pure] at ha
      rw [← ha]
    refine ⟨by rw [hid]; omega, ?_⟩
    rcases dq with d | ⟨-, d⟩
    · exact d
    · omega

end

/-- C93: the patches of a tract: if just this tract was accessed in both sky maps, every lookup gives the same. -/
theorem C93_patches (E : c.ExtendedTo c') {i : Int} (hi : 0 ≤ i ∧ i < (skyMapOps (DiscreteSkyMap.cachingDef env ops g c)).len)
    {r r' : TractRef Sky K} {s s' : MapState Sky K}
    (hr : getItem (DiscreteSkyMap.cachingDef env ops g c) i (init (DiscreteSkyMap.cachingDef env ops g c) b₀) = (.ok r, s))
    (hr' : getItem (DiscreteSkyMap.cachingDef env ops g c') i (init (DiscreteSkyMap.cachingDef env ops g c') b₀) = (.ok r', s')) :
    (∀ index, r'.info.getPatchInfo s'.builder index = r.info.getPatchInfo s.builder index) ∧
    (r'.info.iter s'.builder = r.info.iter s.builder) ∧
    (∀ p, r'.info.findPatch env s'.builder p = r.info.findPatch env s.builder p) ∧
    (∀ l, r'.info.findPatchList env s'.builder l = r.info.findPatchList env s.builder l) := by
  obtain ⟨k, rfl⟩ := Int.eq_ofNat_of_zero_le hi.1
  have hk : k < c.radiusList.length := by
    have := hi.2
    change (k : Int) < (c.radiusList.length : Int) at this
    omega
  obtain ⟨e1, e2⟩ := extended_first (env := env) (ops := ops) (g := g) (b₀ := b₀) E hk
  rw [hr, hr'] at e1 e2
  simp only [Except.ok.injEq] at e1
  dsimp only at e2
  rw [e1, e2]
  exact ⟨fun _ => rfl, rfl, fun _ => rfl, fun _ => rfl⟩

/-- C93: and at any points of the histories, if all tracts of the extended sky map have the same number of patches. -/
theorem C93_patches_uniform (E : c.ExtendedTo c') (hx : 0 < b₀.patchInnerDimensions.x) (hy : 0 < b₀.patchInnerDimensions.y)
    (hu : (DiscreteSkyMap.cachingDef env ops g c').Uniform b₀) {s₁ s₂ s₃ s₁' s₂' s₃' : MapState Sky K}
    (h : (skyMapOps (DiscreteSkyMap.cachingDef env ops g c)).After (init (DiscreteSkyMap.cachingDef env ops g c) b₀) s₁)
    (h' : (skyMapOps (DiscreteSkyMap.cachingDef env ops g c')).After (init (DiscreteSkyMap.cachingDef env ops g c') b₀) s₁')
    {i : Int} (hi : 0 ≤ i ∧ i < (skyMapOps (DiscreteSkyMap.cachingDef env ops g c)).len) {r r' : TractRef Sky K}
    (hr : getItem (DiscreteSkyMap.cachingDef env ops g c) i s₁ = (.ok r, s₂))
    (hr' : getItem (DiscreteSkyMap.cachingDef env ops g c') i s₁' = (.ok r', s₂'))
    (h3 : (skyMapOps (DiscreteSkyMap.cachingDef env ops g c)).After s₂ s₃)
    (h3' : (skyMapOps (DiscreteSkyMap.cachingDef env ops g c')).After s₂' s₃') :
    (∀ index, r'.info.getPatchInfo s₃'.builder index = r.info.getPatchInfo s₃.builder index) ∧
    (r'.info.iter s₃'.builder = r.info.iter s₃.builder) ∧
    (∀ p, r'.info.findPatch env s₃'.builder p = r.info.findPatch env s₃.builder p) ∧
    (∀ l, r'.info.findPatchList env s₃'.builder l = r.info.findPatchList env s₃.builder l) := by
  have hu0 : (DiscreteSkyMap.cachingDef env ops g c).Uniform b₀ := by
    intro i j a b sa sb ha hb
    have out : ∀ (i : Int) a sa, getItem (DiscreteSkyMap.cachingDef env ops g c) i
        (init (DiscreteSkyMap.cachingDef env ops g c) b₀) = (.ok a, sa) → ∃ k : Nat, i = k ∧ k < c.radiusList.length := by
      intro i a sa ha
      obtain ⟨k, rfl, hk, -⟩ := fresh_of_getItem (s := init _ b₀) ⟨[], rfl⟩ ha
      exact ⟨k, rfl, hk⟩
    obtain ⟨k, rfl, hk⟩ := out i a sa ha
    obtain ⟨l, rfl, hl⟩ := out j b sb hb
    have e1 := (extended_first (env := env) (ops := ops) (g := g) (b₀ := b₀) E hk).1
    have e2 := (extended_first (env := env) (ops := ops) (g := g) (b₀ := b₀) E hl).1
    rw [ha] at e1
    rw [hb] at e2
    dsimp only at e1 e2
    exact hu k l a b _ _ (Prod.ext e1 rfl) (Prod.ext e2 rfl)
  obtain ⟨k, rfl, hk, b, -, -, f⟩ := fresh_of_getItem h hr
  obtain ⟨k', hkk, hk', b', -, -, f'⟩ := fresh_of_getItem h' hr'
  have hp := C93_patches (b₀ := b₀) E hi (Prod.ext f rfl) (Prod.ext f' rfl)
  obtain ⟨p1, p2, p3, p4, -⟩ := C20_uniform_partial hx hy hu0 h _ r hr s₃ h3 _ _ (Prod.ext f rfl)
  obtain ⟨q1, q2, q3, q4, -⟩ := C20_uniform_partial hx hy hu h' _ r' hr' s₃' h3' _ _ (Prod.ext f' rfl)
  refine ⟨fun x => ?_, ?_, fun x => ?_, fun x => ?_⟩
  · rw [p1, q1]; exact hp.1 x
  · rw [p2, q2]; exact hp.2.1
  · exact (q3 x).trans ((hp.2.2.1 x).trans (p3 x).symm)
  · exact (q4 x).trans ((hp.2.2.2 x).trans (p4 x).symm)

end

/-! ## Packed data IDs -/

/-- C93: a packer without bands, made for more tracts, packs every data ID that the other one packs into the same integer (`d'` names the
tract and patch of `d` in the extended sky map, which has another name). -/
theorem C93_packed (p p' : Packer) (d d' : DataId) (n : Int) (hb : p.nBands = 0) (hb' : p'.nBands = 0)
    (hp : p'.nPatches = p.nPatches) (ht : p.nTracts ≤ p'.nTracts) (hs : d'.skymap = p'.fixed.skymap)
    (h1 : d'.tract = d.tract) (h2 : d'.patch = d.patch) (h : p.pack d = .ok n) : p'.pack d' = .ok n := by
  rw [pack_iff] at h ⊢
  obtain ⟨-, a, b, ⟨-, e⟩ | ⟨hn, -⟩⟩ := h
  · rw [hp, h1, h2]
    exact ⟨hs, a, by omega, Or.inl ⟨hb', e⟩⟩
  · exact absurd hb hn

/-- C93: with bands the integers change, except for the first band: a data ID whose band has another number than 0 is packed into another
integer as soon as there are more tracts. -/
theorem C93_packed_bands (p p' : Packer) (d d' : DataId) (n n' : Int) (hb : p.nBands ≠ 0) (hb' : p'.nBands ≠ 0)
    (hp : p'.nPatches = p.nPatches) (hpos : 0 < p.nPatches) (ht : p.nTracts < p'.nTracts) (hbd : p'.bands = p.bands)
    (h1 : d'.tract = d.tract) (h2 : d'.patch = d.patch) (h3 : d'.band = d.band) (h : p.pack d = .ok n) (h' : p'.pack d' = .ok n') :
    n = n' ↔ p.bands.get d.band = some 0 := by
  have val : ∀ (p : Packer) (d : DataId) (n : Int), p.nBands ≠ 0 → p.pack d = .ok n →
      ∃ k, p.bands.get d.band = some k ∧ n = d.patch + p.nPatches * d.tract + k * p.nPatches * p.nTracts := by
    intro p d n hb h
    rw [pack_iff] at h
    obtain ⟨-, -, -, ⟨hz, -⟩ | ⟨-, b, k, e, f, -, rfl⟩⟩ := h
    · exact absurd hz hb
    · exact ⟨k, by rw [e]; exact f, rfl⟩
  obtain ⟨k, e1, rfl⟩ := val p d n hb h
  obtain ⟨k', e2, rfl⟩ := val p' d' n' hb' h'
  rw [hbd, h3, e1, Option.some.injEq] at e2
  subst e2
  rw [e1, hp, h1, h2, Option.some.injEq]
  constructor
  · intro e
    have e' : k * p.nPatches * (p'.nTracts - p.nTracts) = 0 := by linarith
    rcases mul_eq_zero.1 e' with e' | e'
    · rcases mul_eq_zero.1 e' with e' | e'
      · exact e'
      · omega
    · omega
  · rintro rfl
    simp

/-! ## Witnesses -/

/-- `Ex.unequal` with a third tract. -/
def Ex.longer : DiscreteConfig ℚ := ⟨[20, 35, 24], [30, 30, 30], [5, 11, 5], 0⟩

example : Ex.unequal.ExtendedTo Ex.longer :=
  ⟨⟨[24], rfl⟩, ⟨[30], rfl⟩, ⟨[5], rfl⟩, rfl, rfl, rfl⟩

/-- Both cases of `C93_findTract`: at 19 the old tract 0, at 23 the new tract 2 instead of tract 0. -/
example :
    ([⟨19, 30⟩, ⟨23, 30⟩].map fun c : P2 ℚ =>
      ((BaseSkyMap.findTract Ex.ops (skyMapOps Ex.unequalMap) c (Ex.start Ex.unequalMap)).1.map fun r => r.info.id,
       (BaseSkyMap.findTract Ex.ops (skyMapOps (DiscreteSkyMap.cachingDef Ex.env Ex.ops Ex.geom Ex.longer)) c
          (init (DiscreteSkyMap.cachingDef Ex.env Ex.ops Ex.geom Ex.longer) Ex.legacy)).1.map fun r => r.info.id)) =
      [(.ok 0, .ok 0), (.ok 0, .ok 2)] := by
  decide +kernel

/-- The hypotheses of `C93_patches_uniform`: the first two tracts of `Ex.equal`. -/
example : (⟨[20, 29], [30, 31], [5, 5], 0⟩ : DiscreteConfig ℚ).ExtendedTo Ex.equal ∧
    (DiscreteSkyMap.cachingDef Ex.env Ex.ops Ex.geom Ex.equal).Uniform Ex.legacy :=
  ⟨⟨⟨[20], rfl⟩, ⟨[30], rfl⟩, ⟨[5], rfl⟩, rfl, rfl, rfl⟩, Ex.equal_uniform⟩

/-- Packers for 5 and for 7 tracts of 12 patches. -/
def Ex.packer5 (nb : Int) : Packer :=
  ⟨⟨"a", none⟩, decide (nb ≠ 0), [(some "g", 0), (some "r", 1)], nb, 5, 12⟩
def Ex.packer7 (nb : Int) : Packer := { Ex.packer5 nb with fixed := ⟨"b", none⟩, nTracts := 7 }

example : (Ex.packer5 0).pack ⟨"a", 4, 3, none⟩ = .ok 51 ∧ (Ex.packer7 0).pack ⟨"b", 4, 3, none⟩ = .ok 51 ∧
    (Ex.packer5 2).pack ⟨"a", 4, 3, some "r"⟩ = .ok 111 ∧ (Ex.packer7 2).pack ⟨"b", 4, 3, some "r"⟩ = .ok 135 := by
  decide

end Skymap
