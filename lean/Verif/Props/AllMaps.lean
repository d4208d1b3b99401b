import Verif.Model.AllMaps
import Verif.Props.Sha1
import Verif.Props.RingsV0
import Verif.Lemmas.Generate

/-! # C39: do equal sky maps have the same tracts? -/

namespace Skymap

/-- Two sky map objects have the same tracts: as many, and at every index the same contents or the same exception. -/
def SkyMapObj.SameTracts {Sky K : Type} [Field K] [LinearOrder K] [FloorRing K] (o o' : SkyMapObj Sky K) : Prop :=
  o.len = o'.len ∧ ∀ i, (o.getItem i).1.map TractRef.info = (o'.getItem i).1.map TractRef.info

namespace AllMaps
variable {H : Bytes → Bytes} {L : SkyLib} {cls₁ cls₂ cls : MapClass} {config₁ config₂ config : SkyMapConfig Dbl}
variable {version₁ version₂ : Version} {o₁ o₂ o₁' o₂' : SkyMapObj (SpherePoint ℝ) ℝ}

/-- The tracts depend on the class, the common configuration, and for rings on the version. -/
theorem tracts_same (ho : config₁.tractOverlap = config₂.tractOverlap) (hs : config₁.pixelScale = config₂.pixelScale)
    (hp : config₁.projection = config₂.projection) (hr : config₁.rotation = config₂.rotation)
    (hv : (∃ n s, cls = .rings n s) → version₁ = version₂) : L.tracts cls config₁ version₁ = L.tracts cls config₂ version₂ := by
  have hw : L.wcs config₁ = L.wcs config₂ := by unfold SkyLib.wcs; rw [hs, hp, hr]
  cases cls with
  | rings n s =>
    obtain rfl := hv ⟨_, _, rfl⟩
    simp only [SkyLib.tracts, hw, ho]
  | _ => simp only [SkyLib.tracts, hw, ho]

/-- Constructors with the same class, configuration and version give the same tracts. -/
theorem new_same (h₁ : SkyMapObj.new L.impl cls₁ config₁ version₁ = .ok o₁) (h₂ : SkyMapObj.new L.impl cls₂ config₂ version₂ = .ok o₂)
    (hs : o₁.hashed.Same o₂.hashed) (hv : (∃ n s, cls₁ = .rings n s) → version₁ = version₂) : o₁.tracts = o₂.tracts := by
  have e₁ := (new_spec h₁).1
  have e₂ := (new_spec h₂).1
  rw [e₁, e₂] at hs
  obtain ⟨s1, s2, s3, s4, s5, s6, s7, s8⟩ := hs
  dsimp only at s1 s2 s3 s4 s5 s6 s7 s8
  subst s1
  have ht : L.impl.tracts cls₁ { config₁ with frozen := true } (SkyMapObj.versionOf cls₁ version₁) =
      L.impl.tracts cls₁ { config₂ with frozen := true } (SkyMapObj.versionOf cls₁ version₂) :=
    tracts_same s5 s6 s7 s8 fun hr => by rw [hv hr]
  have hb : ({ config₁ with frozen := true } : SkyMapConfig Dbl).makeBuilder =
      ({ config₂ with frozen := true } : SkyMapConfig Dbl).makeBuilder := by
    unfold SkyMapConfig.makeBuilder
    dsimp only
    rw [← s2]
    cases hn : config₁.builderName with
    | legacy => dsimp only; rw [s3 hn]
    | cells => dsimp only; rw [s4 hn]
  unfold SkyMapObj.new BaseSkyMap.init at h₁ h₂
  dsimp only at h₁ h₂
  cases hw : wcsFactoryCheck config₂.projection with
  | error e => rw [hw] at h₂; simp at h₂
  | ok u =>
    have hw1 : wcsFactoryCheck config₁.projection = .ok u := by rw [s7]; exact hw
    rw [hw1] at h₁
    rw [hw] at h₂
    dsimp only at h₁ h₂
    rw [hb] at h₁
    cases hc : ({ config₂ with frozen := true } : SkyMapConfig Dbl).makeBuilder with
    | error e => rw [hc] at h₁; simp at h₁
    | ok b =>
      rw [hc] at h₁ h₂
      dsimp only at h₁ h₂
      rw [ht] at h₁
      cases hx : L.impl.tracts cls₁ { config₂ with frozen := true } (SkyMapObj.versionOf cls₁ version₂) with
      | error e => rw [hx] at h₁; simp at h₁
      | ok y =>
        rw [hx] at h₁ h₂
        cases y with
        | inl m =>
          dsimp only at h₁ h₂
          rw [← Except.ok.inj h₁, ← Except.ok.inj h₂]
        | inr l =>
          dsimp only at h₁ h₂
          cases hz : EagerSkyMap.buildAll L.impl.env L.impl.ops l 0 b with
          | error e => rw [hz] at h₁; simp at h₁
          | ok p =>
            rw [hz] at h₁ h₂
            dsimp only at h₁ h₂
            rw [← Except.ok.inj h₁, ← Except.ok.inj h₂]

/-- A history does not change the tracts. -/
theorem history_same (h : SkyMapObj.new L.impl cls config version₁ = .ok o₁) (hh : MapHistory H o₁ o₁') : o₁'.SameTracts o₁ := by
  obtain ⟨e, -, hcach⟩ := new_spec h
  have I := histInv (by rw [e]) (new_cacheOk h H) hh
  have ht := I.tracts
  unfold SkyMapObj.SameTracts SkyMapObj.len SkyMapObj.getItem
  cases hto : o₁.tracts <;> cases hto' : o₁'.tracts <;> rw [hto, hto'] at ht
  · rename_i m s m' s'
    obtain ⟨rfl, ha⟩ := ht
    obtain ⟨b, rfl⟩ := hcach m s hto
    exact ⟨rfl, fun i => C19_history_independent ha i⟩
  · exact ht.elim
  · exact ht.elim
  · exact ⟨by rw [ht.1], fun i => by rw [ht.1]⟩

/-- C39, in part: if two sky maps of the classes of /repo compare equal, at any point of their lives, then they have the same tracts,
unless SHA-1 has a collision.  Missing, because it is false (`C39_fails_rings`): two rings maps of different versions. -/
theorem C39_same_tracts_partial (H : Bytes → Bytes) (L : SkyLib)
    (h₁ : SkyMapObj.new L.impl cls₁ config₁ version₁ = .ok o₁) (h₂ : SkyMapObj.new L.impl cls₂ config₂ version₂ = .ok o₂)
    (hh₁ : MapHistory H o₁ o₁') (hh₂ : MapHistory H o₂ o₂')
    (hv : (∃ n s, cls₁ = .rings n s) → version₁ = version₂)
    (heq : (HashedMap.eq H (o₁'.hashed, o₂'.hashed)).1 = .ok true) :
    o₁'.SameTracts o₂' ∨ ∃ a b : Bytes, a ≠ b ∧ H a = H b := by
  rw [C41_equality_never_changes H L.impl _ _ _ _ _ _ _ _ _ _ h₁ h₂ hh₁ hh₂] at heq
  rcases C38_same_of_equal H _ _ (new_spec h₁).2.1 (new_spec h₂).2.1 (new_cacheOk h₁ H) (new_cacheOk h₂ H) heq with hs | hc
  · left
    have e := new_same h₁ h₂ hs hv
    have a := history_same h₁ hh₁
    have b := history_same h₂ hh₂
    have c : o₁.SameTracts o₂ := by
      unfold SkyMapObj.SameTracts SkyMapObj.len SkyMapObj.getItem
      rw [e]
      refine ⟨rfl, fun i => ?_⟩
      cases o₂.tracts <;> rfl
    exact ⟨a.1.trans (c.1.trans b.1.symm), fun i => (a.2 i).trans ((c.2 i).trans (b.2 i).symm)⟩
  · exact .inr hc

/-- The tracts of a rings map. -/
theorem new_rings_any {n : Int} {s : Dbl} (hn : 1 ≤ n) {v : Int} {o : SkyMapObj (SpherePoint ℝ) ℝ}
    (h : SkyMapObj.new L.impl (.rings n s) config (.int v) = .ok o) :
    ∃ R b, Rings.new L.arith ⟨n.toNat, L.val s, L.val config.tractOverlap⟩ v = .ok R ∧
      ({ config with frozen := true } : SkyMapConfig Dbl).makeBuilder = .ok b ∧
      o.tracts = .caching (R.cachingDef L.arith L.env L.ops (L.wcs { config with frozen := true }))
        (CachingSkyMap.init (R.cachingDef L.arith L.env L.ops (L.wcs { config with frozen := true })) b) := by
  unfold SkyMapObj.new BaseSkyMap.init at h
  dsimp only at h
  split at h
  · simp at h
  · rename_i b c hb
    split at hb
    · simp at hb
    have hb1 := congrArg Prod.fst hb
    obtain ⟨-, rfl⟩ := Prod.mk.inj hb
    have hx : L.impl.tracts (.rings n s) { config with frozen := true } (SkyMapObj.versionOf (.rings n s) (.int v)) =
        (Rings.new L.arith ⟨n.toNat, L.val s, L.val config.tractOverlap⟩ v).map fun R =>
          .inl (R.cachingDef L.arith L.env L.ops (L.wcs { config with frozen := true })) := by
      simp only [SkyLib.impl, SkyLib.tracts, SkyMapObj.versionOf, MapClass.isCaching, if_true]
      rw [if_neg (by omega)]
    rw [hx] at h
    cases hR : Rings.new L.arith ⟨n.toNat, L.val s, L.val config.tractOverlap⟩ v with
    | error e => rw [hR] at h; simp [Except.map] at h
    | ok R =>
      rw [hR] at h
      simp only [Except.map, Except.ok.injEq] at h
      exact ⟨R, b, rfl, hb1, by rw [← h]⟩

theorem new_rings (hA : L.arith = FloatArith.exact) {n : Int} {s : Dbl} (hn : 1 ≤ n) {v : Int} {o : SkyMapObj (SpherePoint ℝ) ℝ}
    (h : SkyMapObj.new L.impl (.rings n s) config (.int v) = .ok o) :
    ∃ R b, Rings.new FloatArith.exact ⟨n.toNat, L.val s, L.val config.tractOverlap⟩ v = .ok R ∧
      ({ config with frozen := true } : SkyMapConfig Dbl).makeBuilder = .ok b ∧
      o.tracts = .caching (R.cachingDef FloatArith.exact L.env L.ops (L.wcs { config with frozen := true }))
        (CachingSkyMap.init (R.cachingDef FloatArith.exact L.env L.ops (L.wcs { config with frozen := true })) b) := by
  rw [← hA]
  exact new_rings_any hn h

/-- The centre of a tract that a rings map gives. -/
theorem rings_item_center {Q : Rings ℝ} {bb : TractBuilder} {o x : SkyMapObj (SpherePoint ℝ) ℝ} {i : Int} {r : TractRef (SpherePoint ℝ) ℝ}
    (ht : o.tracts = .caching (Q.cachingDef L.arith L.env L.ops (L.wcs { config with frozen := true }))
      (CachingSkyMap.init (Q.cachingDef L.arith L.env L.ops (L.wcs { config with frozen := true })) bb))
    (hg : o.getItem i = (.ok r, x)) : 0 ≤ i ∧ i < Q.numTracts.toNat ∧ Q.center L.arith i = .ok r.info.ctrCoord := by
  unfold SkyMapObj.getItem at hg
  rw [ht] at hg
  dsimp only at hg
  obtain ⟨hg1, -⟩ := Prod.mk.inj hg
  have hg2 : ∃ s', CachingSkyMap.getItem (Q.cachingDef L.arith L.env L.ops (L.wcs { config with frozen := true })) i
      (CachingSkyMap.init (Q.cachingDef L.arith L.env L.ops (L.wcs { config with frozen := true })) bb) = (.ok r, s') :=
    ⟨_, Prod.ext hg1 rfl⟩
  obtain ⟨s', hg2⟩ := hg2
  obtain ⟨k, rfl, hk, hc⟩ := CachingSkyMap.cached_after_ok (CachingSkyMap.Inv.init _ bb) hg2
  have I' := (CachingSkyMap.Inv.init (Q.cachingDef L.arith L.env L.ops (L.wcs { config with frozen := true })) bb).getItem (k : Int)
  rw [hg2] at I'
  obtain ⟨-, b', hf⟩ := I'.info k r hc
  refine ⟨by omega, by exact_mod_cast hk, ?_⟩
  unfold CachingSkyMap.fresh Rings.cachingDef at hf
  dsimp only at hf
  cases hcen : Q.center L.arith (k : Int) with
  | error e => rw [hcen] at hf; simp [bind, Except.bind] at hf
  | ok p =>
    rw [hcen] at hf
    cases hrng : Q.getRaDecRange L.arith (k : Int) with
    | error e => rw [hrng] at hf; simp [bind, Except.bind] at hf
    | ok g =>
      rw [hrng] at hf
      obtain ⟨g1, g2, g3, g4⟩ := g
      simp only [bind, Except.bind, pure, Except.pure] at hf
      obtain ⟨mb, bbox, nn, -, -, e⟩ := TractInfo.new_inv hf
      rw [e]

/-- C39 fails for rings maps: with two rings or more, a version 0 map and a version 1 map with the same configuration have the same
hash and compare equal, but the version 1 map has a tract, at some index, whose centre is not that of any tract of the version 0
map (exact arithmetic). -/
theorem C39_fails_rings (H : Bytes → Bytes) (L : SkyLib) (hA : L.arith = FloatArith.exact) {n : Int} {s : Dbl} (hn : 2 ≤ n)
    (h₁ : SkyMapObj.new L.impl (.rings n s) config (.int 0) = .ok o₁) (h₂ : SkyMapObj.new L.impl (.rings n s) config (.int 1) = .ok o₂)
    (hm : ∃ b, sha1Message (.rings n s) config = .ok b) :
    (HashedMap.eq H (o₁.hashed, o₂.hashed)).1 = .ok true ∧ o₁.len = o₂.len ∧
    ∃ j : Int, 0 ≤ j ∧ j < o₂.len ∧
      ∀ i r₁ r₂ o₁' o₂', o₁.getItem i = (.ok r₁, o₁') → o₂.getItem j = (.ok r₂, o₂') → r₁.info.ctrCoord ≠ r₂.info.ctrCoord := by
  have e₁ := (new_spec h₁).1
  have e₂ := (new_spec h₂).1
  have hs : o₁.hashed.Same o₂.hashed := by rw [e₁, e₂]; exact ⟨rfl, rfl, fun _ => rfl, fun _ => rfl, rfl, rfl, rfl, rfl⟩
  obtain ⟨m, hm⟩ := hm
  have heq : (HashedMap.eq H (o₁.hashed, o₂.hashed)).1 = .ok true := by
    rw [eq_val (new_cacheOk h₁ H) (new_cacheOk h₂ H), e₁, e₂]
    change (do
      let a ← sha1Message (.rings n s) config
      let b ← sha1Message (.rings n s) config
      return H a == H b) = _
    rw [hm]
    simp [bind, Except.bind, pure, Except.pure]
  refine ⟨heq, ?_⟩
  obtain ⟨R, b, hR, -, t₁⟩ := new_rings hA (by omega) h₁
  obtain ⟨R', b', hR', -, t₂⟩ := new_rings hA (by omega) h₂
  obtain ⟨v1, v2, v3, v4, v5⟩ := Rings.versions hR hR'
  obtain ⟨wf, w3⟩ := Rings.new_wf hR
  obtain ⟨f1, -⟩ := Rings.new_exact hR
  have hl1 : o₁.len = R.numTracts.toNat := by unfold SkyMapObj.len; rw [t₁]; rfl
  have hl2 : o₂.len = R'.numTracts.toNat := by unfold SkyMapObj.len; rw [t₂]; rfl
  refine ⟨by rw [hl1, hl2, v5], ?_⟩
  have hlen := wf.length
  rw [f1] at hlen
  dsimp only at hlen
  have h0 : R.ringNums[0]? = some (R.ringNums[0]'(by omega)) := List.getElem?_eq_getElem _
  have hlt : n.toNat - 1 < R.ringNums.length := by omega
  have hlast : R.ringNums[n.toNat - 1]? = some (R.ringNums[n.toNat - 1]'hlt) := List.getElem?_eq_getElem _
  obtain ⟨-, -, q⟩ := Rings.C29_quirk hR hR' (by dsimp only; omega) h0 hlast
  have hp3 := w3 _ (List.mem_of_getElem? hlast)
  have hbr := wf.block_range hlast (u := 0) (le_refl _) (by omega)
  refine ⟨1 + (R.ringNums.take (n.toNat - 1)).sum, by omega, by rw [hl2, ← v5]; omega, ?_⟩
  intro i r₁ r₂ x₁ x₂ g₁ g₂ hcc
  obtain ⟨i0, i1, c1⟩ := rings_item_center (by rw [hA]; exact t₁) g₁
  obtain ⟨-, -, c2⟩ := rings_item_center (by rw [hA]; exact t₂) g₂
  rw [hA] at c1 c2
  refine q i ⟨i0, by have := wf.numTracts_ge; omega⟩ ?_
  rw [c1, c2, hcc]

/-! ## The hypotheses can be met -/

/-- A library: exact arithmetic and a projection that is defined everywhere. -/
noncomputable def Ex.lib : SkyLib where
  arith := FloatArith.exact
  val x := (x.toNat : ℝ) / 2 ^ 62
  env := ⟨id, fun x => x + 1, ⟨0, 0⟩⟩
  ops := ⟨fun c b r => ⟨c.lon + b / 1000 * r, c.lat + r⟩, fun p q => |p.lon - q.lon| + |p.lat - q.lat|⟩
  tiny := 1 / 1000
  order := ⟨fun _ l => l.mergeSort, fun _ _ l => l.mergeSort⟩
  hp := ⟨fun _ _ _ => .ok [], fun _ _ i => .ok (i, 0), fun _ _ _ => 0⟩
  makeWcs _ _ _ := fun _ => ⟨fun c => .pix ⟨100 * c.lon, 100 * c.lat⟩, fun q => ⟨q.x / 100, q.y / 100⟩⟩

/-- Rings maps of 120 rings of both versions are constructed, with a hash; they compare equal but do not have the same tracts. -/
theorem Ex.rings_versions (H : Bytes → Bytes) : ∃ o₁ o₂, SkyMapObj.new Ex.lib.impl (.rings 120 0) Ex.hashConfig (.int 0) = .ok o₁ ∧
    SkyMapObj.new Ex.lib.impl (.rings 120 0) Ex.hashConfig (.int 1) = .ok o₂ ∧
    (HashedMap.eq H (o₁.hashed, o₂.hashed)).1 = .ok true ∧ ¬ o₁.SameTracts o₂ := by
  have h₁ : ∃ o, SkyMapObj.new Ex.lib.impl (.rings 120 0) Ex.hashConfig (.int 0) = .ok o := ⟨_, rfl⟩
  have h₂ : ∃ o, SkyMapObj.new Ex.lib.impl (.rings 120 0) Ex.hashConfig (.int 1) = .ok o := ⟨_, rfl⟩
  obtain ⟨o₁, h₁⟩ := h₁
  obtain ⟨o₂, h₂⟩ := h₂
  obtain ⟨a, b, j, j0, j1, d⟩ := C39_fails_rings H Ex.lib rfl (by norm_num) h₁ h₂ ⟨_, rfl⟩
  refine ⟨o₁, o₂, h₁, h₂, a, fun hs => ?_⟩
  obtain ⟨r, x, g⟩ : ∃ r x, o₂.getItem j = (.ok r, x) := by
    obtain ⟨R, b, hR, hb, t⟩ := new_rings (L := Ex.lib) rfl (by norm_num) h₂
    have hb' : b.patchInnerDimensions = ⟨3000, 3000⟩ := by
      have : (Except.ok b : PyM TractBuilder).map TractBuilder.patchInnerDimensions = .ok ⟨3000, 3000⟩ := by
        rw [← hb]; decide +kernel
      simpa [Except.map] using this
    have hl : o₂.len = R.numTracts.toNat := by unfold SkyMapObj.len; rw [t]; rfl
    obtain ⟨r, s', hg⟩ := Rings.generate (env := Ex.lib.env) (ops := Ex.lib.ops) (mk := Ex.lib.wcs { Ex.hashConfig with frozen := true })
      (b₀ := b) hR (by rw [hb']; decide) (by rw [hb']; decide) (fun _ _ _ => ⟨_, rfl⟩) (i := j) ⟨j0, by omega⟩ (.refl _)
    unfold SkyMapObj.getItem
    rw [t]
    dsimp only
    change CachingSkyMap.getItem _ j _ = _ at hg
    refine ⟨r, _, Prod.ext ?_ rfl⟩
    have hg1 := congrArg Prod.fst hg
    exact hg1
  have := hs.2 j
  rw [g] at this
  cases g' : o₁.getItem j with
  | mk y x' =>
    rw [g'] at this
    cases y with
    | error e => simp [Except.map] at this
    | ok r' =>
      refine d j r' r x' x g' g ?_
      simp only [Except.map, Except.ok.injEq] at this
      rw [this]

/-- Two discrete maps of different versions, one with another configuration of the builder that is not used, compare equal; the
hypotheses of `C39_same_tracts_partial` are met, also after a history. -/
example (H : Bytes → Bytes) : ∃ o₁ o₂ o₁', SkyMapObj.new Ex.lib.impl (.discrete [0, 0] [0, 0] [0, 1]) Ex.hashConfig (.int 0) = .ok o₁ ∧
    SkyMapObj.new Ex.lib.impl (.discrete [0, 0] [0, 0] [0, 1]) { Ex.hashConfig with legacy := ⟨[5, 6], 7⟩ } (.int 3) = .ok o₂ ∧
    MapHistory H o₁ o₁' ∧ (HashedMap.eq H (o₁'.hashed, o₂.hashed)).1 = .ok true ∧ o₂.len = 2 := by
  have h₁ : ∃ o, SkyMapObj.new Ex.lib.impl (.discrete [0, 0] [0, 0] [0, 1]) Ex.hashConfig (.int 0) = .ok o := ⟨_, rfl⟩
  have h₂ : ∃ o, SkyMapObj.new Ex.lib.impl (.discrete [0, 0] [0, 0] [0, 1]) { Ex.hashConfig with legacy := ⟨[5, 6], 7⟩ } (.int 3) = .ok o ∧
    o.len = 2 := ⟨_, rfl, rfl⟩
  obtain ⟨o₁, h₁⟩ := h₁
  obtain ⟨o₂, h₂, hl⟩ := h₂
  refine ⟨o₁, o₂, _, h₁, h₂, ⟨[.getItem 1, .getSha1], rfl⟩, ?_, hl⟩
  refine (C41_equality_never_changes H Ex.lib.impl _ _ _ _ _ _ _ _ _ _ h₁ h₂ ⟨[.getItem 1, .getSha1], rfl⟩ ⟨[], rfl⟩).trans ?_
  rw [eq_val (new_cacheOk h₁ H) (new_cacheOk h₂ H), (new_spec h₁).1, (new_spec h₂).1]
  have : ∃ b, sha1Message (.discrete [0, 0] [0, 0] [0, 1]) Ex.hashConfig = .ok b := ⟨_, rfl⟩
  obtain ⟨b, hb⟩ := this
  change (do
      let a ← sha1Message (.discrete [0, 0] [0, 0] [0, 1]) Ex.hashConfig
      let b ← sha1Message (.discrete [0, 0] [0, 0] [0, 1]) Ex.hashConfig
      return H a == H b) = _
  rw [hb]
  simp [bind, Except.bind, pure, Except.pure]

end AllMaps
end Skymap
