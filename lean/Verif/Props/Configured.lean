import Verif.Props.AllMaps
import Verif.Props.Healpix
import Verif.Props.PackerHistory
import Verif.Props.EqualMaps
import Verif.Props.Defaults

/-!
# C79: a sky map has the tracts that its configuration asks for

For every class of sky maps: the number of tracts, and for each tract its id, centre, size, overlap and WCS, in terms of the values in the
configuration, at any point of the life of the sky map.
-/

set_option linter.unusedSectionVars false

namespace Skymap
open Real

/-! ## Specification -/

/-- `b` is a new tract builder of the configured class with the configured parameters.  The cells builder makes patches of a whole number of cells,
with a border of a number of cells and the border of the outermost one. -/
structure BuilderAsked {F : Type} (config : SkyMapConfig F) (b : TractBuilder) : Prop where
  legacy : config.builderName = .legacy → b.kind = .legacy ∧
    [b.patchInnerDimensions.x, b.patchInnerDimensions.y] = config.legacy.patchInnerDimensions ∧ b.patchBorder = config.legacy.patchBorder
  cells : config.builderName = .cells → ∃ cx cy, config.cells.cellInnerDimensions = [cx, cy] ∧
    b.kind = .cells ⟨⟨cx, cy⟩, config.cells.cellBorder, config.cells.numCellsPerPatchInner, config.cells.numCellsInPatchBorder⟩ ∧
    b.patchInnerDimensions = ⟨cx * config.cells.numCellsPerPatchInner, cy * config.cells.numCellsPerPatchInner⟩ ∧
    b.patchBorder = config.cells.numCellsInPatchBorder * cx + config.cells.cellBorder
  new : b.state = none

/-- Tract `t` is tract number `k` with centre `ctr`, reference position `ref` of its WCS, shape and overlap as given, in a sky map with the
configuration `config`: its WCS is the one for the configured pixel scale, projection and rotation, up to a shift of the origin by whole pixels; and it is
what the constructor of tracts makes, with a new tract builder as configured. -/
structure SkyLib.Asked (L : SkyLib) (config : SkyMapConfig Dbl) (k : ℤ) (ctr ref : SpherePoint ℝ) (shape : TractShape (SpherePoint ℝ) ℝ)
    (overlap : ℝ) (t : TractInfo (SpherePoint ℝ) ℝ) : Prop where
  id : t.id = k
  ctrCoord : t.ctrCoord = ctr
  tractOverlap : t.tractOverlap = overlap
  vertices : ∀ l, shape = .vertices l → t.vertexCoordList = l
  wcs : ∃ dx dy : ℤ, t.wcs =
    (L.makeWcs (L.val config.pixelScale) config.projection (L.val config.rotation) ref).copyAtShiftedPixelOrigin ⟨dx, dy⟩
  built : ∃ b₀ b inner, BuilderAsked config b₀ ∧
    TractInfo.new L.env L.ops b₀ ⟨k, ctr, shape, overlap, L.makeWcs (L.val config.pixelScale) config.projection (L.val config.rotation) ref, inner⟩ = .ok (t, b)

/-! ## Lemmas -/

namespace Configured
variable {H : Bytes → Bytes} {L : SkyLib} {cls : MapClass} {config : SkyMapConfig Dbl} {version : Version}
  {o o' x : SkyMapObj (SpherePoint ℝ) ℝ} {r : TractRef (SpherePoint ℝ) ℝ} {k : ℤ}

theorem builderAsked {F : Type} {config : SkyMapConfig F} {b : TractBuilder} (h : config.makeBuilder = .ok b) : BuilderAsked config b := by
  unfold SkyMapConfig.makeBuilder LegacyTractBuilder.new CellTractBuilder.new at h
  cases hn : config.builderName with
  | legacy =>
    rw [hn] at h
    dsimp only at h
    split at h
    · rename_i u v e
      simp only [Except.ok.injEq] at h
      subst h
      exact ⟨fun _ => ⟨rfl, e.symm, rfl⟩, fun hc => (by cases hn.symm.trans hc), rfl⟩
    · cases h
  | cells =>
    rw [hn] at h
    dsimp only at h
    split at h
    · rename_i u v e
      simp only [Except.ok.injEq] at h
      subst h
      exact ⟨fun hc => (by cases hn.symm.trans hc), fun _ => ⟨u, v, e, rfl, rfl, rfl⟩, rfl⟩
    · cases h

theorem asked {ctr ref : SpherePoint ℝ} {shape : TractShape (SpherePoint ℝ) ℝ} {ov : ℝ} {t : TractInfo (SpherePoint ℝ) ℝ} {b₀ b : TractBuilder}
    {inner : Option (SpherePoint ℝ × SpherePoint ℝ)} (h0 : config.makeBuilder = .ok b₀)
    (h : TractInfo.new L.env L.ops b₀ ⟨k, ctr, shape, ov, L.wcs config ref, inner⟩ = .ok (t, b)) : L.Asked config k ctr ref shape ov t := by
  obtain ⟨mb, bbox, n, -, -, e⟩ := TractInfo.new_inv h
  refine ⟨by rw [e], by rw [e], by rw [e], fun l hl => by rw [e, hl], ?_, b₀, b, inner, builderAsked h0, h⟩
  rw [e]
  exact ⟨_, _, rfl⟩

/-- Where the tracts of a new sky map come from. -/
theorem inv (h : SkyMapObj.new L.impl cls config version = .ok o) : ∃ b₀, config.makeBuilder = .ok b₀ ∧
    ((∃ m, L.tracts cls config (SkyMapObj.versionOf cls version) = .ok (.inl m) ∧ o.tracts = .caching m (CachingSkyMap.init m b₀)) ∨
     ∃ l ts b, L.tracts cls config (SkyMapObj.versionOf cls version) = .ok (.inr l) ∧ EagerSkyMap.buildAll L.env L.ops l 0 b₀ = .ok (ts, b) ∧
       o.tracts = .eager ts b) := by
  unfold SkyMapObj.new BaseSkyMap.init at h
  dsimp only at h
  have hm : ({ config with frozen := true } : SkyMapConfig Dbl).makeBuilder = config.makeBuilder := rfl
  have ht : L.impl.tracts cls { config with frozen := true } (SkyMapObj.versionOf cls version) =
      L.tracts cls config (SkyMapObj.versionOf cls version) := by
    have hw : L.wcs { config with frozen := true } = L.wcs config := rfl
    cases cls <;> simp only [SkyLib.impl, SkyLib.tracts, hw]
  cases hw : wcsFactoryCheck config.projection with
  | error e => rw [hw] at h; simp at h
  | ok u =>
    rw [hw] at h
    dsimp only at h
    rw [hm] at h
    cases hb : config.makeBuilder with
    | error e => rw [hb] at h; simp at h
    | ok b₀ =>
      rw [hb] at h
      dsimp only at h
      rw [ht] at h
      refine ⟨b₀, rfl, ?_⟩
      cases hx : L.tracts cls config (SkyMapObj.versionOf cls version) with
      | error e => rw [hx] at h; simp at h
      | ok y =>
        rw [hx] at h
        cases y with
        | inl m =>
          simp only [Except.ok.injEq] at h
          exact .inl ⟨m, rfl, by rw [← h]⟩
        | inr l =>
          dsimp only at h
          cases hz : EagerSkyMap.buildAll L.impl.env L.impl.ops l 0 b₀ with
          | error e => rw [hz] at h; simp at h
          | ok p =>
            rw [hz] at h
            simp only [Except.ok.injEq] at h
            exact .inr ⟨l, p.1, p.2, rfl, hz, by rw [← h]⟩

/-- A tract of a sky map with cache. -/
theorem caching {m : CachingDef (SpherePoint ℝ) ℝ} {b₀ : TractBuilder} (h : SkyMapObj.new L.impl cls config version = .ok o)
    (ht : o.tracts = .caching m (CachingSkyMap.init m b₀)) (hh : MapHistory H o o') :
    o'.len = m.numTracts ∧ ∀ {k r x}, o'.getItem k = (.ok r, x) → 0 ≤ k ∧ k < m.numTracts ∧
      ∃ a b, m.tractArgs k = .ok a ∧ TractInfo.new m.env m.ops b₀ a = .ok (r.info, b) := by
  obtain ⟨e, -, -⟩ := new_spec h
  have I := (histInv (by rw [e]) (new_cacheOk h H) hh).tracts
  rw [ht] at I
  cases hto : o'.tracts with
  | eager l b => rw [hto] at I; exact I.elim
  | caching m' s' =>
    rw [hto] at I
    obtain ⟨rfl, ha⟩ := I
    refine ⟨by unfold SkyMapObj.len; rw [hto], fun {k r x} hg => ?_⟩
    unfold SkyMapObj.getItem at hg
    rw [hto] at hg
    dsimp only at hg
    obtain ⟨j, rfl, hj, b, hf, -⟩ := fresh_of_getItem ha (r := r) (s' := _) (Prod.ext (Prod.mk.inj hg).1 rfl)
    unfold CachingSkyMap.fresh at hf
    refine ⟨by omega, by exact_mod_cast hj, ?_⟩
    cases hargs : m.tractArgs j with
    | error e => rw [hargs] at hf; cases hf
    | ok a => rw [hargs] at hf; exact ⟨a, b, rfl, hf⟩

/-- A tract of a sky map that builds all its tracts at once. -/
theorem eager {l : List (TractArgs (SpherePoint ℝ) ℝ)} {ts : List (TractRef (SpherePoint ℝ) ℝ)} {b₀ b : TractBuilder}
    (h : SkyMapObj.new L.impl cls config version = .ok o) (hb : EagerSkyMap.buildAll L.env L.ops l 0 b₀ = .ok (ts, b))
    (ht : o.tracts = .eager ts b) (hh : MapHistory H o o') :
    o'.len = l.length ∧ ∀ {k r x}, o'.getItem k = (.ok r, x) → ∃ (j : ℕ) (a : _) (b' : _), (k = j ∨ k = (j : ℤ) - l.length) ∧ l[j]? = some a ∧
      TractInfo.new L.env L.ops b₀ a = .ok (r.info, b') := by
  obtain ⟨e, -, -⟩ := new_spec h
  have I := (histInv (by rw [e]) (new_cacheOk h H) hh).tracts
  rw [ht] at I
  have hlen : ∀ {l : List (TractArgs (SpherePoint ℝ) ℝ)} {n : ℕ} {ts : List (TractRef (SpherePoint ℝ) ℝ)} {b₀ b : TractBuilder},
      EagerSkyMap.buildAll L.env L.ops l n b₀ = .ok (ts, b) → ts.length = l.length := by
    intro l
    induction l with
    | nil =>
      intro n ts b₀ b h
      simp only [EagerSkyMap.buildAll, Except.ok.injEq, Prod.mk.injEq] at h
      rw [← h.1]; rfl
    | cons a l ih =>
      intro n ts b₀ b h
      unfold EagerSkyMap.buildAll at h
      obtain ⟨⟨t1, b1⟩, h1, h⟩ := bindOk h
      obtain ⟨⟨ts', b2⟩, h2, h⟩ := bindOk h
      simp only [pure, Except.pure, Except.ok.injEq, Prod.mk.injEq] at h
      rw [← h.1, List.length_cons, List.length_cons, ih h2]
  cases hto : o'.tracts with
  | caching m' s' => rw [hto] at I; exact I.elim
  | eager l' b' =>
    rw [hto] at I
    obtain ⟨rfl, rfl⟩ := I
    refine ⟨by unfold SkyMapObj.len; rw [hto]; exact hlen hb, fun {k r x} hg => ?_⟩
    unfold SkyMapObj.getItem at hg
    rw [hto] at hg
    dsimp only at hg
    obtain ⟨j, h1, h2⟩ := (pyGetItem_iff _ _ _).1 (Prod.mk.inj hg).1
    obtain ⟨a, b', h3, h4⟩ := EagerSkyMap.buildAll_fresh hb h1
    exact ⟨j, a, b', by rw [← hlen hb]; exact h2, h3, h4⟩

end Configured

open Configured

variable {H : Bytes → Bytes} {L : SkyLib} {config : SkyMapConfig Dbl} {version : Version} {o o' : SkyMapObj (SpherePoint ℝ) ℝ}

/-! ## Theorems -/

/-- C79: a HEALPix sky map with the configured `log2NSide` = n and `nest` has 12 * 4**n tracts; tract k has its centre on pixel k, and its vertices
on the boundary of pixel k, of hpgeom with 2**n sides and the configured ordering; its overlap is the configured one. -/
theorem C79_healpix {n : ℤ} {nest : Bool} (h : SkyMapObj.new L.impl (.healpix n nest) config version = .ok o) (hh : MapHistory H o o') :
    0 ≤ n ∧ o'.len = 12 * 4 ^ n.toNat ∧ ∀ k r x, o'.getItem k = (.ok r, x) → 0 ≤ k ∧ k < o'.len ∧
      ∃ ang bnd vertices, L.hp.pixelToAngle (2 ^ n.toNat) nest k = .ok ang ∧ L.hp.boundaries (2 ^ n.toNat) nest k = .ok bnd ∧
        angToCoord L.arith.pi ang = .ok r.info.ctrCoord ∧ List.Forall₂ (fun a v => angToCoord L.arith.pi a = .ok v) bnd vertices ∧
        L.Asked config k r.info.ctrCoord r.info.ctrCoord (.vertices vertices) (L.arith.deg2rad (L.val config.tractOverlap)) r.info := by
  obtain ⟨b₀, hb, ⟨m, hm, ht⟩ | ⟨l, ts, b, hm, -⟩⟩ := inv h
  · unfold SkyLib.tracts at hm
    dsimp only at hm
    cases hc : HealpixSkyMap.cachingDef L.arith.pi L.env L.ops L.hp (L.wcs config)
        ⟨n, nest, L.arith.deg2rad (L.val config.tractOverlap)⟩ with
    | error e => rw [hc] at hm; simp [Except.map] at hm
    | ok m' =>
      rw [hc] at hm
      simp only [Except.map, Except.ok.injEq, Sum.inl.injEq] at hm
      subst hm
      obtain ⟨h0, rfl⟩ := healpix_def_inv hc
      obtain ⟨hlen, hitem⟩ := caching h ht hh
      dsimp only at h0 hlen hitem
      refine ⟨h0, ?_, fun k r x hg => ?_⟩
      · rw [hlen, mul_assoc, ← mul_pow]; rfl
      · obtain ⟨k0, k1, a, b, ha, hn⟩ := hitem hg
        obtain ⟨ang, e1, ha⟩ := bindOk ha
        obtain ⟨ctr, e2, ha⟩ := bindOk ha
        obtain ⟨bnd, e3, ha⟩ := bindOk ha
        obtain ⟨vs, e4, ha⟩ := bindOk ha
        simp only [pure, Except.pure, Except.ok.injEq] at ha
        rw [← ha] at hn
        have A := asked hb hn
        refine ⟨k0, by rw [hlen]; exact k1, ang, bnd, vs, e1, e3, by rw [A.ctrCoord]; exact e2, (pyMapM_ok_iff _ _ _).1 e4, ?_⟩
        rw [A.ctrCoord]
        exact A
  · unfold SkyLib.tracts at hm
    dsimp only at hm
    cases hc : HealpixSkyMap.cachingDef L.arith.pi L.env L.ops L.hp (L.wcs config)
        ⟨n, nest, L.arith.deg2rad (L.val config.tractOverlap)⟩ with
    | error e => rw [hc] at hm; simp [Except.map] at hm
    | ok m' => rw [hc] at hm; simp [Except.map] at hm

/-- C79: a discrete sky map has as many tracts as configured radii; tract k has its centre on the k-th configured position and the k-th configured
radius. -/
theorem C79_discrete {ra dec rad : List Dbl} (h : SkyMapObj.new L.impl (.discrete ra dec rad) config version = .ok o) (hh : MapHistory H o o') :
    o'.len = rad.length ∧ ∀ k r x, o'.getItem k = (.ok r, x) → ∃ (j : ℕ) (a d e : Dbl), k = j ∧ ra[j]? = some a ∧ dec[j]? = some d ∧ rad[j]? = some e ∧
      L.arith.point (L.arith.deg2rad (L.val a)) (L.arith.deg2rad (L.val d)) = .ok r.info.ctrCoord ∧
      L.Asked config k r.info.ctrCoord r.info.ctrCoord (.explicit (L.arith.deg2rad (L.val e))) (L.arith.deg2rad (L.val config.tractOverlap)) r.info := by
  obtain ⟨b₀, hb, ⟨m, hm, ht⟩ | ⟨l, ts, b, hm, -⟩⟩ := inv h
  · unfold SkyLib.tracts at hm
    simp only [Except.ok.injEq, Sum.inl.injEq] at hm
    subst hm
    obtain ⟨hlen, hitem⟩ := caching h ht hh
    refine ⟨by rw [hlen]; simp [DiscreteSkyMap.cachingDef], fun k r x hg => ?_⟩
    obtain ⟨k0, k1, a, b, ha, hn⟩ := hitem hg
    obtain ⟨j, rfl⟩ := Int.eq_ofNat_of_zero_le k0
    simp only [DiscreteSkyMap.cachingDef] at ha hn
    obtain ⟨a1, e1, ha⟩ := bindOk ha
    obtain ⟨a2, e2, ha⟩ := bindOk ha
    obtain ⟨ctr, e3, ha⟩ := bindOk ha
    obtain ⟨a4, e4, ha⟩ := bindOk ha
    simp only [pure, Except.pure, Except.ok.injEq] at ha
    rw [← ha] at hn
    have A := asked hb hn
    have get : ∀ {l : List Dbl} {y : ℝ}, pyGetItem (l.map L.val) (Int.ofNat j) = .ok y → ∃ z, l[j]? = some z ∧ y = L.val z := by
      intro l y hy
      obtain ⟨i, h1, h2⟩ := (pyGetItem_iff _ _ _).1 hy
      have hi := (List.getElem?_eq_some_iff.1 h1).1
      obtain rfl : i = j := by rcases h2 with h2 | h2 <;> simp only [Int.ofNat_eq_natCast] at h2 <;> omega
      rw [List.getElem?_map, Option.map_eq_some_iff] at h1
      obtain ⟨z, h3, h4⟩ := h1
      exact ⟨z, h3, h4.symm⟩
    obtain ⟨z1, g1, rfl⟩ := get e1
    obtain ⟨z2, g2, rfl⟩ := get e2
    obtain ⟨z4, g4, rfl⟩ := get e4
    refine ⟨j, z1, z2, z4, rfl, g1, g2, g4, by rw [A.ctrCoord]; exact e3, ?_⟩
    rw [A.ctrCoord]
    exact A
  · simp [SkyLib.tracts] at hm

/-- C79: a rings sky map has the rings of the configured `numRings`, `raStart` and version; tract k has the centre and the bounds of that number of this
division of the sky into rings, and half the width of a ring as radius. -/
theorem C79_rings {n : ℤ} {s : Dbl} (h : SkyMapObj.new L.impl (.rings n s) config version = .ok o) (hh : MapHistory H o o') :
    1 ≤ n ∧ ∃ v R, version = .int v ∧ Rings.new L.arith ⟨n.toNat, L.val s, L.val config.tractOverlap⟩ v = .ok R ∧ o'.len = R.numTracts.toNat ∧
      ∀ k r x, o'.getItem k = (.ok r, x) → 0 ≤ k ∧ k < o'.len ∧ R.center L.arith k = .ok r.info.ctrCoord ∧
        (∃ raMin raMax decMin decMax, R.getRaDecRange L.arith k = .ok (raMin, raMax, decMin, decMax) ∧
          r.info.innerBoxCorners = some (⟨raMin, decMin⟩, ⟨raMax, decMax⟩)) ∧
        L.Asked config k r.info.ctrCoord r.info.ctrCoord (.explicit (L.arith.mul (1 / 2) R.ringSize)) (L.arith.deg2rad (L.val config.tractOverlap))
          r.info := by
  obtain ⟨b₀, hb, hx⟩ := inv h
  simp only [SkyMapObj.versionOf, MapClass.isCaching, if_true] at hx
  have hn : 1 ≤ n := by
    by_contra hn
    simp only [SkyLib.tracts, if_pos (show n ≤ 0 by omega)] at hx
    simp at hx
  have ht : L.tracts (.rings n s) config version = (match (generalizing := false) version with
      | .tuple _ => .error .AssertionError
      | .int v => (Rings.new L.arith ⟨n.toNat, L.val s, L.val config.tractOverlap⟩ v).map fun R =>
        .inl (R.cachingDef L.arith L.env L.ops (L.wcs config))) := by
    unfold SkyLib.tracts
    dsimp only
    rw [if_neg (by omega)]
    cases version <;> rfl
  rw [ht] at hx
  cases version with
  | tuple _ => simp at hx
  | int v =>
    dsimp only at hx
    cases hR : Rings.new L.arith ⟨n.toNat, L.val s, L.val config.tractOverlap⟩ v with
    | error e => rw [hR] at hx; simp [Except.map] at hx
    | ok R =>
      rw [hR] at hx
      simp only [Except.map, Except.ok.injEq, Sum.inl.injEq, reduceCtorEq, false_and, exists_false, or_false, exists_eq_left'] at hx
      obtain ⟨hlen, hitem⟩ := caching h hx hh
      refine ⟨hn, v, R, rfl, hR, hlen, fun k r x hg => ?_⟩
      obtain ⟨k0, k1, a, b, ha, hnew⟩ := hitem hg
      simp only [Rings.cachingDef] at ha hnew
      obtain ⟨ctr, e1, ha⟩ := bindOk ha
      obtain ⟨⟨g1, g2, g3, g4⟩, e2, ha⟩ := bindOk ha
      simp only [pure, Except.pure, Except.ok.injEq] at ha
      rw [← ha] at hnew
      have A := asked hb hnew
      have cfg : R.config.tractOverlap = L.val config.tractOverlap := by
        rw [(Rings.new_attr hR).1]
      rw [cfg] at A
      refine ⟨k0, by rw [hlen]; exact k1, by rw [A.ctrCoord]; exact e1, ⟨g1, g2, g3, g4, e2, ?_⟩, by rw [A.ctrCoord]; exact A⟩
      obtain ⟨mb, bbox, nn, -, -, e⟩ := TractInfo.new_inv hnew
      rw [e]

/-- C79: an equatorial sky map with the configured number n of tracts and range of declinations has n tracts; tract k has its centre in the middle of its
interval of right ascension and of the configured declinations, and its vertices at the corners; the reference position of its WCS is on the equator
(exact arithmetic). -/
theorem C79_equat (hA : L.arith = FloatArith.exact) {n : ℕ} {d0 d1 : Dbl} (hn : 1 ≤ n) (h0 : |L.val d0| ≤ 90) (h1 : |L.val d1| ≤ 90)
    (h : SkyMapObj.new L.impl (.equat n [d0, d1]) config version = .ok o) (hh : MapHistory H o o') :
    o'.len = n ∧ ∀ k r x, o'.getItem k = (.ok r, x) → ∃ j : ℕ, j < n ∧ (k = j ∨ k = (j : ℤ) - n) ∧
      L.Asked config j ⟨(2 * j + 1) * π / n, (L.val d0 + L.val d1) / 2 * (π / 180)⟩ ⟨(2 * j + 1) * π / n, 0⟩
        (.vertices (quad (2 * π * j / n) (if j + 1 = n then 0 else 2 * π * (j + 1) / n) (L.val d0 * (π / 180)) (L.val d1 * (π / 180))))
        (L.val config.tractOverlap * (π / 180)) r.info := by
  obtain ⟨b₀, hb, hx⟩ := inv h
  have ht : L.tracts (.equat n [d0, d1]) config (SkyMapObj.versionOf (.equat n [d0, d1]) version) =
      .ok (.inr ((List.range n).map (Equat.args (L.wcs config) n (L.val d0) (L.val d1) (L.val config.tractOverlap)))) := by
    unfold SkyLib.tracts
    dsimp only
    rw [hA, show [d0, d1].map L.val = [L.val d0, L.val d1] from rfl, Equat.tracts_exact hn h0 h1]
    rfl
  rw [ht] at hx
  rcases hx with ⟨m, hm, -⟩ | ⟨l, ts, b, hl, hbuild, hto⟩
  · simp at hm
  · simp only [Except.ok.injEq, Sum.inr.injEq] at hl
    subst hl
    obtain ⟨hlen, hitem⟩ := eager h hbuild hto hh
    simp only [List.length_map, List.length_range] at hlen hitem
    refine ⟨hlen, fun k r x hg => ?_⟩
    obtain ⟨j, a, b', hk, ha, hnew⟩ := hitem hg
    rw [List.getElem?_map, Option.map_eq_some_iff] at ha
    obtain ⟨j', hj, rfl⟩ := ha
    have hjn : j < n := by
      have := (List.getElem?_eq_some_iff.1 hj).1
      rwa [List.length_range] at this
    rw [List.getElem?_range hjn, Option.some.injEq] at hj
    subst hj
    refine ⟨j, hjn, hk, ?_⟩
    have := asked hb hnew
    unfold Equat.rad at this
    rw [show (L.val d0 + L.val d1) / 2 * (π / 180) = (L.val d0 * (π / 180) + L.val d1 * (π / 180)) / 2 by ring]
    exact this

/-- C79: a dodecahedral sky map has twelve tracts; with D the dodecahedron that has, or has not, faces on the poles, as configured, tract k has its centre
at face k of D and its vertices at the vertices of this face. -/
theorem C79_dodeca (ht0 : 0 < L.tiny) (ht1 : L.tiny ≤ 1 / 10) (ho : L.order.Ok) {poles : Bool}
    (h : SkyMapObj.new L.impl (.dodeca poles) config version = .ok o) (hh : MapHistory H o o') :
    o'.len = 12 ∧ ∃ D, Dodecahedron.new L.order poles = .ok D ∧ ∀ k r x, o'.getItem k = (.ok r, x) →
      ∃ (j : ℕ) (vertices : List (SpherePoint ℝ)), j < 12 ∧ (k = j ∨ k = (j : ℤ) - 12) ∧
        D.faceVecList[j]? = some r.info.ctrCoord.getVector ∧ D.getVertices j = .ok (vertices.map SpherePoint.getVector) ∧
        L.Asked config j r.info.ctrCoord r.info.ctrCoord (.vertices vertices) (L.val config.tractOverlap * (π / 180)) r.info := by
  obtain ⟨b₀, hb, hx⟩ := inv h
  unfold SkyLib.tracts at hx
  dsimp only at hx
  cases hl : DodecaSkyMap.tracts L.tiny (L.wcs config) L.order poles (L.val config.tractOverlap) with
  | error e => rw [hl] at hx; simp [Except.map] at hx
  | ok p =>
    obtain ⟨D, l⟩ := p
    rw [hl] at hx
    simp only [Except.map, Except.ok.injEq, Sum.inr.injEq, reduceCtorEq, false_and, exists_false, false_or] at hx
    obtain ⟨l', ts, b, rfl, hbuild, hto⟩ := hx
    obtain ⟨hD, hl12, hargs⟩ := DodecaSkyMap.args_ok ht0 ht1 ho hl
    obtain ⟨hlen, hitem⟩ := eager h hbuild hto hh
    rw [hl12] at hlen hitem
    refine ⟨hlen, D, hD, fun k r x hg => ?_⟩
    obtain ⟨j, a, b', hk, ha, hnew⟩ := hitem hg
    obtain ⟨cs, z1, h1, -, h3, h4, h5, h6⟩ := hargs ha
    have hid : a.id = j := by
      unfold DodecaSkyMap.tract at z1
      obtain ⟨_, -, z1⟩ := bindOk z1
      obtain ⟨_, -, z1⟩ := bindOk z1
      obtain ⟨_, -, z1⟩ := bindOk z1
      obtain ⟨_, -, z1⟩ := bindOk z1
      simp only [pure, Except.pure, Except.ok.injEq] at z1
      rw [← z1]
    obtain ⟨i, c, s, ov, w, inner⟩ := a
    dsimp only at h1 h3 h5 h6 hid
    subst h1 h5 h6 hid
    have A := asked hb hnew
    have hj : j < 12 := by rw [← hl12]; exact (List.getElem?_eq_some_iff.1 ha).1
    refine ⟨j, cs, hj, hk, by rw [A.ctrCoord]; exact h3, h4, ?_⟩
    rw [A.ctrCoord]
    exact A

/-! ## The hypotheses can be met -/

/-- A library with an hpgeom whose pixels depend on the ordering. -/
noncomputable def Ex.askLib : SkyLib :=
  { AllMaps.Ex.lib with hp := ⟨fun _ _ _ => .ok [(1, 0), (2, 1)], fun _ nest _ => .ok (if nest then 1 else 2, 0), fun _ _ _ => 0⟩ }

theorem Ex.angToCoord_zero {θ : ℝ} (h0 : 0 ≤ θ) (h1 : θ ≤ 3) : angToCoord π (θ, 0) = .ok ⟨0, θ - 1 / 2 * π⟩ := by
  have hp := pi_gt_three
  obtain ⟨c, hc, hv, e⟩ := (C53_inverse π).1 (θ, 0) ⟨h0, by dsimp only; linarith, le_rfl, by dsimp only; linarith⟩
  rw [hc]
  unfold coordToAng at e
  obtain ⟨e1, e2⟩ := Prod.mk.inj e
  congr 1
  rcases c with ⟨a, b⟩
  dsimp only at e1 e2
  rw [e2, ← e1]
  congr 1
  ring

/-- A HEALPix map can be built, and its tracts accessed; which ones it has depends on the configured ordering. -/
example (H : Bytes → Bytes) (nest : Bool) : ∃ o r x, SkyMapObj.new Ex.askLib.impl (.healpix 3 nest) Ex.hashConfig (.int 0) = .ok o ∧
    MapHistory H o x ∧ o.len = 768 ∧ o.getItem 5 = (.ok r, x) ∧ r.info.ctrCoord = ⟨0, (if nest then 1 else 2) - 1 / 2 * π⟩ := by
  have hp := pi_gt_three
  have hnew : ∃ o, SkyMapObj.new Ex.askLib.impl (.healpix 3 nest) Ex.hashConfig (.int 0) = .ok o := ⟨_, rfl⟩
  obtain ⟨o, h1⟩ := hnew
  obtain ⟨b₀, h2, ⟨m, h4, h5⟩ | ⟨l, ts, b, h4, -⟩⟩ := inv h1
  swap
  · simp [SkyLib.tracts, HealpixSkyMap.cachingDef, HealpixSkyMap.nside, pyShiftLeft, bind, Except.bind, pure, Except.pure, Except.map] at h4
  have h3 : b₀.patchInnerDimensions = ⟨3000, 3000⟩ := by
    have : (Except.ok b₀ : PyM TractBuilder).map TractBuilder.patchInnerDimensions = .ok ⟨3000, 3000⟩ := by
      rw [← h2]; decide +kernel
    simpa [Except.map] using this
  replace h4 : HealpixSkyMap.cachingDef π Ex.askLib.env Ex.askLib.ops Ex.askLib.hp (Ex.askLib.wcs Ex.hashConfig)
        ⟨3, nest, Ex.askLib.arith.deg2rad (Ex.askLib.val Ex.hashConfig.tractOverlap)⟩ = .ok m := by
    unfold SkyLib.tracts at h4
    dsimp only at h4
    change (HealpixSkyMap.cachingDef π Ex.askLib.env Ex.askLib.ops Ex.askLib.hp (Ex.askLib.wcs Ex.hashConfig)
        ⟨3, nest, Ex.askLib.arith.deg2rad (Ex.askLib.val Ex.hashConfig.tractOverlap)⟩).map _ = _ at h4
    cases hc : HealpixSkyMap.cachingDef π Ex.askLib.env Ex.askLib.ops Ex.askLib.hp (Ex.askLib.wcs Ex.hashConfig)
        ⟨3, nest, Ex.askLib.arith.deg2rad (Ex.askLib.val Ex.hashConfig.tractOverlap)⟩ with
    | error e => rw [hc] at h4; simp [Except.map] at h4
    | ok m' =>
      rw [hc] at h4
      simp only [Except.map, Except.ok.injEq, Sum.inl.injEq] at h4
      rw [h4]
  obtain ⟨-, e⟩ := healpix_def_inv h4
  have hlen : o.len = 768 := by unfold SkyMapObj.len; rw [h5, e]; rfl
  have hang : angToCoord π ((if nest then 1 else 2 : ℝ), (0 : ℝ)) = .ok ⟨0, (if nest then 1 else 2) - 1 / 2 * π⟩ :=
    Ex.angToCoord_zero (by cases nest <;> norm_num) (by cases nest <;> norm_num)
  obtain ⟨c2, hc2, -⟩ := (C53_inverse π).1 (2, 1) ⟨by norm_num, by dsimp only; linarith, by norm_num, by dsimp only; linarith⟩
  have hargs : ∃ a, m.tractArgs 5 = .ok a ∧ a.wcs = Ex.askLib.wcs Ex.hashConfig a.ctrCoord := by
    rw [e]
    dsimp only
    simp only [Ex.askLib, bind, Except.bind, hang, pyMapM, hc2, Ex.angToCoord_zero (θ := 1) (by norm_num) (by norm_num), pure, Except.pure]
    exact ⟨_, rfl, rfl⟩
  obtain ⟨a, ha, hw⟩ := hargs
  obtain ⟨⟨t, b⟩, ht⟩ := TractInfo.new_total m.env m.ops b₀ a (by rw [h3]; decide) (by rw [h3]; decide) (fun c _ => by rw [hw]; exact ⟨_, rfl⟩)
  have hget : CachingSkyMap.getItem m 5 (CachingSkyMap.init m b₀) = _ :=
    CachingSkyMap.getItem_gen (i := 5) (CachingSkyMap.Inv.init m b₀) (by
      have : m.numTracts = 768 := by rw [e]; rfl
      unfold CachingSkyMap.init
      dsimp only
      rw [this, List.getElem?_replicate, if_pos (by norm_num)])
  have hok : ∃ r x, o.getItem 5 = (.ok r, x) := by
    unfold SkyMapObj.getItem
    rw [h5]
    dsimp only
    rw [hget]
    unfold CachingSkyMap.fresh
    simp only [Nat.cast_ofNat]
    rw [ha]
    dsimp only
    rw [ht]
    exact ⟨_, _, rfl⟩
  obtain ⟨r, x, hg⟩ := hok
  have hx : MapHistory H o x := ⟨[.getItem 5], by simp only [List.foldl_cons, List.foldl_nil, MapOp.run, hg]⟩
  obtain ⟨-, -, hi⟩ := C79_healpix (H := H) h1 ⟨[], rfl⟩
  obtain ⟨-, -, ang, -, -, f1, -, f2, -⟩ := hi 5 r x hg
  refine ⟨o, r, x, h1, hx, hlen, hg, ?_⟩
  change (Except.ok ((if nest then 1 else 2 : ℝ), (0 : ℝ)) : PyM _) = .ok ang at f1
  rw [Except.ok.injEq] at f1
  rw [← f1] at f2
  change angToCoord π _ = _ at f2
  rw [hang, Except.ok.injEq] at f2
  exact f2.symm

/-- The hypotheses of `C79_dodeca` and `C79_equat` are met by the default configurations, also after a history of accesses. -/
example (H : Bytes → Bytes) (hp : HpGeom ℝ) (other : P2 ℝ → SpherePoint ℝ → CdMatrix → String → Wcs (SpherePoint ℝ) ℝ) : ∃ L : SkyLib, 0 < L.tiny ∧
    L.tiny ≤ 1 / 10 ∧ L.order.Ok ∧ L.arith = FloatArith.exact ∧ |L.val 0xbff4000000000000| ≤ 90 ∧ |L.val 0x3ff4000000000000| ≤ 90 ∧
    (∃ o r x, SkyMapObj.new L.impl (.dodeca true) DefaultClass.dodeca.config (.int 0) = .ok o ∧ MapHistory H o x ∧ x.getItem (-1) = (.ok r, x) ∧
      r.info.id = 11) ∧
    ∃ o r x, SkyMapObj.new L.impl (.equat 4 [0xbff4000000000000, 0x3ff4000000000000]) DefaultClass.equat.config (.int 0) = .ok o ∧
      MapHistory H o x ∧ x.getItem 3 = (.ok r, x) ∧ r.info.id = 3 := by
  set L : SkyLib := (⟨Ex.realEnv, hp, Dodeca.ascending, 1 / 1000, other⟩ : SkyChoice).lib with hL
  have v0 : L.val 0xbff4000000000000 = -5 / 4 := Dbl.value_south
  have v1 : L.val 0x3ff4000000000000 = 5 / 4 := Dbl.value_north
  have b0 : |L.val 0xbff4000000000000| ≤ 90 := by rw [v0]; norm_num [abs_le]
  have b1 : |L.val 0x3ff4000000000000| ≤ 90 := by rw [v1]; norm_num [abs_le]
  have t0 : 0 < L.tiny := show (0 : ℝ) < 1 / 1000 by norm_num
  have t1 : L.tiny ≤ 1 / 10 := show (1 / 1000 : ℝ) ≤ 1 / 10 by norm_num
  have ho : L.order.Ok := Dodeca.ascending_ok
  have hA : L.arith = FloatArith.exact := rfl
  refine ⟨L, t0, t1, ho, hA, b0, b1, ?_, ?_⟩
  · obtain ⟨o, ts, b, D, h1, h2, -, h3, -⟩ := C75_dodeca (x := ⟨Ex.realEnv, hp, Dodeca.ascending, 1 / 1000, other⟩) Ex.realEnv_ok (by norm_num)
      (by norm_num) Dodeca.ascending_ok true (.int 0)
    have hg : o.getItem (-1) = (.ok ts[11], o) := by
      unfold SkyMapObj.getItem
      rw [h2]
      dsimp only
      rw [(pyGetItem_iff _ _ _).2 ⟨11, List.getElem?_eq_getElem (by omega), by right; rw [h3]; norm_num⟩]
    obtain ⟨-, D', -, hi⟩ := C79_dodeca (H := H) t0 t1 ho h1 ⟨[], rfl⟩
    obtain ⟨j, vs, j1, j2, -, -, hA⟩ := hi _ _ _ hg
    refine ⟨o, _, o, h1, ⟨[.getItem (-1)], ?_⟩, hg, by rw [hA.id]; omega⟩
    simp only [List.foldl_cons, List.foldl_nil, MapOp.run, hg]
  · obtain ⟨o, ts, b, h1, h2, h3, -⟩ := C75_equat (x := ⟨Ex.realEnv, hp, Dodeca.ascending, 1 / 1000, other⟩) Ex.realEnv_ok (.int 0)
    have hg : o.getItem 3 = (.ok ts[3], o) := by
      unfold SkyMapObj.getItem
      rw [h2]
      dsimp only
      rw [(pyGetItem_iff _ _ _).2 ⟨3, List.getElem?_eq_getElem (by omega), by left; norm_num⟩]
    obtain ⟨-, hi⟩ := C79_equat (H := H) (n := 4) hA (by norm_num) b0 b1 h1 ⟨[], rfl⟩
    obtain ⟨j, j1, j2, hA⟩ := hi _ _ _ hg
    refine ⟨o, _, o, h1, ⟨[.getItem 3], ?_⟩, hg, by rw [hA.id]; omega⟩
    simp only [List.foldl_cons, List.foldl_nil, MapOp.run, hg]

/-- Rings maps, and discrete maps. -/
example (H : Bytes → Bytes) : (∃ o r x, SkyMapObj.new AllMaps.Ex.lib.impl (.rings 120 0) Ex.hashConfig (.int 1) = .ok o ∧ MapHistory H o o ∧
      o.getItem 1 = (.ok r, x)) ∧
    ∃ o, SkyMapObj.new AllMaps.Ex.lib.impl (.discrete [0, 1] [0, 0] [0, 1]) Ex.hashConfig (.int 0) = .ok o ∧ o.len = 2 := by
  refine ⟨?_, ⟨_, rfl, rfl⟩⟩
  have h : ∃ o, SkyMapObj.new AllMaps.Ex.lib.impl (.rings 120 0) Ex.hashConfig (.int 1) = .ok o := ⟨_, rfl⟩
  obtain ⟨o, h⟩ := h
  obtain ⟨-, v, R, -, hR, hlen, -⟩ := C79_rings (H := H) h ⟨[], rfl⟩
  have wf := (Rings.new_wf hR).1.numTracts_ge
  obtain ⟨r, hr⟩ := AllMaps.Ex.rings_build (by norm_num) h 1 (by norm_num) (by
    have hl : o.len = R.numTracts.toNat := hlen
    rw [hl]; omega)
  exact ⟨o, r, _, h, ⟨[], rfl⟩, Prod.ext hr rfl⟩

end Skymap
