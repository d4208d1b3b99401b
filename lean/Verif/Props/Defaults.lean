import Verif.Model.Default
import Verif.Props.DodecaDefault
import Verif.Props.RingsRegistered
import Verif.Props.EquatRegion

/-! # C75: sky maps with their default configuration -/

set_option linter.unusedSectionVars false

namespace Skymap
open Real Dodeca BaseSkyMap

/-! ## The numbers in the default configurations -/

theorem Dbl.value_nat (x : Dbl) (n : ℕ) (h : x.toNat = n) : Dbl.value x = (if n / 2 ^ 63 = 1 then -1 else 1) *
    if n / 2 ^ 52 % 2048 = 0 then ((n % 2 ^ 52 : ℕ) : ℝ) / 2 ^ 1074
    else ((2 ^ 52 + n % 2 ^ 52 : ℕ) : ℝ) * 2 ^ (((n / 2 ^ 52 % 2048 : ℕ) : ℤ) - 1075) := by
  rw [← h, Dbl.value]

theorem Dbl.value_one : Dbl.value 0x3ff0000000000000 = 1 := by
  rw [Dbl.value_nat _ 0x3ff0000000000000 rfl]; norm_num

theorem Dbl.value_seven_halves : Dbl.value 0x400c000000000000 = 3.5 := by
  rw [Dbl.value_nat _ 0x400c000000000000 rfl]; norm_num

theorem Dbl.value_fifth : Dbl.value 0x3fc999999999999a = 7205759403792794 / 2 ^ 55 := by
  rw [Dbl.value_nat _ 0x3fc999999999999a rfl]; norm_num

theorem Dbl.value_third : Dbl.value 0x3fd54fdf3b645a1d = 5998794703657501 / 2 ^ 54 := by
  rw [Dbl.value_nat _ 0x3fd54fdf3b645a1d rfl]; norm_num

theorem Dbl.value_zero : Dbl.value 0 = 0 := by
  rw [Dbl.value_nat _ 0 rfl]; norm_num

theorem Dbl.value_south : Dbl.value 0xbff4000000000000 = -5 / 4 := by
  rw [Dbl.value_nat _ 0xbff4000000000000 rfl]; norm_num

theorem Dbl.value_north : Dbl.value 0x3ff4000000000000 = 5 / 4 := by
  rw [Dbl.value_nat _ 0x3ff4000000000000 rfl]; norm_num

/-! ## Registered rows -/

section rows
variable {Sky K : Type} [Field K] [LinearOrder K] [IsStrictOrderedRing K] [FloorRing K]

/-- The rows of one tract and one patch in a registry that has exactly the rows of the sky map. -/
theorem RegisteredExactly.eager_rows {ts : List (TractRef Sky K)} {name : String} {w : World TractBuilder Sky}
    (h : RegisteredExactly (EagerSkyMap.skyMapOps ts) name w) {r : TractRef Sky K} (hr : r ∈ ts) :
    (∃ x ∈ w.reg.tracts, x = ⟨name, r.info.id, r.info.getOuterSkyPolygon⟩) ∧
    ∀ i pi, InRange r.info.numPatches i → r.info.getPatchInfo w.map (.index2D i) = .ok pi →
      ∃ y ∈ w.reg.patches, y.skymap = name ∧ y.tract = r.info.id ∧ y.cellX = i.x ∧ y.cellY = i.y ∧ y.region = pi.getOuterSkyPolygon (some r.info.wcs) := by
  obtain ⟨ts', ht, hids, hx1, hx2, hy1, hy2, -⟩ := h
  have ets : ts' = ts := by
    apply List.ext_getElem?
    intro i
    by_cases hi : i < ts'.length
    · have h1 := ht.2 i _ (List.getElem?_eq_getElem hi)
      have hi' : i < ts.length := by rw [ht.1] at hi; exact hi
      simp only [EagerSkyMap.skyMapOps, PyS.lift, Prod.mk.injEq] at h1
      rw [CachingSkyMap.pyGetItem_nat (List.getElem?_eq_getElem hi'), Except.ok.injEq] at h1
      rw [List.getElem?_eq_getElem hi, List.getElem?_eq_getElem hi', h1.1]
    · have hi' : ¬ i < ts.length := by rw [ht.1] at hi; exact hi
      rw [List.getElem?_eq_none (by omega), List.getElem?_eq_none (by omega)]
  subst ets
  have uniq : ∀ t ∈ ts', t.info.id = r.info.id → t = r := by
    intro t htm hid
    obtain ⟨j, hj⟩ := List.getElem?_of_mem htm
    obtain ⟨k, hk⟩ := List.getElem?_of_mem hr
    have i1 := hids j t hj
    have i2 := hids k r hk
    have : j = k := by rw [hid, i2] at i1; omega
    rw [this, hk, Option.some.injEq] at hj
    exact hj.symm
  have hpos : ∀ {α : Type} {l : List α} {q : α → Prop} [DecidablePred q], l.countP (fun x => decide (q x)) = 1 → ∃ x ∈ l, q x := by
    intro α l q _ hcount
    obtain ⟨x, h1, h2⟩ := List.countP_pos_iff.1 (by rw [hcount]; exact Nat.one_pos)
    exact ⟨x, h1, by simpa using h2⟩
  constructor
  · obtain ⟨x, h1, h2⟩ := hpos (hx2 r hr)
    simp only [Prod.mk.injEq] at h2
    obtain ⟨t, ht1, rfl⟩ := hx1 x h1 h2.1
    obtain rfl := uniq t ht1 h2.2
    exact ⟨_, h1, rfl⟩
  · intro i pi hi hpi
    obtain ⟨y, h1, h2⟩ := hpos (hy2 r hr i hi)
    simp only [Prod.mk.injEq] at h2
    obtain ⟨t, ht1, f1, -, -, q, f2, -, f3⟩ := hy1 y h1 h2.1
    obtain rfl := uniq t ht1 (by rw [← f1, h2.2.1])
    have : q = pi := by
      rw [h2.2.2.1, h2.2.2.2] at f2
      exact Except.ok.inj (f2.symm.trans hpi)
    subst this
    exact ⟨y, h1, h2.1, h2.2.1, h2.2.2.1, h2.2.2.2, f3⟩

/-- A sky map that builds all tracts at once, if all have the same number of patches: the shared builder is as each tract needs it. -/
theorem EagerSkyMap.uniform_built {env : FloatEnv K} {ops : SkyOps Sky K} {l : List (TractArgs Sky K)} {ts : List (TractRef Sky K)}
    {b₀ b : TractBuilder} (hb : EagerSkyMap.buildAll env ops l 0 b₀ = .ok (ts, b))
    (hx : 0 < b₀.patchInnerDimensions.x) (hy : 0 < b₀.patchInnerDimensions.y) {n : I2} (hu : ∀ t ∈ ts, t.info.numPatches = n) :
    (∀ t ∈ ts, ∀ t' ∈ ts, t.info.SameSize t'.info) ∧
    ∀ (k : ℕ) t, ts[k]? = some t → ∃ a, l[k]? = some a ∧ TractInfo.new env ops b₀ a = .ok (t.info, b) := by
  have hbox : ∀ t ∈ ts, t.info.bbox = .mk' ⟨0, 0⟩ ⟨n.x * b₀.patchInnerDimensions.x, n.y * b₀.patchInnerDimensions.y⟩ := by
    intro t ht
    obtain ⟨k, hk⟩ := List.getElem?_of_mem ht
    obtain ⟨a, b', hak, hnew⟩ := EagerSkyMap.buildAll_fresh hb hk
    have B := TractInfo.new_built hnew hx hy
    rw [B.box, B.dims, hu t ht]
  refine ⟨fun t h1 t' h2 => ⟨by rw [hu t h1, hu t' h2], by rw [hbox t h1, hbox t' h2]⟩, fun k t hk => ?_⟩
  obtain ⟨a, b', hak, hnew⟩ := EagerSkyMap.buildAll_fresh hb hk
  refine ⟨a, hak, ?_⟩
  have hmem := List.mem_of_getElem? hk
  obtain ⟨hlen, -, -⟩ := EagerSkyMap.buildAll_ok hb hx hy
  obtain ⟨a', ha', t'', hn''⟩ := EagerSkyMap.buildAll_last hb (List.ne_nil_of_mem (List.mem_of_getElem? hak))
  obtain ⟨j, hj⟩ := List.getElem?_of_mem ha'
  have hjl : j < ts.length := by rw [hlen]; exact (List.getElem?_eq_some_iff.1 hj).1
  have hjt := List.getElem?_eq_getElem hjl
  obtain ⟨a₂, b₂, e1, e2⟩ := EagerSkyMap.buildAll_fresh hb hjt
  rw [hj, Option.some.injEq] at e1
  subst e1
  rw [hn'', Except.ok.injEq, Prod.mk.injEq] at e2
  obtain ⟨e2, rfl⟩ := e2
  have hn := hu _ (List.getElem_mem hjl)
  rw [← e2] at hn
  have B := TractInfo.new_built hnew hx hy
  have B2 := TractInfo.new_built hn'' hx hy
  have s1 := B.st
  have s2 := B2.st
  rw [B.box, B.dims, hu t hmem] at s1
  rw [B2.box, B2.dims, hn] at s2
  have : b' = b := by
    rcases b' with ⟨k1, d1, p1, st1⟩
    rcases b with ⟨k2, d2, p2, st2⟩
    have e3 := B.kind.trans B2.kind.symm
    have e4 := B.dims.trans B2.dims.symm
    have e5 := B.border.trans B2.border.symm
    dsimp only at e3 e4 e5 s1 s2
    rw [e3, e4, e5, s1, s2]
  rw [hnew, this]

end rows

theorem SkyChoice.lib_wcs (x : SkyChoice) (c : SkyMapConfig Dbl) {scale θ : ℝ} {f : WcsFactory} (h1 : Dbl.value c.pixelScale * (π / 648000) = scale)
    (h2 : Dbl.value c.rotation * (π / 180) = θ) (hf : WcsFactory.new scale c.projection θ false = .ok f) :
    x.lib.wcs c = f.makeWcs x.other ⟨0, 0⟩ := by
  funext ctr
  unfold SkyLib.wcs SkyChoice.lib
  dsimp only
  rw [h1, h2, hf]

theorem SkyMapObj.new_eager {Sky K : Type} [Field K] [LinearOrder K] [FloorRing K] {impl : ClassImpl Sky K} {cls : MapClass}
    {config c : SkyMapConfig Dbl} {version : Version} {b₀ b : TractBuilder} {l : List (TractArgs Sky K)} {ts : List (TractRef Sky K)}
    (h1 : BaseSkyMap.init config = (.ok b₀, c)) (h2 : impl.tracts cls c (versionOf cls version) = .ok (.inr l))
    (h3 : EagerSkyMap.buildAll impl.env impl.ops l 0 b₀ = .ok (ts, b)) :
    SkyMapObj.new impl cls config version = .ok ⟨⟨cls, c, versionOf cls version, none⟩, .eager ts b⟩ := by
  unfold SkyMapObj.new
  rw [h1]
  dsimp only
  rw [h2]
  dsimp only
  rw [h3]

theorem SkyMapObj.new_caching {Sky K : Type} [Field K] [LinearOrder K] [FloorRing K] {impl : ClassImpl Sky K} {cls : MapClass}
    {config c : SkyMapConfig Dbl} {version : Version} {b₀ : TractBuilder} {m : CachingDef Sky K}
    (h1 : BaseSkyMap.init config = (.ok b₀, c)) (h2 : impl.tracts cls c (versionOf cls version) = .ok (.inl m)) :
    SkyMapObj.new impl cls config version = .ok ⟨⟨cls, c, versionOf cls version, none⟩, .caching m (CachingSkyMap.init m b₀)⟩ := by
  unfold SkyMapObj.new
  rw [h1]
  dsimp only
  rw [h2]

theorem sha1_fresh {H : Bytes → Bytes} {m : MapClass} {c : SkyMapConfig Dbl} {v : Version} (h : ∃ b, sha1Message m c = .ok b) :
    ∃ h, ((⟨m, c, v, none⟩ : HashedMap).getSha1 H).1 = .ok h := by
  obtain ⟨b, hb⟩ := h
  exact ⟨H b, by simp only [HashedMap.getSha1, hb]⟩

theorem sha1_dodeca (poles : Bool) : ∃ b, sha1Message (.dodeca poles) { DefaultClass.dodeca.config with frozen := true } = .ok b := by
  cases poles <;> exact ⟨_, rfl⟩

theorem sha1_equat : ∃ b, sha1Message DefaultClass.equat.fields { DefaultClass.equat.config with frozen := true } = .ok b := ⟨_, rfl⟩

theorem packed_default : ∃ b, getPackedConfig { SkyMapConfig.default with frozen := true } = .ok b := ⟨_, rfl⟩

theorem rings_name : ∃ b, encodeAscii "RingsSkyMap" = .ok b := ⟨_, rfl⟩

theorem init_default : BaseSkyMap.init SkyMapConfig.default =
    (.ok ⟨.legacy, ⟨4000, 4000⟩, 100, none⟩, { SkyMapConfig.default with frozen := true }) := rfl

theorem sha1_rings {n : ℤ} (h : 0 ≤ n) (h' : n < 2 ^ 31) :
    ∃ b, sha1Message (DefaultClass.rings n).fields { (DefaultClass.rings n).config with frozen := true } = .ok b := by
  have : packI n = .ok (leBytes 4 (n % 2 ^ 32).toNat) := by unfold packI; rw [if_pos (by omega)]
  obtain ⟨a, ha⟩ := packed_default
  obtain ⟨d, hd⟩ := rings_name
  change ∃ b, sha1Message (.rings n 0) { SkyMapConfig.default with frozen := true } = .ok b
  have hd' : encodeAscii (MapClass.rings n 0).name = .ok d := hd
  unfold sha1Message MapClass.updateSha1
  rw [hd', ha]
  dsimp only
  rw [this]
  exact ⟨_, rfl⟩

theorem init_rings (n : ℤ) : BaseSkyMap.init (DefaultClass.rings n).config =
    (.ok ⟨.legacy, ⟨4000, 4000⟩, 100, none⟩, { (DefaultClass.rings n).config with frozen := true }) := init_default

/-! ## The dodecahedral sky map -/

/-- C75: the dodecahedral sky map with the default configuration, with or without tracts on the poles, can be built; it has twelve tracts of 350 by
334 patches; for every position on the sky `findTract` finds a tract that contains it, `findPatch` finds the patch of this tract with the
position in its inner box, and the position is in the outer polygon of both; and it can be registered under a new name in any registry, if the butler does
not fail, after which the registry has exactly its rows and the position is in the region of the row of the tract and of the row of the patch. -/
theorem C75_dodeca {x : SkyChoice} (he : x.env.Ok) (ht0 : 0 < x.tiny) (ht1 : x.tiny ≤ 1 / 10) (ho : x.order.Ok) (poles : Bool) (version : Version) :
    ∃ o ts b D, SkyMapObj.new x.lib.impl (.dodeca poles) DefaultClass.dodeca.config version = .ok o ∧ o.tracts = .eager ts b ∧
      Dodecahedron.new x.order poles = .ok D ∧ ts.length = 12 ∧ (∀ t ∈ ts, t.info.numPatches = ⟨350, 334⟩) ∧
      (∀ p, ∃ t px pi, DodecaSkyMap.findTract D (EagerSkyMap.skyMapOps ts) p b = (.ok t, b) ∧ t.info.contains p = true ∧
        t.info.findPatch x.env b p = .ok pi ∧ t.info.wcs.PixelOf p px ∧ pi.innerBBox.contains px = true ∧
        InPolygon t.info.getOuterSkyPolygon p ∧ InPolygon (pi.getOuterSkyPolygon none) p) ∧
      ∀ (H : Bytes → Bytes) (fault : Nat → Option PyErr) (name : String) (reg : Registry (SpherePoint ℝ)) (calls : Nat), (∀ n, fault n = none) →
        reg.Sound → (∀ r ∈ reg.skymaps, r.skymap ≠ name ∧ ∀ h, (o.hashed.getSha1 H).1 = .ok h → r.hash ≠ h) →
        ∃ w', register H fault (EagerSkyMap.skyMapOps ts) name ⟨b, o.hashed, reg, calls⟩ = (.ok (), w') ∧
          RegisteredExactly (EagerSkyMap.skyMapOps ts) name w' ∧
          ∀ p, ∃ t, DodecaSkyMap.findTract D (EagerSkyMap.skyMapOps ts) p w'.map = (.ok t, w'.map) ∧
            (∃ r ∈ w'.reg.tracts, r.skymap = name ∧ r.tract = t.info.id ∧ InPolygon r.region p) ∧
            ∃ r ∈ w'.reg.patches, r.skymap = name ∧ r.tract = t.info.id ∧ InPolygon r.region p := by
  have hpi := pi_pos
  have hp1 := pi_gt_d2
  have hp2 := pi_lt_d2
  set c : SkyMapConfig Dbl := { DefaultClass.dodeca.config with frozen := true } with hc
  set b₀ : TractBuilder := ⟨.legacy, ⟨4000, 4000⟩, 250, none⟩ with hb₀
  set scale : ℝ := 7205759403792794 / 2 ^ 55 * (π / 648000) with hscale
  have hs : 0 < scale := by positivity
  have hs2 : scale ≤ 1e-6 := by rw [hscale]; norm_num; linarith
  obtain ⟨f, hf⟩ := (WcsFactory.C56_projection_length scale "STG" 0 false).2 rfl
  have hinit : BaseSkyMap.init DefaultClass.dodeca.config = (.ok b₀, c) := rfl
  have hwcs : x.lib.wcs c = f.makeWcs x.other ⟨0, 0⟩ :=
    x.lib_wcs c (by rw [hscale]; exact congrArg (· * _) Dbl.value_fifth) (by
      change Dbl.value 0 * _ = 0
      rw [Dbl.value_zero, zero_mul]) hf
  have hov : x.lib.val c.tractOverlap = 3.5 := Dbl.value_seven_halves
  have hx : 0 < b₀.patchInnerDimensions.x := by decide
  have hy : 0 < b₀.patchInnerDimensions.y := by decide
  obtain ⟨D, l, ts, b, e1, e2⟩ := DodecaSkyMap.C60_builds (other := x.other) (env := x.env) (b₀ := b₀) (w := poles) (ov := 3.5)
    (.inr ⟨rfl, by norm_num, by norm_num⟩) ht0 ht1 ho hf hs hx hy
  obtain ⟨hD, hlen, hargs⟩ := DodecaSkyMap.args_ok ht0 ht1 ho e1
  obtain ⟨-, htlen, htr⟩ := DodecaSkyMap.C36_tracts ht0 ht1 ho e1 hx hy e2
  have hu := DodecaSkyMap.C75_dodeca_patches he ht0 ht1 ho (by
    rw [hscale, show (7205759403792794 / 2 ^ 55 * (π / 648000) - 0.2 * (π / 648000) : ℝ) = (7205759403792794 / 2 ^ 55 - 0.2) * (π / 648000) by ring,
      abs_mul, abs_of_pos (show 0 < π / 648000 by positivity), ← mul_assoc]
    refine mul_le_mul_of_nonneg_right ?_ (by positivity)
    norm_num [abs_le]) hf e1 (show b₀.patchInnerDimensions = ⟨4000, 4000⟩ from rfl) e2
  obtain ⟨hsame, hbuilt⟩ := EagerSkyMap.uniform_built e2 hx hy hu
  have hnew : SkyMapObj.new x.lib.impl (.dodeca poles) DefaultClass.dodeca.config version =
      .ok ⟨⟨.dodeca poles, c, .tuple [1, 0], none⟩, .eager ts b⟩ := by
    have : x.lib.tracts (.dodeca poles) c (.tuple [1, 0]) = .ok (.inr l) := by
      unfold SkyLib.tracts
      simp only [hwcs, hov]
      change (DodecaSkyMap.tracts x.tiny (f.makeWcs x.other ⟨0, 0⟩) x.order poles 3.5).map _ = _
      rw [e1]; rfl
    exact SkyMapObj.new_eager hinit this e2
  have hfind : ∀ p, ∃ t px pi, DodecaSkyMap.findTract D (EagerSkyMap.skyMapOps ts) p b = (.ok t, b) ∧ t.info.contains p = true ∧ t ∈ ts ∧
      t.info.findPatch x.env b p = .ok pi ∧ t.info.wcs.PixelOf p px ∧ pi.innerBBox.contains px = true ∧ InRange t.info.numPatches pi.index ∧
      t.info.getPatchInfo b (.index2D pi.index) = .ok pi ∧
      InPolygon t.info.getOuterSkyPolygon p ∧ InPolygon (pi.getOuterSkyPolygon none) p ∧ InPolygon (pi.getOuterSkyPolygon (some t.info.wcs)) p := by
    intro p
    obtain ⟨t, g1, g2, g3⟩ := DodecaSkyMap.C65_covers (by norm_num) (by norm_num) he ht0 ht1 ho hf hs e1 hx hy (by decide)
      (by norm_num [hb₀]; linarith) (by norm_num [hb₀]; linarith) e2 p
    obtain ⟨b', i, pi, k1, k2, k3, ⟨px, k4, k5⟩, k6, k7⟩ := g3 (by norm_num [hb₀]; linarith) (by norm_num [hb₀]; linarith)
    obtain ⟨t', g4, -, g5⟩ := DodecaSkyMap.C60_findTract (.inr ⟨rfl, by norm_num, by norm_num⟩) he ht0 ht1 ho hf hs e1 hx hy e2 p
    rw [g1, Prod.mk.injEq, Except.ok.injEq] at g4
    obtain ⟨rfl, -⟩ := g4
    obtain ⟨k, t', f1, -, f2, -⟩ := DodecaSkyMap.C36_findTract (ops := sphereOps) (fun _ _ => rfl) ht0 ht1 ho e1 hx hy e2 p
    rw [g1, Prod.mk.injEq, Except.ok.injEq] at f1
    obtain ⟨rfl, -⟩ := f1
    have hmem := List.mem_of_getElem? f2
    obtain rfl := k2 fun t' ht' => by rw [hu t' ht', hu t hmem]
    obtain ⟨a, -, hn⟩ := hbuilt k t f2
    have B := TractInfo.new_built hn hx hy
    have hbox := B.box
    rw [B.dims, hu t hmem] at hbox
    have hdim : t.info.bbox.dim = ⟨1400000, 1336000⟩ := by rw [hbox]; decide
    obtain ⟨px', pi', q1, q2, q3, q4⟩ := TractInfo.findsPatch he hn hx hy (by decide) (by rw [hdim]; norm_num) (by rw [hdim]; norm_num) g5
    have hpx : px' = px := by
      obtain ⟨r1, z1, z2⟩ := q1
      obtain ⟨r2, z3, z4⟩ := k4
      rw [z1, PixRes.pix.injEq] at z3
      rw [z2, z4, z3]
    subst hpx
    have hcont : t.info.getBBox.contains px' = true := by
      unfold TractInfo.contains at g5
      obtain ⟨r1, z1, z2⟩ := q1
      rw [z1] at g5
      rw [z2]
      exact g5
    have hii : i = pi'.index := (C02_tiling hn hx hy (by decide) px' hcont).unique ⟨pi, k3, k5⟩ ⟨pi', q4, q3⟩
    subst hii
    rw [k3, Except.ok.injEq] at q4
    subst q4
    have hr := ((B.ready.getPatchInfo_iff (by rw [B.border]; decide) _ t.info.wcs _).1 k3).1
    exact ⟨t, px', pi, g1, g5, hmem, q2, k4, k5, hr, k3, g2, k6, k7⟩
  refine ⟨_, ts, b, D, hnew, rfl, hD, htlen, hu, fun p => ?_, ?_⟩
  · obtain ⟨t, px, pi, h1, h2, -, h3, h4, h5, -, -, h6, h7, -⟩ := hfind p
    exact ⟨t, px, pi, h1, h2, h3, h4, h5, h6, h7⟩
  · intro H fault name reg calls hfault hsound hfresh
    obtain ⟨h, hh⟩ : ∃ h, ((⟨.dodeca poles, c, .tuple [1, 0], none⟩ : HashedMap).getSha1 H).1 = .ok h :=
      sha1_fresh (sha1_dodeca poles)
    obtain ⟨w', r1, r2⟩ := eager_registers (H := H) (fault := fault) (name := name) (w := ⟨b, ⟨.dodeca poles, c, .tuple [1, 0], none⟩, reg, calls⟩) e2
      (fun i a hi => by
        obtain ⟨cs, z1, -⟩ := hargs hi
        unfold DodecaSkyMap.tract at z1
        obtain ⟨_, -, z1⟩ := bindOk z1
        obtain ⟨_, -, z1⟩ := bindOk z1
        obtain ⟨_, -, z1⟩ := bindOk z1
        obtain ⟨_, -, z1⟩ := bindOk z1
        simp only [pure, Except.pure, Except.ok.injEq] at z1
        rw [← z1]) hx hy (by decide) (by rw [hlen]; decide) hsame hfault (SkyMapOps.After.refl _) hsound hh
      (fun r hr => ⟨(hfresh r hr).1, (hfresh r hr).2 h hh⟩)
    have ha : w'.map = b := by
      have := acc_register (M := EagerSkyMap.skyMapOps ts) H fault name ⟨b, ⟨.dodeca poles, c, .tuple [1, 0], none⟩, reg, calls⟩
      rw [r1] at this
      exact EagerSkyMap.after_eq this
    refine ⟨w', r1, r2, fun p => ?_⟩
    obtain ⟨t, px, pi, h1, h2, hm, h3, h4, h5, hr, hi, h6, h7, h8⟩ := hfind p
    obtain ⟨⟨y, y1, rfl⟩, y2⟩ := r2.eager_rows hm
    obtain ⟨z, z1, z2, z3, -, -, z4⟩ := y2 pi.index pi hr (by rw [ha]; exact hi)
    exact ⟨t, by rw [ha]; exact h1, ⟨_, y1, rfl, rfl, h6⟩, z, z1, z2, z3, by rw [z4]; exact h8⟩

/-! ## The equatorial sky map -/

/-- C75: the equatorial sky map with the default configuration can be built; it has four tracts; for every position with a declination of at most 1.75
degrees (1.25 degrees and half the overlap) `findTract` finds a tract that contains it, `findPatch` finds the patch of this tract with the
position in its inner box, and the position is in the outer polygon of the tract; and it can be registered under a new name in any registry, if the butler
does not fail, after which the position is in the region of the row of the tract and of the row of one of its patches. -/
theorem C75_equat {x : SkyChoice} (he : x.env.Ok) (version : Version) :
    ∃ o ts b, SkyMapObj.new x.lib.impl DefaultClass.equat.fields DefaultClass.equat.config version = .ok o ∧ o.tracts = .eager ts b ∧ ts.length = 4 ∧
      (∀ t ∈ ts, ∀ t' ∈ ts, t.info.numPatches = t'.info.numPatches) ∧
      (∀ p : SpherePoint ℝ, 0 ≤ p.lon → p.lon < 2 * π → |p.lat| ≤ 1.75 * (π / 180) →
        ∃ t, BaseSkyMap.findTract sphereOps (EagerSkyMap.skyMapOps ts) p b = (.ok t, b) ∧ t.info.contains p = true ∧
          FindsPatch x.env t.info b p ∧ InPolygon t.info.getOuterSkyPolygon p) ∧
      ∀ (H : Bytes → Bytes) (fault : Nat → Option PyErr) (name : String) (reg : Registry (SpherePoint ℝ)) (calls : Nat), (∀ n, fault n = none) →
        reg.Sound → (∀ r ∈ reg.skymaps, r.skymap ≠ name ∧ ∀ h, (o.hashed.getSha1 H).1 = .ok h → r.hash ≠ h) →
        ∃ w', register H fault (EagerSkyMap.skyMapOps ts) name ⟨b, o.hashed, reg, calls⟩ = (.ok (), w') ∧
          RegisteredExactly (EagerSkyMap.skyMapOps ts) name w' ∧
          ∀ p : SpherePoint ℝ, 0 ≤ p.lon → p.lon < 2 * π → |p.lat| ≤ 1.75 * (π / 180) →
            ∃ t, BaseSkyMap.findTract sphereOps (EagerSkyMap.skyMapOps ts) p w'.map = (.ok t, w'.map) ∧
              (∃ r ∈ w'.reg.tracts, r.skymap = name ∧ r.tract = t.info.id ∧ InPolygon r.region p) ∧
              ∃ r ∈ w'.reg.patches, r.skymap = name ∧ r.tract = t.info.id ∧ InPolygon r.region p := by
  have hpi := pi_pos
  have hp1 := pi_gt_d2
  have hp2 := pi_lt_d2
  set c : SkyMapConfig Dbl := { DefaultClass.equat.config with frozen := true } with hc
  set b₀ : TractBuilder := ⟨.legacy, ⟨4000, 4000⟩, 100, none⟩ with hb₀
  set scale : ℝ := 5998794703657501 / 2 ^ 54 * (π / 648000) with hscale
  have hs : 0 < scale := by positivity
  have hs1 : 1e-6 ≤ scale := by rw [hscale]; norm_num; linarith
  have hs2 : scale ≤ 2e-6 := by rw [hscale]; norm_num; linarith
  obtain ⟨f, hf⟩ := (WcsFactory.C56_projection_length scale "CEA" 0 false).2 rfl
  have hinit : BaseSkyMap.init DefaultClass.equat.config = (.ok b₀, c) := rfl
  have hwcs : x.lib.wcs c = f.makeWcs x.other ⟨0, 0⟩ :=
    x.lib_wcs c (by rw [hscale]; exact congrArg (· * _) Dbl.value_third) (by
      change Dbl.value 0 * _ = 0
      rw [Dbl.value_zero, zero_mul]) hf
  have hov : x.lib.val c.tractOverlap = 1 := Dbl.value_one
  have hx : 0 < b₀.patchInnerDimensions.x := by decide
  have hy : 0 < b₀.patchInnerDimensions.y := by decide
  have a0 : |(-5 / 4 : ℝ)| = 5 / 4 := by norm_num [abs_div]
  have a1 : |(5 / 4 : ℝ)| = 5 / 4 := by norm_num [abs_div]
  obtain ⟨l, ts, b, e1, e2⟩ := Equat.C59_builds (other := x.other) (env := x.env) (b₀ := b₀) (n := 4) (d0 := -5 / 4) (d1 := 5 / 4) (ov := 1)
    (by norm_num) (by norm_num [a0]) (by norm_num [a1]) hx hy hf hs
  obtain ⟨hsame, hbuilt⟩ := Equat.C62_same_size (P := .CEA) (by norm_num) (by norm_num [a0]) (by norm_num [a1]) hf rfl e1 e2
  obtain ⟨htlen, -⟩ := Equat.C35_tracts (by norm_num) (by norm_num [a0]) (by norm_num [a1]) e1 hx hy e2
  have hnew : SkyMapObj.new x.lib.impl DefaultClass.equat.fields DefaultClass.equat.config version =
      .ok ⟨⟨DefaultClass.equat.fields, c, .tuple [1, 0], none⟩, .eager ts b⟩ := by
    have : x.lib.tracts DefaultClass.equat.fields c (.tuple [1, 0]) = .ok (.inr l) := by
      unfold DefaultClass.fields SkyLib.tracts
      simp only [hwcs, hov, List.map_cons, List.map_nil]
      change (Equat.tracts .exact (f.makeWcs x.other ⟨0, 0⟩) ⟨4, [Dbl.value 0xbff4000000000000, Dbl.value 0x3ff4000000000000], 1⟩).map _ = _
      rw [Dbl.value_south, Dbl.value_north]
      rw [Nat.cast_ofNat] at e1
      rw [e1]; rfl
    exact SkyMapObj.new_eager hinit this e2
  have hlat : ∀ p : SpherePoint ℝ, |p.lat| ≤ 1.75 * (π / 180) → |p.lat| < π / 2 ∧ Equat.rad (-5 / 4 - 1 / 2) ≤ p.lat ∧ p.lat ≤ Equat.rad (5 / 4 + 1 / 2) := by
    intro p hp
    have := abs_le.1 hp
    unfold Equat.rad
    refine ⟨by linarith, by linarith, by linarith⟩
  have hcov : ∀ p : SpherePoint ℝ, 0 ≤ p.lon → p.lon < 2 * π → |p.lat| ≤ 1.75 * (π / 180) →
      ∃ t, BaseSkyMap.findTract sphereOps (EagerSkyMap.skyMapOps ts) p b = (.ok t, b) ∧ t ∈ ts ∧ InPolygon t.info.getOuterSkyPolygon p ∧
        ∃ i pi, InRange t.info.numPatches i ∧ t.info.getPatchInfo b (.index2D i) = .ok pi ∧ InPolygon (pi.getOuterSkyPolygon (some t.info.wcs)) p := by
    intro p l0 l1 lp
    obtain ⟨h1, h2, h3⟩ := hlat p lp
    obtain ⟨t, g1, g2, g3, g4⟩ := Equat.C66_covers (by norm_num) (by norm_num) (by norm_num) (by norm_num [a0]) (by norm_num [a1]) (by norm_num) (by norm_num) he hx hy
      (by decide) hf hs (by norm_num [hb₀]; linarith) (by norm_num [hb₀]; linarith) e1 e2 ⟨l0, l1⟩ h2 h3
    obtain ⟨i, pi, k1, k2, -, -, k3⟩ := g4 (by norm_num [hb₀]; linarith)
    exact ⟨t, g1, g2, g3, i, pi, k1, k2, k3⟩
  refine ⟨_, ts, b, hnew, rfl, htlen, fun t h1 t' h2 => (hsame t h1 t' h2).1, fun p l0 l1 lp => ?_, ?_⟩
  · obtain ⟨h1, h2, h3⟩ := hlat p lp
    obtain ⟨t, g1, -, g3, -⟩ := hcov p l0 l1 lp
    obtain ⟨t', g4, g5⟩ := Equat.C59_findTract (by norm_num) (by norm_num [a0]) (by norm_num [a1]) (by norm_num) (by norm_num) (by norm_num) (by norm_num)
      he hx hy hf hs e1 e2 ⟨l0, l1⟩ h1 h2 h3
    have hbig : 2 * (π / scale) ≤ 8e6 := by
      rw [← mul_div_assoc, div_le_iff₀ hs]
      norm_num at *
      linarith
    obtain ⟨t'', g6, g7⟩ := Equat.C62_findPatch (by norm_num) (by norm_num [a0]) (by norm_num [a1]) (by norm_num) (by norm_num) (by norm_num) (by norm_num)
      he hx hy (by decide) hf hs e1 e2 (by norm_num [hb₀] at hbig ⊢; linarith) (by norm_num [hb₀] at hbig ⊢; linarith) ⟨l0, l1⟩ h1 h2 h3
    rw [g1, Prod.mk.injEq, Except.ok.injEq] at g4 g6
    obtain ⟨rfl, -⟩ := g4
    obtain ⟨rfl, -⟩ := g6
    exact ⟨t, g1, g5, g7, g3⟩
  · intro H fault name reg calls hfault hsound hfresh
    obtain ⟨h, hh⟩ : ∃ h, ((⟨DefaultClass.equat.fields, c, .tuple [1, 0], none⟩ : HashedMap).getSha1 H).1 = .ok h := sha1_fresh sha1_equat
    obtain ⟨l', ts', b', z1, z2, w', r1, r2⟩ := Equat.C63_registers (H := H) (fault := fault) (name := name) (env := x.env) (other := x.other) (b₀ := b₀) (n := 4)
      (d0 := -5 / 4) (d1 := 5 / 4) (ov := 1)
      (by norm_num) (by norm_num [a0]) (by norm_num [a1]) hx hy (by decide) hf hs hfault hsound
      (hm := ⟨DefaultClass.equat.fields, c, .tuple [1, 0], none⟩) (calls := calls) hh (fun r hr => ⟨(hfresh r hr).1, (hfresh r hr).2 h hh⟩)
    rw [e1, Except.ok.injEq] at z1
    subst z1
    rw [e2, Except.ok.injEq, Prod.mk.injEq] at z2
    obtain ⟨rfl, rfl⟩ := z2
    have ha : w'.map = b := by
      have := acc_register (M := EagerSkyMap.skyMapOps ts) H fault name ⟨b, ⟨DefaultClass.equat.fields, c, .tuple [1, 0], none⟩, reg, calls⟩
      rw [r1] at this
      exact EagerSkyMap.after_eq this
    refine ⟨w', r1, r2, fun p l0 l1 lp => ?_⟩
    obtain ⟨t, h1, hm, h6, i, pi, hr, hi, h8⟩ := hcov p l0 l1 lp
    obtain ⟨⟨y, y1, rfl⟩, y2⟩ := r2.eager_rows hm
    obtain ⟨z, z1, z2, z3, -, -, z4⟩ := y2 i pi hr (by rw [ha]; exact hi)
    exact ⟨t, by rw [ha]; exact h1, ⟨_, y1, rfl, rfl, h6⟩, z, z1, z2, z3, by rw [z4]; exact h8⟩

/-! ## Rings sky maps -/

/-- C75: the rings sky map with 29 rings or more and the default configuration otherwise can be built; whatever was accessed before, for every position on
the sky `findTract` finds a tract that contains it and `findPatch` on it, whatever is accessed in between, finds the patch with the position in its inner
box; and it can be registered under a new name in any registry, if the butler does not fail, after which the position is in the region of the row of
the tract and of the row of one of its patches. -/
theorem C75_rings {x : SkyChoice} (he : x.env.Ok) {n : ℤ} (hn : 29 ≤ n) (hn' : n < 2 ^ 31) :
    ∃ o m s₀ R, SkyMapObj.new x.lib.impl (DefaultClass.rings n).fields (DefaultClass.rings n).config (.int 1) = .ok o ∧ o.tracts = .caching m s₀ ∧
      Rings.new .exact ⟨n.toNat, 0, 1⟩ 1 = .ok R ∧
      (∀ s, (CachingSkyMap.skyMapOps m).After s₀ s → ∀ p : SpherePoint ℝ, 0 ≤ p.lon → p.lon < 2 * π → |p.lat| ≤ π / 2 →
        ∃ r s', R.findTract .exact (CachingSkyMap.skyMapOps m) p s = (.ok r, s') ∧ r.info.contains p = true ∧
          ∀ s'', (CachingSkyMap.skyMapOps m).After s' s'' → FindsPatch x.env r.info s''.builder p) ∧
      ∀ (H : Bytes → Bytes) (fault : Nat → Option PyErr) (name : String) (reg : Registry (SpherePoint ℝ)) (calls : Nat) (s : MapState (SpherePoint ℝ) ℝ),
        (CachingSkyMap.skyMapOps m).After s₀ s → (∀ n, fault n = none) →
        reg.Sound → (∀ r ∈ reg.skymaps, r.skymap ≠ name ∧ ∀ h, (o.hashed.getSha1 H).1 = .ok h → r.hash ≠ h) →
        ∃ w', register H fault (CachingSkyMap.skyMapOps m) name ⟨s, o.hashed, reg, calls⟩ = (.ok (), w') ∧
          RegisteredExactly (CachingSkyMap.skyMapOps m) name w' ∧
          ∀ p : SpherePoint ℝ, 0 ≤ p.lon → p.lon < 2 * π → |p.lat| ≤ π / 2 →
            ∃ t, R.findTract .exact (CachingSkyMap.skyMapOps m) p w'.map = (.ok t, w'.map) ∧
              (∃ r ∈ w'.reg.tracts, r.skymap = name ∧ r.tract = t.info.id ∧ InPolygon r.region p) ∧
              ∃ r ∈ w'.reg.patches, r.skymap = name ∧ r.tract = t.info.id ∧ InPolygon r.region p := by
  have hpi := pi_pos
  have hp1 := pi_gt_d2
  have hp2 := pi_lt_d2
  obtain ⟨N, rfl⟩ := Int.eq_ofNat_of_zero_le (by omega : 0 ≤ n)
  have hN : 29 ≤ N := by omega
  have hNr : (29 : ℝ) ≤ N := by exact_mod_cast hN
  set cls : DefaultClass := .rings (N : ℤ) with hcls
  set c : SkyMapConfig Dbl := { cls.config with frozen := true } with hc
  set b₀ : TractBuilder := ⟨.legacy, ⟨4000, 4000⟩, 100, none⟩ with hb₀
  set scale : ℝ := 5998794703657501 / 2 ^ 54 * (π / 648000) with hscale
  have hs : 0 < scale := by positivity
  have hs1 : 1e-6 ≤ scale := by rw [hscale]; norm_num; linarith
  have hs2 : scale ≤ 2e-6 := by rw [hscale]; norm_num; linarith
  obtain ⟨f, hf⟩ := (WcsFactory.C56_projection_length scale "STG" 0 false).2 rfl
  have hinit : BaseSkyMap.init cls.config = (.ok b₀, c) := init_rings N
  have hwcs : x.lib.wcs c = f.makeWcs x.other ⟨0, 0⟩ :=
    x.lib_wcs c (by rw [hscale]; exact congrArg (· * _) Dbl.value_third) (by
      change Dbl.value 0 * _ = 0
      rw [Dbl.value_zero, zero_mul]) hf
  have hov : x.lib.val c.tractOverlap = 1 := Dbl.value_one
  have hra : x.lib.val 0 = 0 := Dbl.value_zero
  have hx : 0 < b₀.patchInnerDimensions.x := by decide
  have hy : 0 < b₀.patchInnerDimensions.y := by decide
  obtain ⟨R, hR⟩ := Rings.new_ok ⟨N, 0, 1⟩ (v := 1) (.inr rfl)
  set m := R.cachingDef .exact x.env sphereOps (f.makeWcs x.other ⟨0, 0⟩) with hm
  have hnew : SkyMapObj.new x.lib.impl cls.fields cls.config (.int 1) = .ok ⟨⟨cls.fields, c, .int 1, none⟩, .caching m (CachingSkyMap.init m b₀)⟩ := by
    have : x.lib.tracts cls.fields c (.int 1) = .ok (.inl m) := by
      unfold DefaultClass.fields SkyLib.tracts
      simp only [hcls, hwcs, hov, hra, Int.toNat_natCast]
      rw [if_neg (by omega)]
      change (Rings.new .exact ⟨N, 0, 1⟩ 1).map _ = _
      rw [hR]; rfl
    exact SkyMapObj.new_caching hinit this
  have hlim : 90 / ((N : ℝ) + 1) + 1 ≤ 4 := by
    have : 90 / ((N : ℝ) + 1) ≤ 3 := by rw [div_le_iff₀ (by linarith)]; linarith
    linarith
  have hpos : 0 ≤ 90 / ((N : ℝ) + 1) := by positivity
  have hov1 : 30 / ((N : ℝ) + 1) ≤ 1 := by rw [div_le_iff₀ (by linarith)]; linarith
  have htan : 2 * tan ((90 / ((N : ℝ) + 1) + 1) * (π / 180) / 2) ≤ 1.2 := by
    have h1 : tan ((90 / ((N : ℝ) + 1) + 1) * (π / 180) / 2) ≤ tan (π / 6) := by
      apply strictMonoOn_tan.monotoneOn
      · constructor <;> nlinarith
      · constructor <;> linarith
      · nlinarith
    rw [tan_pi_div_six] at h1
    have h2 : 1 / √3 ≤ 0.6 := by
      rw [div_le_iff₀ (by positivity)]
      have : (1.7 : ℝ) ≤ √3 := le_sqrt_of_sq_le (by norm_num)
      linarith
    linarith
  refine ⟨_, m, CachingSkyMap.init m b₀, R, hnew, rfl, hR, fun s ha p l0 l1 l2 => ?_, ?_⟩
  · obtain ⟨r, s', hr⟩ := Rings.C58_total (other := x.other) (env := x.env) (b₀ := b₀) hR hx hy hf hs (P := .STG) rfl (by decide) (by norm_num)
      (by dsimp only; linarith) ha ⟨l0, l1⟩ l2
    refine ⟨r, s', hr, ?_, fun s'' hs'' => ?_⟩
    · exact Rings.C58_covers hR (by dsimp only; omega) he hx hy hf hs (P := .STG) rfl (by decide) hov1 (by dsimp only; linarith) ha ⟨l0, l1⟩ l2 hr
    · have hbig : 2 * (Projection.STG.radius ((90 / ((N : ℝ) + 1) + 1) * (π / 180)) / scale) + (4000 : ℤ) + 3 ≤ 2 ^ 53 := by
        have : Projection.STG.radius ((90 / ((N : ℝ) + 1) + 1) * (π / 180)) / scale ≤ 1.2e6 := by
          rw [div_le_iff₀ hs]
          simp only [Projection.radius]
          refine htan.trans ?_
          norm_num at *
          linarith
        norm_num at *
        linarith
      exact Rings.C62_findPatch hR (by dsimp only; omega) he hx hy (by decide) hf hs (P := .STG) rfl (by decide) hov1 (by dsimp only; linarith) rfl ha ⟨l0, l1⟩ l2
        hr hs'' hbig hbig
  · intro H fault name reg calls s ha hfault hsound hfresh
    obtain ⟨h, hh⟩ : ∃ h, ((⟨cls.fields, c, .int 1, none⟩ : HashedMap).getSha1 H).1 = .ok h := by
      apply sha1_fresh
      exact sha1_rings (by omega) hn'
    obtain ⟨w', r1, r2⟩ := Rings.C63_registers (H := H) (fault := fault) (name := name) (env := x.env) (other := x.other) (b₀ := b₀)
      (w := ⟨s, ⟨cls.fields, c, .int 1, none⟩, reg, calls⟩) hR hx hy (by decide) hf hs (P := .STG) rfl (by decide) (by norm_num) (by dsimp only; linarith) hfault rfl ha hsound hh
      (fun r hr => ⟨(hfresh r hr).1, (hfresh r hr).2 h hh⟩)
    obtain ⟨w'', r3, r4⟩ := Rings.C65_registered (H := H) (fault := fault) (name := name) (env := x.env) (other := x.other) (b₀ := b₀)
      (w := ⟨s, ⟨cls.fields, c, .int 1, none⟩, reg, calls⟩) hR (by dsimp only; omega) he hx hy (by decide) hf hs hov1 (by dsimp only; linarith)
      (by dsimp only; norm_num [hb₀] at htan ⊢; linarith) (by dsimp only; norm_num [hb₀] at htan ⊢; linarith) hfault rfl ha hsound hh
      (fun r hr => ⟨(hfresh r hr).1, (hfresh r hr).2 h hh⟩)
    have : w'' = w' := by
      have h1 := r3.symm.trans r1
      exact (Prod.mk.injEq .. ▸ h1).2
    subst this
    refine ⟨w'', r1, r2, fun p l0 l1 l2 => ?_⟩
    obtain ⟨r, g1, g2, g3⟩ := r4 p l0 l1 l2
    exact ⟨r, g1, g2, g3 (by norm_num [hb₀]; linarith) (by norm_num [hb₀]; linarith) (by norm_num [hb₀]; linarith) (by norm_num [hb₀]; linarith)⟩

/-! ## The discrete sky map -/

/-- C75: the discrete sky map with the default configuration can be built but has no tract: `findTract` raises IndexError for every position, and
`register` raises ValueError and leaves the registry as it was. -/
theorem C75_discrete (x : SkyChoice) (version : Version) :
    ∃ o m s₀, SkyMapObj.new x.lib.impl DefaultClass.discrete.fields DefaultClass.discrete.config version = .ok o ∧ o.tracts = .caching m s₀ ∧
      o.len = 0 ∧ (∀ p, BaseSkyMap.findTract sphereOps (CachingSkyMap.skyMapOps m) p s₀ = (.error .IndexError, s₀)) ∧
      ∀ H fault name reg calls, register H fault (CachingSkyMap.skyMapOps m) name ⟨s₀, o.hashed, reg, calls⟩ =
        (.error .ValueError, ⟨s₀, o.hashed, reg, calls⟩) := by
  refine ⟨_, _, _, SkyMapObj.new_caching init_default rfl, rfl, rfl, fun p => rfl, fun H fault name reg calls => rfl⟩

/-! ## Hypotheses met -/

/-- The theorems of C75 for one choice of the free parts of the library. -/
example (hp other) : ∃ x : SkyChoice, x.hp = hp ∧ x.other = other ∧ x.env.Ok ∧ 0 < x.tiny ∧ x.tiny ≤ 1 / 10 ∧ x.order.Ok :=
  ⟨⟨Ex.realEnv, hp, ascending, 1 / 1000, other⟩, rfl, rfl, Ex.realEnv_ok, by norm_num, by norm_num, ascending_ok⟩

/-- The default dodecahedral, equatorial and 120-ring sky maps are registered in an empty registry. -/
example (hp other) (p : SpherePoint ℝ) : ∃ x : SkyChoice, x.hp = hp ∧ x.other = other ∧
    (∃ o ts b w', SkyMapObj.new x.lib.impl DefaultClass.dodeca.fields DefaultClass.dodeca.config (.int 0) = .ok o ∧ o.tracts = .eager ts b ∧
      register id (fun _ => none) (EagerSkyMap.skyMapOps ts) "d" ⟨b, o.hashed, {}, 0⟩ = (.ok (), w') ∧
      ∃ r ∈ w'.reg.tracts, r.skymap = "d" ∧ InPolygon r.region p) ∧
    (∃ o ts b w', SkyMapObj.new x.lib.impl DefaultClass.equat.fields DefaultClass.equat.config (.int 0) = .ok o ∧ o.tracts = .eager ts b ∧
      register id (fun _ => none) (EagerSkyMap.skyMapOps ts) "e" ⟨b, o.hashed, {}, 0⟩ = (.ok (), w')) ∧
    ∃ o m s₀ w', SkyMapObj.new x.lib.impl (DefaultClass.rings 120).fields (DefaultClass.rings 120).config (.int 1) = .ok o ∧ o.tracts = .caching m s₀ ∧
      register id (fun _ => none) (CachingSkyMap.skyMapOps m) "r" ⟨s₀, o.hashed, {}, 0⟩ = (.ok (), w') := by
  refine ⟨⟨Ex.realEnv, hp, ascending, 1 / 1000, other⟩, rfl, rfl, ?_, ?_, ?_⟩
  · obtain ⟨o, ts, b, D, h1, h2, -, -, -, -, h3⟩ := C75_dodeca (x := ⟨Ex.realEnv, hp, ascending, 1 / 1000, other⟩) Ex.realEnv_ok (by norm_num) (by norm_num)
      ascending_ok false (.int 0)
    obtain ⟨w', h4, -, h5⟩ := h3 id (fun _ => none) "d" {} 0 (fun _ => rfl) Registry.sound_empty (fun r hr => by simp at hr)
    obtain ⟨t, -, ⟨r, h6, h7, -, h8⟩, -⟩ := h5 p
    exact ⟨o, ts, b, w', h1, h2, h4, r, h6, h7, h8⟩
  · obtain ⟨o, ts, b, h1, h2, -, -, -, h3⟩ := C75_equat (x := ⟨Ex.realEnv, hp, ascending, 1 / 1000, other⟩) Ex.realEnv_ok (.int 0)
    obtain ⟨w', h4, -⟩ := h3 id (fun _ => none) "e" {} 0 (fun _ => rfl) Registry.sound_empty (fun r hr => by simp at hr)
    exact ⟨o, ts, b, w', h1, h2, h4⟩
  · obtain ⟨o, m, s₀, R, h1, h2, -, -, h3⟩ := C75_rings (x := ⟨Ex.realEnv, hp, ascending, 1 / 1000, other⟩) Ex.realEnv_ok (n := 120) (by norm_num) (by norm_num)
    obtain ⟨w', h4, -⟩ := h3 id (fun _ => none) "r" {} 0 s₀ (SkyMapOps.After.refl _) (fun _ => rfl) Registry.sound_empty (fun r hr => by simp at hr)
    exact ⟨o, m, s₀, w', h1, h2, h4⟩

end Skymap
