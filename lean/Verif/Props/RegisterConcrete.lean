import Verif.Props.Uniform

/-! # C63: registering a rings sky map, a discrete sky map with equal radii or an equatorial sky map -/

set_option linter.unusedSectionVars false

namespace Skymap
open Real BaseSkyMap

/-! ## Specification vocabulary -/

/-- The registry has exactly the rows it should have for the sky map with this name: one tract row per tract, one patch row per patch of
each tract, numbered and placed as the sky map says, and one dataset. -/
def RegisteredExactly {σ Sky K : Type} [Field K] [LinearOrder K] [FloorRing K] (M : SkyMapOps σ Sky K) (name : String) (w : World σ Sky) : Prop :=
  ∃ ts, M.Tracts w.map ts ∧ (∀ (k : Nat) t, ts[k]? = some t → t.info.id = (k : Int)) ∧
    (∀ x ∈ w.reg.tracts, x.skymap = name → ∃ t ∈ ts, x = ⟨name, t.info.id, t.info.getOuterSkyPolygon⟩) ∧
    (∀ t ∈ ts, w.reg.tracts.countP (fun x => decide ((x.skymap, x.tract) = (name, t.info.id))) = 1) ∧
    (∀ p ∈ w.reg.patches, p.skymap = name → ∃ t ∈ ts, p.tract = t.info.id ∧ InRange t.info.numPatches ⟨p.cellX, p.cellY⟩ ∧
      p.patch = t.info.numPatches.x * p.cellY + p.cellX ∧
      ∃ q, t.info.getPatchInfo (M.builder w.map) (.index2D ⟨p.cellX, p.cellY⟩) = .ok q ∧
        t.info.getSequentialPatchIndex (M.builder w.map) q = .ok p.patch ∧ p.region = q.getOuterSkyPolygon (some t.info.wcs)) ∧
    (∀ t ∈ ts, ∀ i, InRange t.info.numPatches i →
      w.reg.patches.countP (fun p => decide ((p.skymap, p.tract, p.cellX, p.cellY) = (name, t.info.id, i.x, i.y))) = 1) ∧
    w.reg.datasets.countP (fun x => decide (x.skymap = name)) = 1

variable {H : Bytes → Bytes} {fault : Nat → Option PyErr} {name : String}

section general
variable {σ Sky K : Type} [Field K] [LinearOrder K] [IsStrictOrderedRing K] [FloorRing K]

theorem registers {M : SkyMapOps σ Sky K} {w : World σ Sky} (hf : ∀ n, fault n = none) (hp : M.Proper w.map) (hs : w.reg.Sound)
    (hlen : 0 < M.len) (hl : ∃ l, (BaseSkyMap.iter M w.map).1 = .ok l) {b : Bytes} (hb : (w.hashed.getSha1 H).1 = .ok b)
    (hnew : ∀ x ∈ w.reg.skymaps, x.skymap ≠ name ∧ x.hash ≠ b)
    (hu : ∀ s ts, M.After w.map s → M.Tracts s ts → ∀ t ∈ ts, ∀ t' ∈ ts, t.info.numPatches = t'.info.numPatches) :
    ∃ w', register H fault M name w = (.ok (), w') ∧ RegisteredExactly M name w' := by
  have h1 := C49_succeeds H fault hf M name w hp hs hlen hl b hb hnew hu
  have h2 : register H fault M name w = (.ok (), (register H fault M name w).2) := Prod.ext h1 rfl
  exact ⟨_, h2, C49_exactly_once H fault M name w _ hp hs h2 (fun x hx => (hnew x hx).1) (fun ts => hu _ ts (acc_register H fault name w))⟩

/-- A caching sky map with tracts of the same size that can all be generated. -/
theorem caching_registers {m : CachingDef Sky K} {b₀ : TractBuilder} (hid : ∀ i a, m.tractArgs i = .ok a → a.id = i)
    (hx : 0 < b₀.patchInnerDimensions.x) (hy : 0 < b₀.patchInnerDimensions.y) (hbord : 0 ≤ b₀.patchBorder) (hu : m.Uniform b₀)
    (hlen : 0 < m.numTracts) (hgen : ∀ k : Nat, k < m.numTracts → ∃ r s, CachingSkyMap.getItem m k (CachingSkyMap.init m b₀) = (.ok r, s))
    (hf : ∀ n, fault n = none) {w : World (MapState Sky K) Sky}
    (h : (CachingSkyMap.skyMapOps m).After (CachingSkyMap.init m b₀) w.map) (hs : w.reg.Sound) {b : Bytes}
    (hb : (w.hashed.getSha1 H).1 = .ok b) (hnew : ∀ x ∈ w.reg.skymaps, x.skymap ≠ name ∧ x.hash ≠ b) :
    ∃ w', register H fault (CachingSkyMap.skyMapOps m) name w = (.ok (), w') ∧ RegisteredExactly (CachingSkyMap.skyMapOps m) name w' := by
  refine registers hf (CachingSkyMap.caching_proper hid hx hy hbord h) hs hlen ?_ hb hnew
    fun s ts hs ht => uniform_tracts hu (h.trans hs) ts ht
  rcases hi : BaseSkyMap.iter (CachingSkyMap.skyMapOps m) w.map with ⟨x, s'⟩
  cases x with
  | ok l => exact ⟨l, rfl⟩
  | error e =>
    exfalso
    obtain ⟨k, hk, he⟩ := (C18_iteration hid h).2 e hi
    obtain ⟨r, s, hr⟩ := hgen k hk
    rw [he] at hr
    simp at hr

end general

variable {env : FloatEnv ℝ} {b₀ : TractBuilder} {scale θ : ℝ} {code : String} {flipX : Bool} {f : WcsFactory} {P : Projection}
  {other : P2 ℝ → SpherePoint ℝ → CdMatrix → String → Wcs (SpherePoint ℝ) ℝ} {w : World (MapState (SpherePoint ℝ) ℝ) (SpherePoint ℝ)}

/-- C63: a rings sky map of version 1 with TAN or STG projection, whose tracts reach less than 90 degrees from their centres, can be registered
under a new name in any registry, whatever was accessed before, if the butler does not fail; then the registry has exactly its rows. -/
theorem Rings.C63_registers {c : RingsConfig ℝ} {R : Rings ℝ} (h : Rings.new .exact c 1 = .ok R) (hx : 0 < b₀.patchInnerDimensions.x)
    (hy : 0 < b₀.patchInnerDimensions.y) (hbord : 0 ≤ b₀.patchBorder) (hf : WcsFactory.new scale code θ flipX = .ok f) (hsc : 0 < scale)
    (hP : Projection.ofCode code = some P) (hz : P ≠ .CEA)
    (hov : 0 ≤ c.tractOverlap) (hlim : 90 / ((c.numRings : ℝ) + 1) + c.tractOverlap < 90) (hfault : ∀ n, fault n = none)
    {M : SkyMapOps (MapState (SpherePoint ℝ) ℝ) (SpherePoint ℝ) ℝ} (hM : M = Rings.skyMapOps .exact R env sphereOps (f.makeWcs other ⟨0, 0⟩))
    (ha : M.After (Rings.init .exact R env sphereOps (f.makeWcs other ⟨0, 0⟩) b₀) w.map) (hs : w.reg.Sound) {b : Bytes}
    (hb : (w.hashed.getSha1 H).1 = .ok b) (hnew : ∀ x ∈ w.reg.skymaps, x.skymap ≠ name ∧ x.hash ≠ b) :
    ∃ w', register H fault M name w = (.ok (), w') ∧ RegisteredExactly M name w' := by
  subst hM
  have hp := pi_pos
  obtain ⟨h1, -⟩ := new_exact h
  obtain ⟨s0, s1⟩ := size_pos h
  have hN := (new_wf h).1.numTracts_ge
  refine caching_registers (m := R.cachingDef .exact env sphereOps (f.makeWcs other ⟨0, 0⟩)) ?_ hx hy hbord
    (CachingSkyMap.uniform_of (same_pixels .exact R env hf hP hz) b₀) ?_ ?_ hfault ha hs hb hnew
  · intro i a hi
    simp only [cachingDef] at hi
    obtain ⟨q, -, hi⟩ := bindOk hi
    obtain ⟨g, -, hi⟩ := bindOk hi
    simp only [pure, Except.pure, Except.ok.injEq] at hi
    rw [← hi]
  · change 0 < R.numTracts.toNat
    omega
  · intro k hk
    change k < R.numTracts.toNat at hk
    refine generate_at h hx hy ?_ (by omega) (SkyMapOps.After.refl _)
    intro ctr x
    have er : (90 / ((c.numRings : ℝ) + 1) + c.tractOverlap) * (π / 180) =
        FloatArith.exact.mul (1 / 2) R.ringSize + FloatArith.exact.deg2rad R.config.tractOverlap := by
      rw [h1]
      have hne : (c.numRings : ℝ) + 1 ≠ 0 := by
        intro h0
        rw [h0, mul_zero] at s1
        linarith
      have es : R.ringSize = π / ((c.numRings : ℝ) + 1) := by rw [← s1]; field_simp
      change _ = 1 / 2 * R.ringSize + c.tractOverlap * (π / 180)
      rw [es]
      field_simp
      ring
    rw [← er]
    have h0 : 0 ≤ (90 / ((c.numRings : ℝ) + 1) + c.tractOverlap) * (π / 180) := by
      rw [er]
      have : FloatArith.exact.deg2rad R.config.tractOverlap = c.tractOverlap * (π / 180) := by rw [h1]; rfl
      rw [this]
      change 0 ≤ 1 / 2 * R.ringSize + _
      positivity
    exact ⟨_, WcsFactory.C56_bearing hf hsc.ne' hP _ _ _ h0 (lt_of_lt_of_le (by nlinarith) (half_le_limit hz))⟩

/-- C63: a discrete sky map with one tract or more, all of the same radius, with a zenithal projection that reaches beyond radius and
overlap, can be registered under a new name in any registry, whatever was accessed before, if the butler does not fail; then the registry
has exactly its rows. -/
theorem C63_discrete_registers (hx : 0 < b₀.patchInnerDimensions.x) (hy : 0 < b₀.patchInnerDimensions.y) (hbord : 0 ≤ b₀.patchBorder)
    (hf : WcsFactory.new scale code θ flipX = .ok f) (hsc : 0 < scale) (hP : Projection.ofCode code = some P) (hz : P ≠ .CEA)
    (point : ℝ → ℝ → PyM (SpherePoint ℝ)) (angle : ℝ → ℝ) (c : DiscreteConfig ℝ)
    (hv : c.validate (.ok ()) = .ok ()) (hne : c.radiusList ≠ [])
    (hpt : ∀ ra ∈ c.raList, ∀ dec ∈ c.decList, ∃ p, point ra dec = .ok p)
    {radius : ℝ} (hr : ∀ x ∈ c.radiusList, x = radius) (h0 : 0 ≤ angle radius + angle c.tractOverlap)
    (hl : angle radius + angle c.tractOverlap < P.limit) (hfault : ∀ n, fault n = none)
    {m : CachingDef (SpherePoint ℝ) ℝ} (hm : m = DiscreteSkyMap.cachingDef env sphereOps ⟨point, angle, f.makeWcs other ⟨0, 0⟩⟩ c)
    (ha : (CachingSkyMap.skyMapOps m).After (CachingSkyMap.init m b₀) w.map) (hs : w.reg.Sound) {b : Bytes}
    (hb : (w.hashed.getSha1 H).1 = .ok b) (hnew : ∀ x ∈ w.reg.skymaps, x.skymap ≠ name ∧ x.hash ≠ b) :
    ∃ w', register H fault (CachingSkyMap.skyMapOps m) name w = (.ok (), w') ∧
      RegisteredExactly (CachingSkyMap.skyMapOps m) name w' := by
  subst hm
  have hlen := (C21_validate c).1.1 hv
  refine caching_registers (fun i a h => C21_ids _ _ _ _ i a h) hx hy hbord
    (CachingSkyMap.uniform_of (discrete_same_pixels (env := env) hf hP hz point angle c fun x hx y hy => (hr x hx).trans (hr y hy).symm) b₀)
    (List.length_pos_iff.2 hne) ?_ hfault ha hs hb hnew
  intro k hk
  change k < c.radiusList.length at hk
  have g1 := List.getElem?_eq_getElem (l := c.raList) (i := k) (by omega)
  have g2 := List.getElem?_eq_getElem (l := c.decList) (i := k) (by omega)
  have g3 := List.getElem?_eq_getElem (l := c.radiusList) (i := k) (by omega)
  obtain ⟨q, hq⟩ := hpt _ (List.mem_of_getElem? g1) _ (List.mem_of_getElem? g2)
  refine CachingSkyMap.getItem_total (SkyMapOps.After.refl _) (by change 0 ≤ (k : Int) ∧ (k : Int) < (c.radiusList.length : Int); omega) ?_
  have er := hr _ (List.mem_of_getElem? g3)
  unfold CachingSkyMap.fresh
  simp only [DiscreteSkyMap.cachingDef, hq, CachingSkyMap.pyGetItem_nat g1, CachingSkyMap.pyGetItem_nat g2, CachingSkyMap.pyGetItem_nat g3,
    bind, Except.bind, pure, Except.pure, er]
  exact explicit_total (other := other) hx hy hf hsc hP rfl rfl h0 hl

/-- The tracts of a sky map that builds all tracts at once are registered if they have the same size. -/
theorem eager_registers {Sky K : Type} [Field K] [LinearOrder K] [IsStrictOrderedRing K] [FloorRing K] {env : FloatEnv K}
    {ops : SkyOps Sky K} {l : List (TractArgs Sky K)} {ts : List (TractRef Sky K)} {b₀ b' : TractBuilder}
    (hb' : EagerSkyMap.buildAll env ops l 0 b₀ = .ok (ts, b')) (hid : ∀ (i : Nat) a, l[i]? = some a → a.id = i)
    (hx : 0 < b₀.patchInnerDimensions.x) (hy : 0 < b₀.patchInnerDimensions.y) (hbord : 0 ≤ b₀.patchBorder)
    (hlen : 0 < l.length) (hsame : ∀ t ∈ ts, ∀ t' ∈ ts, t.info.SameSize t'.info) (hfault : ∀ n, fault n = none)
    {w : World TractBuilder Sky} (ha : (EagerSkyMap.skyMapOps ts).After b' w.map) (hs : w.reg.Sound) {b : Bytes}
    (hb : (w.hashed.getSha1 H).1 = .ok b) (hnew : ∀ x ∈ w.reg.skymaps, x.skymap ≠ name ∧ x.hash ≠ b) :
    ∃ w', register H fault (EagerSkyMap.skyMapOps ts) name w = (.ok (), w') ∧ RegisteredExactly (EagerSkyMap.skyMapOps ts) name w' := by
  have e := EagerSkyMap.after_eq ha
  have hts : ts.length = l.length := (EagerSkyMap.buildAll_ok hb' hx hy).1
  have T : ∀ s, (EagerSkyMap.skyMapOps ts).Tracts s ts := by
    intro s
    refine ⟨rfl, fun k t hk => ?_⟩
    simp only [EagerSkyMap.skyMapOps, PyS.lift, CachingSkyMap.pyGetItem_nat hk]
  refine registers hfault (by rw [e]; exact EagerSkyMap.eager_proper hb' hid hx hy hbord) hs
    (by change 0 < ts.length; omega) ⟨_, congrArg Prod.fst (laterPass (T w.map) id)⟩ hb hnew ?_
  intro s ts' _ ht
  have : ts' = ts := by
    apply List.ext_getElem?
    intro k
    by_cases hk : k < ts.length
    · have hk' : k < ts'.length := by rw [ht.1]; exact hk
      have g1 := ht.2 k _ (List.getElem?_eq_getElem hk')
      have g2 := (T s).2 k _ (List.getElem?_eq_getElem hk)
      rw [g2] at g1
      simp only [Prod.mk.injEq, Except.ok.injEq, and_true] at g1
      rw [List.getElem?_eq_getElem hk, List.getElem?_eq_getElem hk', g1]
    · have hk' : ¬ k < ts'.length := by rw [ht.1]; exact hk
      rw [List.getElem?_eq_none (by omega), List.getElem?_eq_none (by omega)]
  subst this
  exact fun t h1 t' h2 => (hsame t h1 t' h2).1

/-- C63: an equatorial sky map of any number of tracts with its cylindrical projection can be registered under a new name in any registry,
if the butler does not fail; then the registry has exactly its rows. -/
theorem Equat.C63_registers {n : Nat} {d0 d1 ov : ℝ} (hn : 1 ≤ n) (h0 : |d0| ≤ 90) (h1 : |d1| ≤ 90) (hx : 0 < b₀.patchInnerDimensions.x)
    (hy : 0 < b₀.patchInnerDimensions.y) (hbord : 0 ≤ b₀.patchBorder) (hf : WcsFactory.new scale "CEA" 0 flipX = .ok f) (hsc : 0 < scale)
    (hfault : ∀ n, fault n = none) {reg : Registry (SpherePoint ℝ)} (hs : reg.Sound) {hm : HashedMap} {calls : Nat} {b : Bytes}
    (hb : (hm.getSha1 H).1 = .ok b) (hnew : ∀ x ∈ reg.skymaps, x.skymap ≠ name ∧ x.hash ≠ b) :
    ∃ l ts b', tracts .exact (f.makeWcs other ⟨0, 0⟩) ⟨n, [d0, d1], ov⟩ = .ok l ∧
      EagerSkyMap.buildAll env sphereOps l 0 b₀ = .ok (ts, b') ∧
      ∃ w', register H fault (EagerSkyMap.skyMapOps ts) name ⟨b', hm, reg, calls⟩ = (.ok (), w') ∧
        RegisteredExactly (EagerSkyMap.skyMapOps ts) name w' := by
  obtain ⟨l, ts, b', e1, e2⟩ := C59_builds (env := env) (ov := ov) (other := other) hn h0 h1 hx hy hf hsc
  have hl := e1
  rw [tracts_exact hn h0 h1, Except.ok.injEq] at hl
  refine ⟨l, ts, b', e1, e2, eager_registers e2 ?_ hx hy hbord ?_ (C62_same_size (P := .CEA) hn h0 h1 hf rfl e1 e2).1 hfault
    (SkyMapOps.After.refl _) hs hb hnew⟩
  · intro i a hi
    rw [← hl] at hi
    obtain ⟨h2, h3⟩ := List.getElem?_eq_some_iff.1 hi
    rw [← h3]
    simp [args]
  · rw [← hl]; simp; omega

theorem Ex.hashed_ok : ∃ b, ((⟨.rings 120 0, Ex.hashConfig, .int 1, none⟩ : HashedMap).getSha1 id).1 = .ok b := ⟨_, rfl⟩

/-- Not vacuous: the rings sky map with three rings, overlap 8 degrees and pixels of a milliradian is registered in an empty registry. -/
example : ∃ (R : Rings ℝ) (f : WcsFactory), Rings.new .exact ⟨3, 0, 8⟩ 1 = .ok R ∧ WcsFactory.new (1 / 1000) "TAN" 0 false = .ok f ∧
    ∃ w', register id (fun _ => none) (Rings.skyMapOps .exact R Ex.realEnv sphereOps (f.makeWcs other ⟨0, 0⟩)) "m"
      ⟨Rings.init .exact R Ex.realEnv sphereOps (f.makeWcs other ⟨0, 0⟩) Ex.smallBuilder, ⟨.rings 120 0, Ex.hashConfig, .int 1, none⟩, {}, 0⟩ =
        (.ok (), w') ∧
      RegisteredExactly (Rings.skyMapOps .exact R Ex.realEnv sphereOps (f.makeWcs other ⟨0, 0⟩)) "m" w' := by
  obtain ⟨R, hR⟩ := Rings.new_ok ⟨3, 0, 8⟩ (.inr rfl)
  obtain ⟨b, hb⟩ := Ex.hashed_ok
  obtain ⟨f, hf⟩ := (WcsFactory.C56_projection_length (1 / 1000) "TAN" 0 false).2 rfl
  exact ⟨R, f, hR, hf, Rings.C63_registers hR (by decide) (by decide) (by decide) hf (by norm_num) (P := .TAN) rfl (by decide) (by norm_num) (by norm_num)
    (fun _ => rfl) rfl (SkyMapOps.After.refl _) Registry.sound_empty hb (fun x hx => by simp at hx)⟩

/-- The same for a discrete sky map with two tracts of one degree and for an equatorial sky map with four tracts. -/
example : ∃ (f : WcsFactory) (m : CachingDef (SpherePoint ℝ) ℝ) (w' : World (MapState (SpherePoint ℝ) ℝ) (SpherePoint ℝ)),
    WcsFactory.new (1 / 1000) "TAN" 0 false = .ok f ∧
    m = DiscreteSkyMap.cachingDef Ex.realEnv sphereOps ⟨fun ra dec => .ok ⟨ra, dec⟩, id, f.makeWcs other ⟨0, 0⟩⟩ ⟨[0, 1], [0, 1], [1, 1], 0⟩ ∧
    register id (fun _ => none) (CachingSkyMap.skyMapOps m) "m"
      ⟨CachingSkyMap.init m Ex.smallBuilder, ⟨.rings 120 0, Ex.hashConfig, .int 1, none⟩, {}, 0⟩ = (.ok (), w') := by
  have hp := pi_gt_three
  obtain ⟨b, hb⟩ := Ex.hashed_ok
  obtain ⟨f, hf⟩ := (WcsFactory.C56_projection_length (1 / 1000) "TAN" 0 false).2 rfl
  obtain ⟨w', h1, -⟩ := C63_discrete_registers (H := id) (fault := fun _ => none) (name := "m") (env := Ex.realEnv) (other := other)
    (b₀ := Ex.smallBuilder)
    (m := DiscreteSkyMap.cachingDef Ex.realEnv sphereOps ⟨fun ra dec => .ok ⟨ra, dec⟩, id, f.makeWcs other ⟨0, 0⟩⟩ ⟨[0, 1], [0, 1], [1, 1], 0⟩)
    (w := ⟨CachingSkyMap.init (DiscreteSkyMap.cachingDef Ex.realEnv sphereOps ⟨fun ra dec => .ok ⟨ra, dec⟩, id, f.makeWcs other ⟨0, 0⟩⟩ ⟨[0, 1], [0, 1], [1, 1], 0⟩) Ex.smallBuilder, ⟨.rings 120 0, Ex.hashConfig, .int 1, none⟩, {}, 0⟩) (by decide) (by decide) (by decide) hf
    (by norm_num) rfl (P := .TAN) (by decide) (fun ra dec => .ok ⟨ra, dec⟩) id ⟨[0, 1], [0, 1], [1, 1], 0⟩ ((C21_validate _).1.2 (by simp))
    (by simp) (fun ra _ dec _ => ⟨_, rfl⟩) (radius := 1) (by simp) (by simp) (by simp only [id, Projection.limit]; linarith) (fun _ => rfl) rfl
    (SkyMapOps.After.refl _) Registry.sound_empty hb (fun x hx => by simp at hx)
  exact ⟨f, _, w', hf, rfl, h1⟩

example : ∃ (f : WcsFactory), WcsFactory.new (1 / 1000) "CEA" 0 false = .ok f ∧
    ∃ l ts b', Equat.tracts .exact (f.makeWcs other ⟨0, 0⟩) ⟨4, [-1, 1], 1⟩ = .ok l ∧
      EagerSkyMap.buildAll Ex.realEnv sphereOps l 0 Ex.smallBuilder = .ok (ts, b') ∧
      ∃ w', register id (fun _ => none) (EagerSkyMap.skyMapOps ts) "m" ⟨b', ⟨.rings 120 0, Ex.hashConfig, .int 1, none⟩, {}, 0⟩ = (.ok (), w') ∧
        RegisteredExactly (EagerSkyMap.skyMapOps ts) "m" w' := by
  obtain ⟨b, hb⟩ := Ex.hashed_ok
  obtain ⟨f, hf⟩ := (WcsFactory.C56_projection_length (1 / 1000) "CEA" 0 false).2 rfl
  exact ⟨f, hf, Equat.C63_registers (n := 4) (by decide) (by norm_num) (by norm_num) (by decide) (by decide) (by decide) hf (by norm_num)
    (fun _ => rfl) Registry.sound_empty hb (fun x hx => by simp at hx)⟩

end Skymap
