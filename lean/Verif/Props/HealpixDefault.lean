import Verif.Props.Defaults
import Verif.Props.Healpix

/-! # C75: a HEALPix sky map with default fields -/

set_option linter.unusedSectionVars false

namespace Skymap
open Real Dodeca BaseSkyMap CachingSkyMap

theorem Dbl.value_45 : Dbl.value 0x4046800000000000 = 45 := by
  rw [Dbl.value_nat _ 0x4046800000000000 rfl]; norm_num

/-- `angToCoord` of angles in range. -/
theorem angToCoord_eq {a : ℝ × ℝ} (h : AngValid π a) : angToCoord π a = .ok ⟨a.2, a.1 - π / 2⟩ := by
  obtain ⟨h0, h1, h2, h3⟩ := h
  unfold angToCoord SpherePoint.new
  rw [if_neg, wrap_of_range h2 h3]
  · congr 2; ring
  · rintro (h | h) <;> linarith

theorem pyMapM_angToCoord {l : List (ℝ × ℝ)} (h : ∀ a ∈ l, AngValid π a) :
    pyMapM (angToCoord π) l = .ok (l.map fun a => ⟨a.2, a.1 - π / 2⟩) := by
  induction l with
  | nil => rfl
  | cons a l ih =>
    have := ih fun x hx => h x (by simp [hx])
    simp [pyMapM, angToCoord_eq (h a (by simp)), this]

/-- A position around a corner that is at most 90 degrees away. -/
theorem around_corner (c v : SpherePoint ℝ) (h : 0 ≤ cosSep c v) (b : ℝ) {δ : ℝ} (h0 : 0 ≤ δ) (h1 : δ < π / 2) : -1 < cosSep c (v.offset b δ) := by
  have hp := pi_pos
  rw [SpherePoint.cosSep_eq] at h ⊢
  have hf := v.frame_dot c.getVector c.getVector
  rw [c.vec_unit] at hf
  rw [v.offset_dot]
  set A := c.getVector ⬝ᵥ v.eastVec
  set B := c.getVector ⬝ᵥ v.northVec
  have hb := sin_sq_add_cos_sq (b * (π / 180))
  set x := cos (b * (π / 180))
  set y := sin (b * (π / 180))
  have hc : 0 ≤ cos δ := cos_nonneg_of_mem_Icc ⟨by linarith, by linarith⟩
  have hs : 0 ≤ sin δ := sin_nonneg_of_nonneg_of_le_pi h0 (by linarith)
  have hs1 : sin δ < 1 := by
    rw [← sin_pi_div_two]
    exact sin_lt_sin_of_lt_of_le_pi_div_two (by linarith) le_rfl h1
  have h2 : (A * x + B * y) ^ 2 ≤ 1 := by
    have e : (A * x + B * y) ^ 2 + (A * y - B * x) ^ 2 = 1 - (c.getVector ⬝ᵥ v.getVector) ^ 2 := by
      linear_combination (A ^ 2 + B ^ 2) * hb - hf
    have := sq_nonneg (A * y - B * x)
    have := sq_nonneg (c.getVector ⬝ᵥ v.getVector)
    linarith
  have h3 : -1 ≤ A * x + B * y := (abs_le_of_sq_le_sq' (by linarith : (A * x + B * y) ^ 2 ≤ 1 ^ 2) (by norm_num)).1
  have g1 := mul_le_mul_of_nonneg_left h3 hs
  have g2 := mul_nonneg h hc
  linarith

/-- C75: the HEALPix sky map with any non-negative log2NSide, either order and default fields otherwise, if `hpgeom` is as C53 assumes and the corners of a
pixel are at most 90 degrees from its centre: it can be built, has 12*4**log2NSide tracts, all of which can be accessed after any history, and
`findTract` finds for every position the tract with the number of the pixel that the position is in. -/
theorem C75_healpix {x : SkyChoice} {n : ℕ} {nest : Bool} (hok : x.hp.Ok π (2 ^ n) nest)
    (hnear : ∀ k ang bnd, x.hp.pixelToAngle (2 ^ n) nest k = .ok ang → x.hp.boundaries (2 ^ n) nest k = .ok bnd →
      ∀ a ∈ bnd, 0 ≤ cos ang.1 * cos a.1 + sin ang.1 * sin a.1 * cos (ang.2 - a.2)) (version : Version) :
    ∃ o m s₀, SkyMapObj.new x.lib.impl (.healpix n nest) DefaultClass.healpix.config version = .ok o ∧ o.tracts = .caching m s₀ ∧
      o.len = 12 * 4 ^ n ∧ ∀ s, (CachingSkyMap.skyMapOps m).After s₀ s →
        (∀ k : ℤ, 0 ≤ k → k < 12 * 4 ^ n → ∃ r s', (CachingSkyMap.skyMapOps m).getItem k s = (.ok r, s') ∧ r.info.id = k) ∧
        ∀ p : SpherePoint ℝ, 0 ≤ p.lon → p.lon < 2 * π → |p.lat| ≤ π / 2 →
          ∃ r s', HealpixSkyMap.findTract π x.hp (2 ^ n) nest m p s = (.ok r, s') ∧
            r.info.id = x.hp.angleToPixel (2 ^ n) nest (p.lat + π / 2, p.lon) := by
  have hpi := pi_pos
  set c : SkyMapConfig Dbl := { DefaultClass.healpix.config with frozen := true } with hc
  set b₀ : TractBuilder := ⟨.legacy, ⟨4000, 4000⟩, 100, none⟩ with hb₀
  set scale : ℝ := 5998794703657501 / 2 ^ 54 * (π / 648000) with hscale
  have hs : 0 < scale := by positivity
  obtain ⟨f, hf⟩ := (WcsFactory.C56_projection_length scale "STG" (45 * (π / 180)) false).2 rfl
  have hinit : BaseSkyMap.init DefaultClass.healpix.config = (.ok b₀, c) := rfl
  have hwcs : x.lib.wcs c = f.makeWcs x.other ⟨0, 0⟩ :=
    x.lib_wcs c (by rw [hscale]; exact congrArg (· * _) Dbl.value_third) (congrArg (· * _) Dbl.value_45) hf
  have hov : x.lib.val c.tractOverlap = 1 := Dbl.value_one
  obtain ⟨m, hm, hlen⟩ := (C53_number_of_tracts (pi := π) (env := x.env) (ops := sphereOps) (hp := x.hp) (makeWcs := f.makeWcs x.other ⟨0, 0⟩)
    (c := ⟨n, nest, π / 180⟩)).1 (by simp)
  have hnew : SkyMapObj.new x.lib.impl (.healpix n nest) DefaultClass.healpix.config version =
      .ok ⟨⟨.healpix n nest, c, SkyMapObj.versionOf (.healpix n nest) version, none⟩, .caching m (CachingSkyMap.init m b₀)⟩ := by
    refine SkyMapObj.new_caching hinit ?_
    change (HealpixSkyMap.cachingDef π x.env sphereOps x.hp (x.lib.wcs c) ⟨n, nest, x.lib.arith.deg2rad (x.lib.val c.tractOverlap)⟩).map _ = _
    rw [hwcs, hov, show x.lib.arith.deg2rad 1 = π / 180 from one_mul _, hm]
    rfl
  obtain ⟨-, e⟩ := healpix_def_inv hm
  simp only [Int.toNat_natCast] at e hlen
  have hN : (12 * 2 ^ n * 2 ^ n : ℕ) = 12 * 4 ^ n := by rw [mul_assoc, ← mul_pow]; norm_num
  have hnum : m.numTracts = 12 * 4 ^ n := hlen
  have item : ∀ s, (CachingSkyMap.skyMapOps m).After (CachingSkyMap.init m b₀) s → ∀ k : ℤ, 0 ≤ k → k < 12 * 4 ^ n →
      ∃ r s', (CachingSkyMap.skyMapOps m).getItem k s = (.ok r, s') ∧ r.info.id = k := by
    intro s ha k k0 k1
    have kin : k < (12 * 2 ^ n * 2 ^ n : ℕ) := by rw [hN]; exact_mod_cast k1
    obtain ⟨ang, h1, v1, -⟩ := hok.center k k0 kin
    obtain ⟨bnd, h2, v2⟩ := hok.boundary k k0 kin
    let args : TractArgs (SpherePoint ℝ) ℝ :=
      { id := k
        ctrCoord := ⟨ang.2, ang.1 - π / 2⟩
        shape := .vertices (bnd.map fun a => ⟨a.2, a.1 - π / 2⟩)
        tractOverlap := π / 180
        wcs := f.makeWcs x.other ⟨0, 0⟩ ⟨ang.2, ang.1 - π / 2⟩ }
    have hargs : m.tractArgs k = .ok args := by
      rw [e]
      simp only [h1, h2, angToCoord_eq v1, pyMapM_angToCoord v2, bind, Except.bind, pure, Except.pure]
      rfl
    have near : ∀ v ∈ bnd.map (fun a : ℝ × ℝ => (⟨a.2, a.1 - π / 2⟩ : SpherePoint ℝ)), 0 ≤ cosSep ⟨ang.2, ang.1 - π / 2⟩ v := by
      intro v hv
      obtain ⟨a, ha, rfl⟩ := List.mem_map.1 hv
      have := hnear k ang bnd h1 h2 a ha
      unfold cosSep
      dsimp only
      rw [sin_sub_pi_div_two, sin_sub_pi_div_two, cos_sub_pi_div_two, cos_sub_pi_div_two]
      linarith
    obtain ⟨t, ht⟩ := TractInfo.new_total x.env sphereOps b₀ args (by decide) (by decide) (by
        intro q hq
        change ∃ r, (f.makeWcs x.other ⟨0, 0⟩ ⟨ang.2, ang.1 - π / 2⟩).skyToPixel q = _
        rw [WcsFactory.makeWcs_eq (P := .STG) hf rfl]
        have : -1 < cosSep ⟨ang.2, ang.1 - π / 2⟩ q := by
          rw [C12_sample_points] at hq
          rcases hq with ⟨l, e1, -, hql⟩ | ⟨l, e1, -, v, hv, i, -, rfl⟩ | ⟨r, e1, -⟩
          · simp only [args, TractShape.vertices.injEq] at e1
            subst e1
            linarith [near q hql]
          · simp only [args, TractShape.vertices.injEq] at e1
            subst e1
            exact around_corner _ v (near v hv) _ (by positivity) (show π / 180 / 2 < π / 2 by linarith)
          · simp [args] at e1
        unfold makeSkyWcs Projection.toPlane
        dsimp only
        rw [if_pos this]
        exact ⟨_, rfl⟩)
    obtain ⟨r, s', hr⟩ := CachingSkyMap.getItem_total ha (i := k) ⟨k0, by rw [hnum]; exact_mod_cast k1⟩ (by
      unfold fresh
      rw [hargs]
      exact ⟨t, by rw [e]; exact ht⟩)
    obtain ⟨-, hid, -⟩ := C18_permanent (healpix_id hm) ha k r hr
    exact ⟨r, s', hr, hid⟩
  refine ⟨_, m, _, hnew, rfl, hnum, fun s ha => ⟨item s ha, fun p l0 l1 l2 => ?_⟩⟩
  obtain ⟨k, k0, k1, hk, hfind⟩ := C53_findTract (p := p) hm (by simpa using hok) ⟨l0, l1, by linarith [(abs_le.1 l2).1], by linarith [(abs_le.1 l2).2]⟩
  simp only [Int.toNat_natCast] at hk hfind
  obtain ⟨r, s', hr, hid⟩ := item s ha k k0 (by rw [hlen] at k1; exact_mod_cast k1)
  refine ⟨r, s', by rw [hfind]; exact hr, ?_⟩
  rw [hid, ← hk]
  unfold coordToAng
  rw [show (1 / 2 : ℝ) * π = π / 2 by ring]

/-- A division of the sky by longitude, whose pixels have the centre as the only vertex, meets the assumptions. -/
noncomputable def Ex.lunes : HpGeom ℝ where
  boundaries n _ k := .ok [(π / 2, (k + 1 / 2) * (2 * π) / (12 * n * n : ℕ))]
  pixelToAngle n _ k := .ok (π / 2, (k + 1 / 2) * (2 * π) / (12 * n * n : ℕ))
  angleToPixel n _ a := ⌊a.2 * (12 * n * n : ℕ) / (2 * π)⌋

theorem Ex.lunes_valid {n : ℕ} {k : ℤ} (h0 : 0 ≤ k) (h1 : k < (12 * n * n : ℕ)) :
    AngValid π (π / 2, ((k : ℝ) + 1 / 2) * (2 * π) / (12 * n * n : ℕ)) := by
  have hp := pi_pos
  have k0 : (0 : ℝ) ≤ k := by exact_mod_cast h0
  have k1 : (k : ℝ) + 1 ≤ (12 * n * n : ℕ) := by
    have : k + 1 ≤ ((12 * n * n : ℕ) : ℤ) := h1
    exact_mod_cast this
  generalize ((12 * n * n : ℕ) : ℝ) = N at k1
  have hN : 0 < N := by linarith
  refine ⟨by dsimp only; positivity, by dsimp only; linarith, by dsimp only; positivity, ?_⟩
  dsimp only
  rw [div_lt_iff₀ hN, mul_comm]
  exact mul_lt_mul_of_pos_left (by linarith) (by positivity)

theorem Ex.lunes_ok (n : ℕ) (hn : 0 < n) (nest : Bool) : Ex.lunes.Ok π n nest where
  center k h0 h1 := by
    have hp := pi_pos
    refine ⟨_, rfl, Ex.lunes_valid h0 h1, ?_⟩
    have hN : (0 : ℝ) < (12 * n * n : ℕ) := by exact_mod_cast (by positivity : 0 < 12 * n * n)
    simp only [Ex.lunes]
    rw [div_mul_cancel₀ _ hN.ne', mul_div_assoc, div_self (by positivity), mul_one, Int.floor_eq_iff]
    constructor <;> linarith
  pixel a ha := by
    have hp := pi_pos
    have hN : (0 : ℝ) < (12 * n * n : ℕ) := by exact_mod_cast (by positivity : 0 < 12 * n * n)
    obtain ⟨-, -, h3, h4⟩ := ha
    simp only [Ex.lunes]
    constructor
    · exact Int.floor_nonneg.2 (by positivity)
    · rw [Int.floor_lt, div_lt_iff₀ (by positivity), mul_comm, Int.cast_natCast]
      exact mul_lt_mul_of_pos_left h4 hN
  boundary k h0 h1 := ⟨_, rfl, by
    intro a ha
    obtain rfl := List.mem_singleton.1 ha
    exact Ex.lunes_valid h0 h1⟩

/-- The hypotheses are met: with log2NSide 2, a sky map of 192 tracts. -/
example (other) : ∃ x : SkyChoice, x.other = other ∧
    ∃ o m s₀, SkyMapObj.new x.lib.impl (.healpix 2 true) DefaultClass.healpix.config (.int 0) = .ok o ∧ o.tracts = .caching m s₀ ∧ o.len = 192 ∧
      ∃ r s', HealpixSkyMap.findTract π x.hp 4 true m ⟨1, 1⟩ s₀ = (.ok r, s') := by
  refine ⟨⟨Ex.realEnv, Ex.lunes, ascending, 1 / 1000, other⟩, rfl, ?_⟩
  obtain ⟨o, m, s₀, h1, h2, h3, h4⟩ := C75_healpix (x := ⟨Ex.realEnv, Ex.lunes, ascending, 1 / 1000, other⟩) (n := 2) (nest := true)
    (Ex.lunes_ok _ (by decide) _) (by
      intro k ang bnd e1 e2 a ha
      obtain rfl := Except.ok.inj e1
      obtain rfl := Except.ok.inj e2
      obtain rfl := List.mem_singleton.1 ha
      simp) (.int 0)
  have hp := pi_gt_three
  obtain ⟨r, s', h5, -⟩ := (h4 s₀ (SkyMapOps.After.refl _)).2 ⟨1, 1⟩ (by norm_num) (by dsimp only; linarith) (by rw [abs_of_pos one_pos]; linarith)
  exact ⟨o, m, s₀, h1, h2, h3, r, s', h5⟩

end Skymap
