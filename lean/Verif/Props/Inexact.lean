import Verif.Model.Inexact
import Verif.Props.VertexCover
import Verif.Props.EquatCover
import Verif.Props.Search

/-! # C84: lookups with inexact distances -/

set_option linter.unusedSectionVars false

namespace Skymap
open Real Dodeca
open FloatArith (exact)

/-! ## The default `findTract` -/

namespace BaseSkyMap
variable {Sky σ : Type} {M : SkyMapOps σ Sky ℝ} {s s' : σ}

/-- C84: if the computed separations `ops.separation` are within `ε` of the true ones, no tract is nearer than the one that `findTract` returns by
more than `2 * ε`; so if one tract is nearer than all others by more than that, it is found. -/
theorem C84_default (ops : SkyOps Sky ℝ) (true_sep : Sky → Sky → ℝ) {ε : ℝ} (hε : ∀ p q, |ops.separation p q - true_sep p q| ≤ ε)
    (hP : M.Permanent s) (c : Sky) (r : TractRef Sky ℝ) (h : findTract ops M c s = (.ok r, s')) :
    ∃ k : Nat, k < M.len ∧ M.getItem k s' = (.ok r, s') ∧
      (∀ j : Nat, j < M.len → ∃ r', M.getItem j s' = (.ok r', s') ∧ true_sep c r.info.ctrCoord ≤ true_sep c r'.info.ctrCoord + 2 * ε) ∧
      ∀ (i : Nat) r₀, i < M.len → M.getItem i s' = (.ok r₀, s') →
        (∀ (j : Nat) r', j ≠ i → M.getItem j s' = (.ok r', s') → true_sep c r₀.info.ctrCoord + 2 * ε < true_sep c r'.info.ctrCoord) → i = k := by
  obtain ⟨k, hk, hg, hmin⟩ := C22_nearest ops hP c r h
  have key : ∀ j : Nat, j < M.len → ∃ r', M.getItem j s' = (.ok r', s') ∧ true_sep c r.info.ctrCoord ≤ true_sep c r'.info.ctrCoord + 2 * ε := by
    intro j hj
    obtain ⟨r', h1, h2⟩ := hmin j hj
    refine ⟨r', h1, ?_⟩
    have a := abs_le.mp (hε c r.info.ctrCoord)
    have b := abs_le.mp (hε c r'.info.ctrCoord)
    rcases h2 with h2 | h2
    · linarith
    · linarith [h2.1]
  refine ⟨k, hk, hg, key, ?_⟩
  intro i r₀ hi hr₀ hall
  by_contra hne
  obtain ⟨r', h1, h2⟩ := key i hi
  rw [hr₀] at h1
  obtain rfl : r₀ = r' := by simpa using h1
  have := hall k r (Ne.symm hne) hg
  linarith

end BaseSkyMap

/-! ## Dodecahedral sky maps -/

namespace DodecaSkyMap
variable {env : FloatEnv ℝ} {b₀ b : TractBuilder} {tiny ov scale θ : ℝ} {flipX : Bool} {f : WcsFactory} {o : SetOrder} {w : Bool}
  {D : Dodecahedron} {l : List (TractArgs (SpherePoint ℝ) ℝ)} {ts : List (TractRef (SpherePoint ℝ) ℝ)}
  {mk : SpherePoint ℝ → Wcs (SpherePoint ℝ) ℝ} {ops : SkyOps (SpherePoint ℝ) ℝ}

/-- C84: with the exact products this is the `findTract` of the other properties. -/
theorem C84_dodeca_exact {σ : Type} (D : Dodecahedron) (M : SkyMapOps σ (SpherePoint ℝ) ℝ) (p : SpherePoint ℝ) :
    findTractWith D M (fun f => f ⬝ᵥ p.getVector) = findTract D M p := rfl

/-- Moving a unit vector towards another one. -/
theorem towards {p c : Vec3} (hp : p ⬝ᵥ p = 1) (hc : c ⬝ᵥ c = 1) {s : ℝ} (h0 : 0 ≤ s) (h1 : s < 1) :
    ∃ (q : SpherePoint ℝ) (m : ℝ), 0 < m ∧ q.getVector = m • (p + s • c) ∧ √(1 - s ^ 2) ≤ q.getVector ⬝ᵥ p := by
  set x := c ⬝ᵥ p with hx
  have hx' : p ⬝ᵥ c = x := dotProduct_comm _ _
  have hx1 : -1 ≤ x := by
    have : 0 ≤ (p + c) ⬝ᵥ (p + c) := by
      simp only [dotProduct, Fin.sum_univ_three]; nlinarith [mul_self_nonneg ((p + c) 0), mul_self_nonneg ((p + c) 1), mul_self_nonneg ((p + c) 2)]
    rw [add_dotProduct, dotProduct_add, dotProduct_add, hp, hc, hx', ← hx] at this
    linarith
  set N := (p + s • c) ⬝ᵥ (p + s • c) with hN
  have hNe : N = 1 + 2 * s * x + s ^ 2 := by
    rw [hN, add_dotProduct, dotProduct_add, dotProduct_add, smul_dotProduct, smul_dotProduct, dotProduct_smul, dotProduct_smul, hp, hc, hx', ← hx]
    simp only [smul_eq_mul]; ring
  have hNpos : 0 < N := by
    rw [hNe]
    have : 0 < (1 - s) ^ 2 := by have := sub_pos.mpr h1; positivity
    nlinarith [mul_nonneg h0 (by linarith : 0 ≤ 1 + x)]
  have hs := sqrt_pos.mpr hNpos
  have hu : ((1 / √N) • (p + s • c)) ⬝ᵥ ((1 / √N) • (p + s • c)) = 1 := by
    rw [smul_dotProduct, dotProduct_smul, ← hN]
    simp only [smul_eq_mul]
    have := sq_sqrt hNpos.le
    field_simp
    linarith
  obtain ⟨q, hq⟩ := exists_point hu
  refine ⟨q, 1 / √N, by positivity, hq, ?_⟩
  rw [hq, smul_dotProduct, add_dotProduct, smul_dotProduct, hp, ← hx]
  simp only [smul_eq_mul]
  rw [one_div, inv_mul_eq_div, le_div_iff₀ hs, ← sqrt_mul' _ hNpos.le]
  have hnn : 0 ≤ 1 + s * x := by nlinarith [mul_nonneg h0 (by linarith : 0 ≤ 1 + x)]
  rw [sqrt_le_left hnn, hNe]
  nlinarith [sq_nonneg (s * (x + s))]

/-- C84: if the computed products of the face vectors with the position are within `ε` of the true ones, the tract that `findTract` returns has
the position within an angle of `arcsin (4 * ε)` of its inner region. -/
theorem C84_dodeca (ht0 : 0 < tiny) (ht1 : tiny ≤ 1 / 10) (ho : o.Ok)
    (hl : tracts tiny mk o w ov = .ok (D, l)) (hx : 0 < b₀.patchInnerDimensions.x) (hy : 0 < b₀.patchInnerDimensions.y)
    (hb : EagerSkyMap.buildAll env ops l 0 b₀ = .ok (ts, b)) (p : SpherePoint ℝ) {dot : Vec3 → ℝ} {ε : ℝ}
    (hε : ∀ f ∈ D.faceVecList, |dot f - f ⬝ᵥ p.getVector| ≤ ε) (h4 : 4 * ε < 1) :
    ∃ (k : ℕ) (t : TractRef (SpherePoint ℝ) ℝ), findTractWith D (EagerSkyMap.skyMapOps ts) dot b = (.ok t, b) ∧ ts[k]? = some t ∧
      NearHull t.info.vertexCoordList (arcsin (4 * ε)) p := by
  obtain ⟨hD, hlen, htr⟩ := C36_tracts ht0 ht1 ho hl hx hy hb
  have hl12 : D.faceVecList.length = 12 := by
    obtain ⟨D', M, hD', -, -, h, -⟩ := C37_regular ho w
    rw [hD, Except.ok.injEq] at hD'
    rw [hD']; exact h
  obtain ⟨k, m, hk, hm, hmax⟩ := npArgmax_spec (l := D.faceVecList.map dot) (by
    intro h0
    have := congrArg List.length h0
    simp [hl12] at this)
  rw [List.getElem?_map, Option.map_eq_some_iff] at hm
  obtain ⟨f, hf, rfl⟩ := hm
  have hk12 : k < 12 := by rw [← hl12]; exact (List.getElem?_eq_some_iff.1 hf).1
  obtain ⟨t, ht, -, hft, hvt⟩ := htr k hk12
  rw [hf, Option.some.injEq] at hft
  have hfm := List.mem_of_getElem? hf
  have hε0 : 0 ≤ ε := (abs_nonneg _).trans (hε f hfm)
  refine ⟨k, t, ?_, ht, ?_⟩
  · unfold findTractWith Dodecahedron.getFaceIndWith
    simp only [bind, PyS.bind, hk, PyS.lift]
    simp only [EagerSkyMap.skyMapOps, PyS.lift]
    rw [CachingSkyMap.pyGetItem_nat ht]
  have hfu : f ⬝ᵥ f = 1 := by rw [hft]; exact t.info.ctrCoord.vec_unit
  obtain ⟨q, m, hm, hq, hqp⟩ := towards p.vec_unit hfu (s := 4 * ε) (by linarith) h4
  refine ⟨q, ?_, ?_⟩
  · rw [face_cone ho hD hf hvt]
    intro f' hf'
    rw [hq, dotProduct_smul, dotProduct_smul, smul_eq_mul, smul_eq_mul]
    apply mul_le_mul_of_nonneg_left _ hm.le
    rw [dotProduct_add, dotProduct_add, dotProduct_smul, dotProduct_smul, hfu]
    by_cases hne : f' = f
    · rw [hne, hfu]
    have h5 := faces_apart ho hD hfm hf' hne
    have hg : (2.236 : ℝ) < √5 := lt_sqrt_of_sq_lt (by norm_num)
    have h6 : 1 / √5 ≤ 0.45 := by
      rw [div_le_iff₀ (by linarith)]; linarith
    obtain ⟨j, hj⟩ := List.mem_iff_getElem?.1 hf'
    have h7 : dot f' ≤ dot f := by
      rcases hmax j _ (by rw [List.getElem?_map, hj]; rfl) with h | h
      · exact h.le
      · exact h.1.le
    have a := abs_le.mp (hε f hfm)
    have a' := abs_le.mp (hε f' hf')
    simp only [smul_eq_mul]
    have : 4 * ε * (f' ⬝ᵥ f) ≤ 4 * ε * 0.45 := mul_le_mul_of_nonneg_left (h5.trans h6) (by linarith)
    linarith
  · unfold greatCircle
    rw [SpherePoint.cosSep_eq, arcsin_eq_arccos (by linarith : 0 ≤ 4 * ε)]
    exact antitone_arccos hqp

/-- C84: so with the gnomonic projection, products that are within a thirteenth of the overlap (in radians) of the true ones find a tract that
contains the position. -/
theorem C84_dodeca_contains {other : P2 ℝ → SpherePoint ℝ → CdMatrix → String → Wcs (SpherePoint ℝ) ℝ} (hov1 : ov ≤ 90) (he : env.Ok)
    (ht0 : 0 < tiny) (ht1 : tiny ≤ 1 / 10) (ho : o.Ok) (hf : WcsFactory.new scale "TAN" θ flipX = .ok f) (hs : 0 < scale)
    (hl : tracts tiny (f.makeWcs other ⟨0, 0⟩) o w ov = .ok (D, l))
    (hx : 0 < b₀.patchInnerDimensions.x) (hy : 0 < b₀.patchInnerDimensions.y) (hb : EagerSkyMap.buildAll env sphereOps l 0 b₀ = .ok (ts, b))
    (p : SpherePoint ℝ) {dot : Vec3 → ℝ} (hε : ∀ f ∈ D.faceVecList, |dot f - f ⬝ᵥ p.getVector| ≤ ov * (π / 180) / 13) :
    ∃ t : TractRef (SpherePoint ℝ) ℝ, findTractWith D (EagerSkyMap.skyMapOps ts) dot b = (.ok t, b) ∧ t ∈ ts ∧ t.info.contains p = true := by
  have hpi := pi_pos
  have hpi4 := pi_lt_d2
  have hD : D.faceVecList ≠ [] := by
    obtain ⟨hD, -⟩ := C36_tracts ht0 ht1 ho hl hx hy hb
    obtain ⟨D', M, hD', -, -, h, -⟩ := C37_regular ho w
    rw [hD, Except.ok.injEq] at hD'
    intro h0
    rw [← hD', h0] at h
    simp at h
  obtain ⟨f₀, hf₀⟩ := List.exists_mem_of_ne_nil _ hD
  have h0 : 0 ≤ ov * (π / 180) / 13 := (abs_nonneg _).trans (hε f₀ hf₀)
  have hr0 : 0 ≤ ov * (π / 180) := by linarith
  have hov0 : 0 ≤ ov := by
    by_contra hn
    have : ov * (π / 180) < 0 := mul_neg_of_neg_of_pos (by linarith) (by positivity)
    linarith
  have hr1 : ov * (π / 180) ≤ π / 2 := by
    calc ov * (π / 180) ≤ 90 * (π / 180) := mul_le_mul_of_nonneg_right hov1 (by positivity)
      _ = π / 2 := by ring
  have h4 : 4 * (ov * (π / 180) / 13) < 1 := by linarith
  obtain ⟨k, t, h1, h2, h3⟩ := C84_dodeca ht0 ht1 ho hl hx hy hb p hε h4
  have hm := List.mem_of_getElem? h2
  refine ⟨t, h1, hm, ?_⟩
  refine C61_dodeca hov0 hov1 he ht0 ht1 ho hf hs hl hx hy hb hm p ?_
  obtain ⟨q, hq, hqp⟩ := h3
  refine ⟨q, hq, hqp.trans ?_⟩
  have hmar := (C61_margin hr0 (by linarith)).1
  set e := ov * (π / 180) / 13 with he'
  have ha0 : 0 ≤ arcsin (4 * e) := arcsin_nonneg.2 (by linarith)
  have hj := mul_le_sin ha0 (arcsin_le_pi_div_two _)
  rw [sin_arcsin (by linarith) h4.le] at hj
  have : arcsin (4 * e) ≤ 2 * π * e := by
    rw [div_mul_eq_mul_div, div_le_iff₀ hpi] at hj
    linarith
  have h5 : 2 * π * e ≤ 2 * 3.15 * e := by
    apply mul_le_mul_of_nonneg_right _ h0
    linarith
  linarith

/-- C84: and with the stereographic projection, which is the default, and the overlaps for which C60 shows that the tracts cover the sky, products
that are within 1/5000 of the true ones find a tract that contains the position. -/
theorem C84_dodeca_contains_stg {other : P2 ℝ → SpherePoint ℝ → CdMatrix → String → Wcs (SpherePoint ℝ) ℝ} (hov0 : 3 ≤ ov) (hov1 : ov ≤ 180)
    (he : env.Ok) (ht0 : 0 < tiny) (ht1 : tiny ≤ 1 / 10) (ho : o.Ok) (hf : WcsFactory.new scale "STG" θ flipX = .ok f) (hs : 0 < scale)
    (hl : tracts tiny (f.makeWcs other ⟨0, 0⟩) o w ov = .ok (D, l))
    (hx : 0 < b₀.patchInnerDimensions.x) (hy : 0 < b₀.patchInnerDimensions.y) (hb : EagerSkyMap.buildAll env sphereOps l 0 b₀ = .ok (ts, b))
    (p : SpherePoint ℝ) {dot : Vec3 → ℝ} (hε : ∀ f ∈ D.faceVecList, |dot f - f ⬝ᵥ p.getVector| ≤ 1 / 5000) :
    ∃ t : TractRef (SpherePoint ℝ) ℝ, findTractWith D (EagerSkyMap.skyMapOps ts) dot b = (.ok t, b) ∧ t ∈ ts ∧ t.info.contains p = true := by
  have hpi := pi_pos
  obtain ⟨k, t, h1, h2, q, hq, hqp⟩ := C84_dodeca ht0 ht1 ho hl hx hy hb p hε (by norm_num)
  refine ⟨t, h1, List.mem_of_getElem? h2, ?_⟩
  obtain ⟨a, b', hak, hnew⟩ := EagerSkyMap.buildAll_fresh hb h2
  obtain ⟨hD, -, hargs⟩ := args_ok ht0 ht1 ho hl
  obtain ⟨cs, -, g1, g2, g3, g4, g5, g6⟩ := hargs hak
  have hcs : t.info.vertexCoordList = cs := by
    obtain ⟨mb, bbox, n, -, -, e⟩ := TractInfo.new_inv hnew
    rw [e, g1]
  rw [hcs] at hq
  refine stg_covers_near ho hD he hnew hx hy hf hs g6 g1 g2 g3 g4 (by rw [g5]; nlinarith) (by rw [g5]; nlinarith) hq ?_
  have c := cosSep_range q p
  unfold greatCircle at hqp
  have hcos : cos (arcsin (4 * (1 / 5000))) ≤ cosSep q p := by
    have := cos_le_cos_of_nonneg_of_le_pi (arccos_nonneg _) ((arcsin_le_pi_div_two _).trans (by linarith)) hqp
    rwa [cos_arccos c.1 c.2] at this
  rw [cos_arcsin, SpherePoint.cosSep_eq] at hcos
  have : (0.9999993 : ℝ) ≤ √(1 - (4 * (1 / 5000)) ^ 2) := le_sqrt_of_sq_le (by norm_num)
  rw [sub_dotProduct, dotProduct_sub, dotProduct_sub, p.vec_unit, q.vec_unit, dotProduct_comm p.getVector]
  linarith

/-- C84 is not vacuous: the default overlap, products rounded to the next multiple of `10⁻⁴`; a position for which there is a tract. -/
example (other) (p : SpherePoint ℝ) : ∃ f D l ts b t, WcsFactory.new (0.2 / 3600 * (π / 180)) "STG" 1 false = .ok f ∧
    tracts (1 / 1000) (f.makeWcs other ⟨0, 0⟩) ascending false 3.5 = .ok (D, l) ∧
    EagerSkyMap.buildAll Ex.realEnv sphereOps l 0 ⟨.legacy, ⟨4000, 4000⟩, 250, none⟩ = .ok (ts, b) ∧
    findTractWith D (EagerSkyMap.skyMapOps ts) (fun f => (round (f ⬝ᵥ p.getVector * 10 ^ 4) : ℝ) / 10 ^ 4) b = (.ok t, b) ∧
    t.info.contains p = true := by
  have hp := pi_pos
  have hs : (0 : ℝ) < 0.2 / 3600 * (π / 180) := by positivity
  obtain ⟨f, hf⟩ := (WcsFactory.C56_projection_length (0.2 / 3600 * (π / 180)) "STG" 1 false).2 rfl
  obtain ⟨D, l, ts, b, h1, h2⟩ := C60_builds (other := other) (tiny := 1 / 1000) (o := ascending) (w := false) (ov := 3.5)
    (env := Ex.realEnv) (b₀ := ⟨.legacy, ⟨4000, 4000⟩, 250, none⟩) (.inr ⟨rfl, by norm_num, by norm_num⟩) (by norm_num) (by norm_num)
    ascending_ok hf hs (by decide) (by decide)
  obtain ⟨t, h3, -, h4⟩ := C84_dodeca_contains_stg (by norm_num) (by norm_num) Ex.realEnv_ok (by norm_num) (by norm_num) ascending_ok hf hs h1
    (by decide) (by decide) h2 p (dot := fun f => (round (f ⬝ᵥ p.getVector * 10 ^ 4) : ℝ) / 10 ^ 4) (by
      intro f _
      have := abs_sub_round (f ⬝ᵥ p.getVector * 10 ^ 4)
      rw [abs_le] at this ⊢
      constructor <;> (norm_num at this ⊢; linarith))
  exact ⟨f, D, l, ts, b, t, hf, h1, h2, h3, h4⟩

end DodecaSkyMap

/-! ## Equatorial sky maps -/

namespace Equat
variable {env : FloatEnv ℝ} {n : Nat} {d0 d1 ov : ℝ} {ts : List (TractRef (SpherePoint ℝ) ℝ)} {b₀ b : TractBuilder}

/-- The two neighbours of a tract. -/
theorem neighbours {k : ℕ} (hk : k < n) :
    (∃ k' < n, ∀ y, cos (y - (2 * (k' : ℝ) + 1) * π / n) = cos (y - (2 * k + 1) * π / n - 2 * (π / n))) ∧
    (∃ k' < n, ∀ y, cos (y - (2 * (k' : ℝ) + 1) * π / n) = cos (y - (2 * k + 1) * π / n + 2 * (π / n))) := by
  have hn : (n : ℝ) ≠ 0 := by exact_mod_cast (by omega : n ≠ 0)
  constructor
  · by_cases h : k + 1 = n
    · refine ⟨0, by omega, fun y => ?_⟩
      have e : (k : ℝ) = n - 1 := by rw [← h]; push_cast; ring
      rw [← cos_sub_two_pi]
      congr 1
      rw [e]; push_cast; field_simp; ring
    · refine ⟨k + 1, by omega, fun y => ?_⟩
      congr 1
      push_cast; field_simp; ring
  · by_cases h : k = 0
    · refine ⟨n - 1, by omega, fun y => ?_⟩
      have e : ((n - 1 : ℕ) : ℝ) = n - 1 := by rw [Nat.cast_sub (by omega)]; simp
      rw [← cos_add_two_pi]
      congr 1
      rw [e, h]; push_cast; field_simp; ring
    · refine ⟨k - 1, by omega, fun y => ?_⟩
      have e : ((k - 1 : ℕ) : ℝ) = k - 1 := by rw [Nat.cast_sub (by omega)]; simp
      congr 1
      rw [e]; field_simp; ring

/-- Between two neighbouring middles `2 * w` apart, how much further the one is whose half interval is overshot by `R`. -/
theorem overshoot {w R x : ℝ} (hw : 0 < w) (hw1 : w ≤ π / 2) (hR : 0 ≤ R) (hx : w + R < x) (hx1 : x ≤ π) :
    2 * sin w * min (sin R) (sin w) ≤ cos (x - 2 * w) - cos x := by
  have e : cos (x - 2 * w) - cos x = 2 * sin w * sin (x - w) := by
    rw [cos_sub_cos, show (x - 2 * w + x) / 2 = x - w by ring, show (x - 2 * w - x) / 2 = -w by ring, sin_neg]
    ring
  rw [e]
  apply mul_le_mul_of_nonneg_left _ (by have := sin_nonneg_of_nonneg_of_le_pi hw.le (by linarith); linarith)
  by_cases h : x - w ≤ π / 2
  · exact (min_le_left _ _).trans (sin_le_sin_of_le_of_le_pi_div_two (by linarith) h (by linarith))
  · refine (min_le_right _ _).trans ?_
    rw [← sin_pi_sub (x - w)]
    exact sin_le_sin_of_le_of_le_pi_div_two (by linarith) (by linarith) (by linarith)

variable {flipX : Bool} {f : WcsFactory} {scale : ℝ} {other : P2 ℝ → SpherePoint ℝ → CdMatrix → String → Wcs (SpherePoint ℝ) ℝ}

/-- C84: the default `findTract` on an equatorial sky map with two tracts or more and the cylindrical projection, with separations that are
within `ε` of the true ones: the tract that is found contains the position, as long as `ε` is small compared with the tract width and the overlap. -/
theorem C84_equat (hn : 2 ≤ n) (h0 : |d0| < 90) (h1 : |d1| < 90) (hov : 0 ≤ ov) (hov1 : ov < 180) (k0 : -90 ≤ d0 - ov / 2)
    (k1 : d1 + ov / 2 ≤ 90) (he : env.Ok) (hx : 0 < b₀.patchInnerDimensions.x) (hy : 0 < b₀.patchInnerDimensions.y)
    (hf : WcsFactory.new scale "CEA" 0 flipX = .ok f) (hs : 0 < scale) {l : List (TractArgs (SpherePoint ℝ) ℝ)}
    (hl : tracts exact (f.makeWcs other ⟨0, 0⟩) ⟨n, [d0, d1], ov⟩ = .ok l)
    (hb : EagerSkyMap.buildAll env sphereOps l 0 b₀ = .ok (ts, b))
    {p : SpherePoint ℝ} (hp0 : rad (d0 - ov / 2) ≤ p.lat) (hp1 : p.lat ≤ rad (d1 + ov / 2))
    (ops : SkyOps (SpherePoint ℝ) ℝ) {ε : ℝ} (hε : ∀ t ∈ ts, |ops.separation p t.info.ctrCoord - greatCircle p t.info.ctrCoord| ≤ ε)
    {d : ℝ} (hd : d = d0 ∨ d = d1)
    (hsmall : ε < cos p.lat * cos (rad ((d0 + d1) / 2)) * sin (π / n) * min (sin (lonReach (rad ov / 2) (rad d))) (sin (π / n))) :
    ∃ t, BaseSkyMap.findTract ops (EagerSkyMap.skyMapOps ts) p b = (.ok t, b) ∧ t ∈ ts ∧ t.info.contains p = true := by
  have hp := pi_pos
  have hn' : (2 : ℝ) ≤ n := by exact_mod_cast hn
  obtain ⟨t1, t2⟩ := C35_tracts (by omega) h0.le h1.le hl hx hy hb
  obtain ⟨k, t, e1, e2, e3⟩ := eager_findTract ops ts env b p (by omega)
  have htm := List.mem_of_getElem? e2
  have hkn : k < n := by rw [← t1]; exact (List.getElem?_eq_some_iff.1 e2).1
  refine ⟨t, e1, htm, ?_⟩
  have hdd : |d| < 90 := by rcases hd with rfl | rfl <;> assumption
  set R := lonReach (rad ov / 2) (rad d) with hR
  have hrov : 0 ≤ rad ov := by unfold rad; positivity
  have hrov1 : rad ov < π := by unfold rad; nlinarith
  obtain ⟨hR0, hR1⟩ := lonReach_range (rad d) (δ := rad ov / 2) (by linarith) (by linarith) (cos_rad_pos hdd)
  rw [← hR] at hR0 hR1
  set w := π / n with hw
  have hw0 : 0 < w := by positivity
  have hw1 : w ≤ π / 2 := by rw [hw]; gcongr
  have hε0 : 0 ≤ ε := (abs_nonneg _).trans (hε t htm)
  set C := cos p.lat * cos (rad ((d0 + d1) / 2)) with hC
  -- the cosines of the distances in right ascension
  have key : ∀ k' < n, C * (cos (p.lon - (2 * (k' : ℝ) + 1) * π / n) - cos (p.lon - (2 * (k : ℝ) + 1) * π / n)) ≤ 2 * ε := by
    intro k' hk'
    obtain ⟨t', f1, -, f2, -⟩ := t2 k' hk'
    obtain ⟨t'', g1, -, g2, -⟩ := t2 k hkn
    rw [e2, Option.some.injEq] at g1
    subst g1
    have a := abs_le.mp (hε t htm)
    have a' := abs_le.mp (hε t' (List.mem_of_getElem? f1))
    have h3 : greatCircle p t.info.ctrCoord ≤ greatCircle p t'.info.ctrCoord + 2 * ε := by
      rcases e3 k' t' f1 with h | h
      · linarith
      · linarith [h.1]
    have c1 := cosSep_range p t.info.ctrCoord
    have c2 := cosSep_range p t'.info.ctrCoord
    have h4 : cosSep p t'.info.ctrCoord - cosSep p t.info.ctrCoord ≤ 2 * ε := by
      by_cases h5 : greatCircle p t.info.ctrCoord ≤ greatCircle p t'.info.ctrCoord
      · unfold greatCircle at h5
        have := cos_le_cos_of_nonneg_of_le_pi (arccos_nonneg _) (arccos_le_pi _) h5
        rw [cos_arccos c1.1 c1.2, cos_arccos c2.1 c2.2] at this
        linarith
      · have := abs_cos_sub_cos_le (greatCircle p t'.info.ctrCoord) (greatCircle p t.info.ctrCoord)
        rw [greatCircle, greatCircle, cos_arccos c1.1 c1.2, cos_arccos c2.1 c2.2] at this
        rw [← greatCircle, ← greatCircle, abs_of_neg (by linarith : greatCircle p t'.info.ctrCoord - greatCircle p t.info.ctrCoord < 0)] at this
        have := le_abs_self (cosSep p t'.info.ctrCoord - cosSep p t.info.ctrCoord)
        linarith
    unfold cosSep at h4
    rw [f2, g2] at h4
    dsimp only at h4
    rw [hC, rad]
    linarith
  have hCpos : 0 < C := by
    rcases lt_or_ge 0 C with h | h
    · exact h
    · have : C * sin w * min (sin R) (sin w) ≤ 0 := by
        have s1 := sin_nonneg_of_nonneg_of_le_pi hw0.le (by linarith)
        have s2 := sin_nonneg_of_nonneg_of_le_pi hR0 (by linarith)
        exact mul_nonpos_of_nonpos_of_nonneg (mul_nonpos_of_nonpos_of_nonneg h s1) (le_min s2 s1)
      linarith
  -- the right ascension relative to the middle of the tract
  obtain ⟨j, hj1, hj2⟩ : ∃ j : ℤ, -π ≤ p.lon - (2 * k + 1) * π / n + j * (2 * π) ∧ p.lon - (2 * k + 1) * π / n + j * (2 * π) ≤ π := by
    set y := p.lon - (2 * k + 1) * π / n
    refine ⟨-⌊(y + π) / (2 * π)⌋, ?_, ?_⟩
    · have := Int.floor_le ((y + π) / (2 * π))
      rw [le_div_iff₀ (by positivity)] at this
      push_cast; linarith
    · have := (Int.lt_floor_add_one ((y + π) / (2 * π))).le
      rw [div_le_iff₀ (by positivity)] at this
      push_cast; linarith
  refine C59_contains hn h0 h1 hov hov1 k0 k1 he hx hy hf hs hl hb e2 hp0 hp1 hd j ?_
  rw [← hw, ← hR]
  set x := p.lon - (2 * k + 1) * π / n + j * (2 * π) with hxdef
  have hcosx : cos (p.lon - (2 * k + 1) * π / n) = cos x := by rw [hxdef, cos_add_int_mul_two_pi]
  have contra : ∀ {z : ℝ}, 2 * sin w * min (sin R) (sin w) ≤ z → C * z ≤ 2 * ε → False := by
    intro z h5 h6
    have := mul_le_mul_of_nonneg_left h5 hCpos.le
    nlinarith
  obtain ⟨⟨k', hk', hup⟩, ⟨k'', hk'', hdn⟩⟩ := neighbours hkn
  by_contra hcon
  rw [not_le] at hcon
  rcases lt_abs.1 hcon with h | h
  · refine contra (overshoot hw0 hw1 hR0 h hj2) (le_trans (le_of_eq ?_) (key k' hk'))
    rw [hup, hcosx, ← hw]
    congr 2
    rw [hxdef, show p.lon - (2 * k + 1) * π / n + j * (2 * π) - 2 * w = p.lon - (2 * k + 1) * π / n - 2 * w + j * (2 * π) by ring,
      cos_add_int_mul_two_pi]
  · refine contra (overshoot hw0 hw1 hR0 h (by linarith)) (le_trans (le_of_eq ?_) (key k'' hk''))
    rw [hdn, hcosx, ← hw, cos_neg, ← cos_neg (-x - 2 * w)]
    congr 2
    rw [hxdef, show -(-(p.lon - (2 * k + 1) * π / n + j * (2 * π)) - 2 * w) = p.lon - (2 * k + 1) * π / n + 2 * w + j * (2 * π) by ring,
      cos_add_int_mul_two_pi]

/-- C84 is not vacuous: the default configuration (four tracts, -1.25 to 1.25 degrees, an overlap of one degree) and separations that are
wrong by 1/1000, in a direction that depends on the tract, at the boundary of two tracts. -/
example : ∃ (f : WcsFactory) (l : List (TractArgs (SpherePoint ℝ) ℝ)) (ts : List (TractRef (SpherePoint ℝ) ℝ)) (b : TractBuilder)
      (t : TractRef (SpherePoint ℝ) ℝ), WcsFactory.new (1 / 1000) "CEA" 0 false = .ok f ∧
      tracts exact (f.makeWcs other ⟨0, 0⟩) ⟨(4 : ℕ), [-(5 / 4), 5 / 4], 1⟩ = .ok l ∧
      EagerSkyMap.buildAll Ex.realEnv sphereOps l 0 Ex.smallBuilder = .ok (ts, b) ∧
      BaseSkyMap.findTract { sphereOps with separation := fun p q => greatCircle p q + sin q.lon / 1000 }
        (EagerSkyMap.skyMapOps ts) ⟨π / 2, 0⟩ b = (.ok t, b) ∧ t.info.contains ⟨π / 2, 0⟩ = true := by
  have hp := pi_gt_three
  have hp4 := pi_lt_d4
  have hd : |(-(5 / 4) : ℝ)| < 90 ∧ |(5 / 4 : ℝ)| < 90 := by constructor <;> norm_num [abs_lt]
  obtain ⟨f, hf⟩ := (WcsFactory.C56_projection_length (1 / 1000) "CEA" 0 false).2 rfl
  obtain ⟨l, ts, b, h1, h2⟩ := C59_builds (env := Ex.realEnv) (b₀ := Ex.smallBuilder) (other := other) (n := 4) (ov := 1) (by norm_num)
      hd.1.le hd.2.le (by decide) (by decide) hf (by norm_num)
  obtain ⟨t, h3, -, h4⟩ := C84_equat (p := ⟨π / 2, 0⟩) (by norm_num) hd.1 hd.2 (by norm_num) (by norm_num) (by norm_num) (by norm_num)
      Ex.realEnv_ok (by decide) (by decide) hf (by norm_num) h1 h2
      (by unfold rad; dsimp only; linarith) (by unfold rad; dsimp only; linarith)
      { sphereOps with separation := fun p q => greatCircle p q + sin q.lon / 1000 } (ε := 1 / 1000)
      (by
        intro t _
        have := neg_one_le_sin t.info.ctrCoord.lon
        have := sin_le_one t.info.ctrCoord.lon
        dsimp only
        rw [abs_le]; constructor <;> linarith) (.inl rfl) (by
    rw [show ((-(5 / 4) : ℝ) + 5 / 4) / 2 = 0 by norm_num, show rad 0 = 0 by simp [rad], cos_zero, one_mul, one_mul]
    rw [show (π / ((4 : ℕ) : ℝ)) = π / 4 by norm_num, sin_pi_div_four]
    have hsq : (1.4 : ℝ) < √2 := lt_sqrt_of_sq_lt (by norm_num)
    have hrad : 1 / 180 < rad 1 / 2 := by unfold rad; linarith
    have hr2 : rad 1 / 2 < π / 2 := by unfold rad; linarith
    have hcd : 0 < cos (rad (-(5 / 4))) := cos_rad_pos hd.1
    have hR : 1 / 180 < tan (rad 1 / 2) / cos (rad (-(5 / 4))) := by
      rw [lt_div_iff₀ hcd]
      have := le_tan (by linarith) hr2
      have := cos_le_one (rad (-(5 / 4)))
      linarith
    have hs : 1 / 200 ≤ sin (lonReach (rad 1 / 2) (rad (-(5 / 4)))) := by
      unfold lonReach
      set x := tan (rad 1 / 2) / cos (rad (-(5 / 4)))
      rw [sin_arctan]
      rw [le_div_iff₀ (by positivity)]
      have : √(1 + x ^ 2) ≤ 1 + x := by
        rw [sqrt_le_left (by linarith)]
        nlinarith
      linarith
    have : (1 / 200 : ℝ) ≤ min (sin (lonReach (rad 1 / 2) (rad (-(5 / 4))))) (√2 / 2) := le_min hs (by linarith)
    nlinarith)
  exact ⟨f, l, ts, b, t, hf, h1, h2, h3, h4⟩

end Equat
end Skymap
