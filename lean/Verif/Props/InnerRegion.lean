import Verif.Props.SkyPolygonCea
import Verif.Props.DodecaCover
import Verif.Props.VertexCover

/-! # C80: the inner sky regions of tracts -/

set_option linter.unusedSectionVars false

namespace Skymap
open Real Matrix Dodeca SpherePoint

/-! ## Specification vocabulary -/

/-- The position is in the tract's inner sky region (`tract.getInnerSkyRegion().contains(position)`): a box in longitude and latitude, or a convex
polygon. -/
def TractInfo.InInnerRegion (t : TractInfo (SpherePoint ℝ) ℝ) (p : SpherePoint ℝ) : Prop :=
  match t.getInnerSkyRegion with
  | .inl (c₁, c₂) => boxContains c₁ c₂ p
  | .inr corners => InPolygon corners p

/-- The position is on the edge of the convex polygon: on a great circle that has the whole polygon on one side. -/
def OnEdge (corners : List (SpherePoint ℝ)) (p : SpherePoint ℝ) : Prop :=
  InPolygon corners p ∧ ∃ W : Vec3, W ≠ 0 ∧ (∀ c ∈ corners, 0 ≤ W ⬝ᵥ c.getVector) ∧ W ⬝ᵥ p.getVector = 0

/-! ## Cones and polygons -/

theorem InPolygon.of_cone {corners : List (SpherePoint ℝ)} {p : SpherePoint ℝ}
    (h : InCone (corners.map SpherePoint.getVector) p.getVector) : InPolygon corners p := by
  intro W hW
  refine h.induct (p := fun w => 0 ≤ W ⬝ᵥ w) (by simp) (fun x y hx hy => by rw [dotProduct_add]; exact add_nonneg hx hy) ?_
  intro a x ha hx
  obtain ⟨c, hc, rfl⟩ := List.mem_map.1 hx
  rw [dotProduct_smul]
  exact mul_nonneg ha (hW c hc)

/-- Farkas' lemma: a vector that is in every half-space with the generators is in their cone. -/
theorem InCone.of_halfspaces {vs : List Vec3} {u : Vec3} (h : ∀ W : Vec3, (∀ v ∈ vs, 0 ≤ W ⬝ᵥ v) → 0 ≤ W ⬝ᵥ u) : InCone vs u := by
  induction hn : vs.length generalizing vs u with
  | zero =>
    have hnil := List.eq_nil_of_length_eq_zero hn
    subst hnil
    have h1 := h (-u) (by simp)
    have h2 : u ⬝ᵥ u = 0 := le_antisymm (by rw [neg_dotProduct] at h1; linarith) (by
      rw [dotProduct]; exact Finset.sum_nonneg fun i _ => mul_self_nonneg _)
    have h3 : u = 0 := by
      rw [dotProduct, Finset.sum_eq_zero_iff_of_nonneg fun i _ => mul_self_nonneg _] at h2
      funext i
      simpa using h2 i (Finset.mem_univ i)
    rw [h3]
    exact InCone.zero _
  | succ n ih =>
    obtain ⟨a, vs, rfl⟩ := List.exists_cons_of_length_eq_add_one hn
    have hlen : vs.length = n := by simpa using hn
    by_cases hc : ∀ W : Vec3, (∀ v ∈ vs, 0 ≤ W ⬝ᵥ v) → 0 ≤ W ⬝ᵥ u
    · exact (ih hc hlen).mono fun v hv => InCone.mem (List.mem_cons_of_mem _ hv)
    · push Not at hc
      obtain ⟨Z, hZ, hZu⟩ := hc
      have hZa : Z ⬝ᵥ a < 0 := by
        by_contra hh
        have := h Z (by
          intro v hv
          rcases List.mem_cons.1 hv with rfl | hv
          · exact not_lt.1 hh
          · exact hZ v hv)
        linarith
      -- along `a`, onto the plane of `Z`
      set f : Vec3 → Vec3 := fun v => v + (-(Z ⬝ᵥ v) / (Z ⬝ᵥ a)) • a with hf
      have hcone : InCone (vs.map f) (f u) := by
        refine ih (fun W hW => ?_) (by simpa using hlen)
        have key : ∀ v, W ⬝ᵥ f v = (W - ((W ⬝ᵥ a) / (Z ⬝ᵥ a)) • Z) ⬝ᵥ v := by
          intro v
          rw [hf]
          simp only [dotProduct_add, dotProduct_smul, sub_dotProduct, smul_dotProduct, smul_eq_mul]
          ring
        rw [key]
        refine h _ fun v hv => ?_
        rcases List.mem_cons.1 hv with rfl | hv
        · rw [sub_dotProduct, smul_dotProduct, smul_eq_mul, div_mul_cancel₀ _ hZa.ne, sub_self]
        · rw [← key]
          exact hW _ (List.mem_map_of_mem hv)
      have ha : InCone (a :: vs) a := InCone.mem (by simp)
      have hu : u = f u + ((Z ⬝ᵥ u) / (Z ⬝ᵥ a)) • a := by
        rw [hf]
        dsimp only
        rw [add_assoc, ← add_smul, ← add_div, neg_add_cancel, zero_div, zero_smul, add_zero]
      rw [hu]
      refine InCone.add (hcone.mono fun v hv => ?_) (InCone.smul (div_nonneg_of_nonpos hZu.le hZa.le) ha)
      obtain ⟨x, hx, rfl⟩ := List.mem_map.1 hv
      exact InCone.add (InCone.mem (List.mem_cons_of_mem _ hx))
        (InCone.smul (div_nonneg_of_nonpos (neg_nonpos.2 (hZ x hx)) hZa.le) ha)

/-- The polygon is the cone of its corners. -/
theorem inPolygon_iff_cone {corners : List (SpherePoint ℝ)} {p : SpherePoint ℝ} :
    InPolygon corners p ↔ InCone (corners.map SpherePoint.getVector) p.getVector := by
  refine ⟨fun h => InCone.of_halfspaces fun W hW => h W fun c hc => hW _ (List.mem_map_of_mem hc), InPolygon.of_cone⟩

/-! ## Regions between two meridians -/

/-- The polygon with corners on two meridians and two parallels, exactly: its eastern and western edges are the meridians, the others are great
circles. -/
theorem quad_polygon {b e δ φ0 φ1 : ℝ} (hδ : 0 < δ) (hδ1 : δ < π / 2) (he : ∃ k : ℤ, e = b + 2 * δ + k * (2 * π)) (l0 : |φ0| < π / 2)
    (l1 : |φ1| < π / 2) (hlt : φ0 < φ1) (s : SpherePoint ℝ) (hs1 : |s.lat| ≤ π / 2) :
    InPolygon (quad b e φ0 φ1) s ↔ |s.lat| < π / 2 ∧ ∃ u, |u| ≤ δ ∧ (∃ k : ℤ, s.lon = b + δ + u + k * (2 * π)) ∧
      tan φ0 * cos u ≤ tan s.lat * cos δ ∧ tan s.lat * cos δ ≤ tan φ1 * cos u := by
  have hp := pi_pos
  have c0 : 0 < cos φ0 := cos_pos_of_mem_Ioo (abs_lt.1 l0)
  have c1 : 0 < cos φ1 := cos_pos_of_mem_Ioo (abs_lt.1 l1)
  have sδ : 0 < sin δ := sin_pos_of_pos_of_lt_pi hδ (by linarith)
  have cδ : 0 < cos δ := cos_pos_of_mem_Ioo ⟨by linarith, hδ1⟩
  obtain ⟨ke, rfl⟩ := he
  -- the middle meridian
  set c : SpherePoint ℝ := ⟨b + δ, 0⟩ with hc
  have side : ∀ (W : Vec3) (lon lat u : ℝ), cos (lon - c.lon) = cos u → sin (lon - c.lon) = sin u →
      W ⬝ᵥ (⟨lon, lat⟩ : SpherePoint ℝ).getVector =
        cos lat * ((W ⬝ᵥ c.getVector) * cos u + (W ⬝ᵥ c.eastVec) * sin u) + (W ⬝ᵥ c.northVec) * sin lat := by
    intro W lon lat u h1 h2
    rw [equator_dot (c := c) rfl W ⟨lon, lat⟩]
    dsimp only
    rw [h1, h2]
  have west : ∀ (W : Vec3) (lat : ℝ), W ⬝ᵥ (⟨b, lat⟩ : SpherePoint ℝ).getVector =
      cos lat * ((W ⬝ᵥ c.getVector) * cos δ - (W ⬝ᵥ c.eastVec) * sin δ) + (W ⬝ᵥ c.northVec) * sin lat := by
    intro W lat
    have hb : b - c.lon = -δ := by rw [hc]; ring
    rw [side W b lat (-δ) (by rw [hb]) (by rw [hb]), cos_neg, sin_neg]
    ring
  have east : ∀ (W : Vec3) (lat : ℝ), W ⬝ᵥ (⟨b + 2 * δ + ke * (2 * π), lat⟩ : SpherePoint ℝ).getVector =
      cos lat * ((W ⬝ᵥ c.getVector) * cos δ + (W ⬝ᵥ c.eastVec) * sin δ) + (W ⬝ᵥ c.northVec) * sin lat := by
    intro W lat
    have hb : b + 2 * δ + ke * (2 * π) - c.lon = δ + ke * (2 * π) := by rw [hc]; ring
    rw [side W _ lat δ (by rw [hb, cos_add_int_mul_two_pi]) (by rw [hb, sin_add_int_mul_two_pi])]
  unfold InPolygon quad
  simp only [List.mem_cons, List.not_mem_nil, or_false, forall_eq_or_imp, forall_eq, west, east]
  constructor
  · intro hin
    have use : ∀ p q d : ℝ, 0 ≤ cos φ0 * (p * cos δ - q * sin δ) + d * sin φ0 → 0 ≤ cos φ0 * (p * cos δ + q * sin δ) + d * sin φ0 →
        0 ≤ cos φ1 * (p * cos δ - q * sin δ) + d * sin φ1 → 0 ≤ cos φ1 * (p * cos δ + q * sin δ) + d * sin φ1 →
        0 ≤ cos s.lat * (p * cos (s.lon - c.lon) + q * sin (s.lon - c.lon)) + d * sin s.lat := by
      intro p q d h1 h2 h3 h4
      obtain ⟨f1, f2, f3⟩ := frameVec_dot c q d p
      have := hin (frameVec c q d p)
      rw [f1, f2, f3, side _ s.lon s.lat (s.lon - c.lon) rfl rfl, f1, f2, f3] at this
      exact this ⟨h1, h2, h4, h3⟩
    have hd : 0 < sin (φ1 - φ0) := by
      have a0 := abs_lt.1 l0; have a1 := abs_lt.1 l1
      exact sin_pos_of_pos_of_lt_pi (by linarith) (by linarith)
    rw [sin_sub] at hd
    have hlo := use (-sin φ0) 0 (cos δ * cos φ0) (by ring_nf; rfl) (by ring_nf; rfl)
      (by have := mul_pos cδ hd; linarith) (by have := mul_pos cδ hd; linarith)
    have hhi := use (sin φ1) 0 (-(cos δ * cos φ1)) (by have := mul_pos cδ hd; linarith) (by have := mul_pos cδ hd; linarith)
      (by ring_nf; rfl) (by ring_nf; rfl)
    have hW := use (sin δ) (cos δ) 0 (by ring_nf; rfl) (by have := mul_pos (mul_pos c0 sδ) cδ; linarith)
      (by ring_nf; rfl) (by have := mul_pos (mul_pos c1 sδ) cδ; linarith)
    have hE := use (sin δ) (-cos δ) 0 (by have := mul_pos (mul_pos c0 sδ) cδ; linarith) (by ring_nf; rfl)
      (by have := mul_pos (mul_pos c1 sδ) cδ; linarith) (by ring_nf; rfl)
    have hcs : 0 ≤ cos s.lat := cos_nonneg_of_mem_Icc (abs_le.1 hs1)
    have hne : cos s.lat ≠ 0 := by
      intro h
      rw [h] at hlo hhi
      have hsin := sin_sq_add_cos_sq s.lat
      rw [h] at hsin
      have p0 : 0 ≤ sin s.lat := by
        have : 0 ≤ (cos δ * cos φ0) * sin s.lat := by linarith
        exact nonneg_of_mul_nonneg_right this (by positivity)
      have p1 : sin s.lat ≤ 0 := by
        have : 0 ≤ (cos δ * cos φ1) * (-sin s.lat) := by linarith
        have := nonneg_of_mul_nonneg_right this (by positivity)
        linarith
      have : sin s.lat = 0 := le_antisymm p1 p0
      rw [this] at hsin
      norm_num at hsin
    have hcs' : 0 < cos s.lat := lt_of_le_of_ne hcs hne.symm
    have hlat : |s.lat| < π / 2 := by
      refine lt_of_le_of_ne hs1 fun h => hne ?_
      rw [← cos_abs, h, cos_pi_div_two]
    obtain ⟨u, hu, k, hk⟩ := between_meridians (x := s.lon - c.lon) hδ
      (by rw [sin_add]; exact nonneg_of_mul_nonneg_right (by linarith) hcs')
      (by rw [sin_sub]; exact nonneg_of_mul_nonneg_right (by linarith) hcs')
    have hcu : cos (s.lon - c.lon) = cos u := by rw [hk, cos_add_int_mul_two_pi]
    rw [hcu] at hlo hhi
    have t0 : tan φ0 * cos φ0 = sin φ0 := tan_mul_cos c0.ne'
    have t1 : tan φ1 * cos φ1 = sin φ1 := tan_mul_cos c1.ne'
    have ts : tan s.lat * cos s.lat = sin s.lat := tan_mul_cos hne
    refine ⟨hlat, u, hu, ⟨k, by rw [hc] at hk; dsimp only at hk; linarith⟩, ?_, ?_⟩
    · have : 0 ≤ (cos s.lat * cos φ0) * (tan s.lat * cos δ - tan φ0 * cos u) := by
        have e : (cos s.lat * cos φ0) * (tan s.lat * cos δ - tan φ0 * cos u) =
          cos δ * cos φ0 * (tan s.lat * cos s.lat) - (tan φ0 * cos φ0) * cos s.lat * cos u := by ring
        rw [e, t0, ts]; linarith
      have := nonneg_of_mul_nonneg_right this (by positivity)
      linarith
    · have : 0 ≤ (cos s.lat * cos φ1) * (tan φ1 * cos u - tan s.lat * cos δ) := by
        have e : (cos s.lat * cos φ1) * (tan φ1 * cos u - tan s.lat * cos δ) =
          (tan φ1 * cos φ1) * cos s.lat * cos u - cos δ * cos φ1 * (tan s.lat * cos s.lat) := by ring
        rw [e, t1, ts]; linarith
      have := nonneg_of_mul_nonneg_right this (by positivity)
      linarith
  · rintro ⟨hlat, u, hu, ⟨k, hk⟩, lo, hi⟩ W ⟨w00, w10, w11, w01⟩
    have e : s.lon - c.lon = u + k * (2 * π) := by rw [hc]; dsimp only; linarith
    rw [show s = ⟨s.lon, s.lat⟩ from rfl, side W s.lon s.lat u (by rw [e, cos_add_int_mul_two_pi]) (by rw [e, sin_add_int_mul_two_pi])]
    exact cea_arc hδ hδ1 c0 c1 (cos_pos_of_mem_Ioo (abs_lt.1 hlat)) w00 w10 w01 w11 hu lo hi

/-- What the polygon between two meridians contains, its corners being less than 180 degrees apart: a position on one of the meridians is on an
edge. -/
theorem quad_edge {b e φ0 φ1 : ℝ} (l0 : |φ0| ≤ π / 2) (l1 : |φ1| ≤ π / 2) (he : 0 ≤ sin (e - b)) {p : SpherePoint ℝ}
    (hp : InPolygon (quad b e φ0 φ1) p) (h : p.lon = b ∨ p.lon = e) : OnEdge (quad b e φ0 φ1) p := by
  have c0 : 0 ≤ cos φ0 := cos_nonneg_of_mem_Icc (abs_le.1 l0)
  have c1 : 0 ≤ cos φ1 := cos_nonneg_of_mem_Icc (abs_le.1 l1)
  refine ⟨hp, ?_⟩
  have dot : ∀ (x : ℝ) (s : SpherePoint ℝ), ![-sin x, cos x, 0] ⬝ᵥ s.getVector = cos s.lat * sin (s.lon - x) := by
    intro x s
    simp only [SpherePoint.getVector, dotProduct, Fin.sum_univ_three, Matrix.cons_val_zero, Matrix.cons_val_one, Matrix.cons_val]
    rw [sin_sub]; ring
  have dot' : ∀ (x : ℝ) (s : SpherePoint ℝ), ![sin x, -cos x, 0] ⬝ᵥ s.getVector = cos s.lat * sin (x - s.lon) := by
    intro x s
    simp only [SpherePoint.getVector, dotProduct, Fin.sum_univ_three, Matrix.cons_val_zero, Matrix.cons_val_one, Matrix.cons_val]
    rw [sin_sub]; ring
  rcases h with h | h
  · refine ⟨![-sin b, cos b, 0], ?_, ?_, ?_⟩
    · intro h0
      have h1 := congrFun h0 0; have h2 := congrFun h0 1
      simp at h1 h2
      have := sin_sq_add_cos_sq b
      rw [h1, h2] at this; norm_num at this
    · simp only [quad, List.mem_cons, List.not_mem_nil, or_false, forall_eq_or_imp, forall_eq, dot, sub_self, sin_zero, mul_zero, le_refl, true_and, and_true]
      exact ⟨mul_nonneg c0 he, mul_nonneg c1 he⟩
    · rw [dot, h, sub_self, sin_zero, mul_zero]
  · refine ⟨![sin e, -cos e, 0], ?_, ?_, ?_⟩
    · intro h0
      have h1 := congrFun h0 0; have h2 := congrFun h0 1
      simp at h1 h2
      have := sin_sq_add_cos_sq e
      rw [h1, h2] at this; norm_num at this
    · simp only [quad, List.mem_cons, List.not_mem_nil, or_false, forall_eq_or_imp, forall_eq, dot', sub_self, sin_zero, mul_zero, le_refl, true_and]
      exact ⟨mul_nonneg c0 he, mul_nonneg c1 he⟩
    · rw [dot', h, sub_self, sin_zero, mul_zero]

/-! ## Sky maps that build all tracts -/

theorem EagerSkyMap.noBox {env : FloatEnv ℝ} {ops : SkyOps (SpherePoint ℝ) ℝ} {l : List (TractArgs (SpherePoint ℝ) ℝ)} {b₀ b : TractBuilder}
    {ts : List (TractRef (SpherePoint ℝ) ℝ)} {n : ℕ} (hb : EagerSkyMap.buildAll env ops l n b₀ = .ok (ts, b))
    (hl : ∀ a ∈ l, a.innerBoxCorners = none) {k : ℕ} {t : TractRef (SpherePoint ℝ) ℝ} (ht : ts[k]? = some t) (p : SpherePoint ℝ) :
    t.info.InInnerRegion p ↔ InPolygon t.info.vertexCoordList p := by
  obtain ⟨a, b', hak, hnew⟩ := EagerSkyMap.buildAll_fresh hb ht
  obtain ⟨mb, bbox, n, -, -, e⟩ := TractInfo.new_inv hnew
  have hno : t.info.innerBoxCorners = none := by
    have := hl a (List.mem_of_getElem? hak)
    rw [e, this]
  unfold TractInfo.InInnerRegion TractInfo.getInnerSkyRegion
  rw [hno]

/-! ## The dodecahedral sky map -/

namespace DodecaSkyMap
open Dodecahedron

variable {mk : SpherePoint ℝ → Wcs (SpherePoint ℝ) ℝ} {env : FloatEnv ℝ} {ops : SkyOps (SpherePoint ℝ) ℝ} {tiny ov : ℝ} {o : SetOrder} {w : Bool}
  {D : Dodecahedron} {l : List (TractArgs (SpherePoint ℝ) ℝ)} {ts : List (TractRef (SpherePoint ℝ) ℝ)} {b₀ b : TractBuilder}

theorem inner_iff (hl : tracts tiny mk o w ov = .ok (D, l)) (hb : EagerSkyMap.buildAll env ops l 0 b₀ = .ok (ts, b)) {k : ℕ}
    {t : TractRef (SpherePoint ℝ) ℝ} (ht : ts[k]? = some t) (p : SpherePoint ℝ) :
    t.info.InInnerRegion p ↔ InPolygon t.info.vertexCoordList p := by
  refine EagerSkyMap.noBox hb ?_ ht p
  unfold tracts at hl
  obtain ⟨D', -, hl⟩ := bindOk hl
  obtain ⟨l', hl', hl⟩ := bindOk hl
  simp only [pure, Except.pure, Except.ok.injEq, Prod.mk.injEq] at hl
  obtain ⟨-, rfl⟩ := hl
  intro a ha
  rw [pyMapM_ok_iff, List.forall₂_iff_get] at hl'
  obtain ⟨i, hi, rfl⟩ := List.mem_iff_getElem.1 ha
  have := hl'.2 i (by rw [hl'.1]; exact hi) hi
  unfold tract at this
  obtain ⟨_, -, this⟩ := bindOk this
  obtain ⟨_, -, this⟩ := bindOk this
  obtain ⟨_, -, this⟩ := bindOk this
  obtain ⟨_, -, this⟩ := bindOk this
  simp only [pure, Except.pure, Except.ok.injEq, List.get_eq_getElem] at this
  rw [← this]

/-- C80: the inner sky region of a tract of a dodecahedral sky map consists of the positions that are no nearer to the centre of another tract. -/
theorem C80_dodeca_region (ht0 : 0 < tiny) (ht1 : tiny ≤ 1 / 10) (ho : o.Ok) (hl : tracts tiny mk o w ov = .ok (D, l))
    (hx : 0 < b₀.patchInnerDimensions.x) (hy : 0 < b₀.patchInnerDimensions.y) (hb : EagerSkyMap.buildAll env ops l 0 b₀ = .ok (ts, b))
    {t : TractRef (SpherePoint ℝ) ℝ} (ht : t ∈ ts) (p : SpherePoint ℝ) :
    t.info.InInnerRegion p ↔ ∀ t' ∈ ts, greatCircle p t.info.ctrCoord ≤ greatCircle p t'.info.ctrCoord := by
  obtain ⟨k, hk⟩ := List.mem_iff_getElem?.1 ht
  obtain ⟨hD, hlen, htr⟩ := C36_tracts ht0 ht1 ho hl hx hy hb
  have hlt : ∀ (i : ℕ) t, ts[i]? = some t → i < 12 := by
    intro i t ht; rw [← hlen]; exact (List.getElem?_eq_some_iff.1 ht).1
  obtain ⟨t1, ht1', -, hf, hv⟩ := htr k (hlt k t hk)
  rw [hk, Option.some.injEq] at ht1'
  subst ht1'
  rw [inner_iff hl hb hk, inPolygon_iff_cone, face_cone ho hD hf hv]
  have hl12 : D.faceVecList.length = 12 := by
    obtain ⟨D', M, hD', -, -, h, -⟩ := C37_regular ho w
    rw [hD, Except.ok.injEq] at hD'
    rw [hD']; exact h
  constructor
  · intro h t' ht'
    obtain ⟨j, hj⟩ := List.mem_iff_getElem?.1 ht'
    obtain ⟨t2, ht2, -, hf2, -⟩ := htr j (hlt j t' hj)
    rw [hj, Option.some.injEq] at ht2
    subst ht2
    rw [greatCircle_le, ← SpherePoint.vector_dot, ← SpherePoint.vector_dot, dotProduct_comm, dotProduct_comm p.getVector]
    exact h _ (List.mem_of_getElem? hf2)
  · intro h f' hf'
    obtain ⟨j, hj⟩ := List.mem_iff_getElem?.1 hf'
    have hj12 : j < 12 := by rw [← hl12]; exact (List.getElem?_eq_some_iff.1 hj).1
    obtain ⟨t', ht', -, hf'', -⟩ := htr j hj12
    rw [hj, Option.some.injEq] at hf''
    have := h t' (List.mem_of_getElem? ht')
    rw [greatCircle_le, ← SpherePoint.vector_dot, ← SpherePoint.vector_dot, dotProduct_comm, dotProduct_comm p.getVector] at this
    rw [hf'']
    exact this

/-- C80: every position is in the inner sky region of the tract that `findTract` returns; no tract with a smaller number has it in its inner region. -/
theorem C80_dodeca_find (hops : ∀ p q, ops.separation p q = greatCircle p q) (ht0 : 0 < tiny) (ht1 : tiny ≤ 1 / 10) (ho : o.Ok)
    (hl : tracts tiny mk o w ov = .ok (D, l)) (hx : 0 < b₀.patchInnerDimensions.x) (hy : 0 < b₀.patchInnerDimensions.y)
    (hb : EagerSkyMap.buildAll env ops l 0 b₀ = .ok (ts, b)) (p : SpherePoint ℝ) :
    ∃ (k : ℕ) (t : TractRef (SpherePoint ℝ) ℝ), findTract D (EagerSkyMap.skyMapOps ts) p b = (.ok t, b) ∧ ts[k]? = some t ∧
      t.info.InInnerRegion p ∧ ∀ (j : ℕ) t', ts[j]? = some t' → t'.info.InInnerRegion p → k ≤ j := by
  obtain ⟨k, t, h1, -, h2, h3, h4⟩ := C36_findTract hops ht0 ht1 ho hl hx hy hb p
  refine ⟨k, t, h1, h2, (inner_iff hl hb h2 p).2 (inPolygon_iff_cone.2 h3), fun j t' hj hin => h4 j t' hj ?_⟩
  exact inPolygon_iff_cone.1 ((inner_iff hl hb hj p).1 hin)

/-- C80: a position that is in the inner sky regions of two tracts is on the edges of both. -/
theorem C80_dodeca_edges (ht0 : 0 < tiny) (ht1 : tiny ≤ 1 / 10) (ho : o.Ok) (hl : tracts tiny mk o w ov = .ok (D, l))
    (hx : 0 < b₀.patchInnerDimensions.x) (hy : 0 < b₀.patchInnerDimensions.y) (hb : EagerSkyMap.buildAll env ops l 0 b₀ = .ok (ts, b))
    {i j : ℕ} {t t' : TractRef (SpherePoint ℝ) ℝ} (ht : ts[i]? = some t) (ht' : ts[j]? = some t') (hij : i ≠ j) {p : SpherePoint ℝ}
    (hp : t.info.InInnerRegion p) (hp' : t'.info.InInnerRegion p) :
    OnEdge t.info.vertexCoordList p ∧ OnEdge t'.info.vertexCoordList p := by
  obtain ⟨hD, hlen, htr⟩ := C36_tracts ht0 ht1 ho hl hx hy hb
  have hlt : ∀ (i : ℕ) t, ts[i]? = some t → i < 12 := by
    intro i t ht; rw [← hlen]; exact (List.getElem?_eq_some_iff.1 ht).1
  have hnd : D.faceVecList.Nodup := by
    obtain ⟨D', M, hD', -, -, -, h, -⟩ := C37_regular ho w
    rw [hD, Except.ok.injEq] at hD'
    rw [hD']; exact h
  have key : ∀ {i j : ℕ} {t t' : TractRef (SpherePoint ℝ) ℝ}, ts[i]? = some t → ts[j]? = some t' → i ≠ j →
      t.info.InInnerRegion p → t'.info.InInnerRegion p → OnEdge t.info.vertexCoordList p := by
    intro i j t t' ht ht' hij hp hp'
    obtain ⟨t1, h1, -, hf, hv⟩ := htr i (hlt i t ht)
    obtain ⟨t2, h2, -, hf', hv'⟩ := htr j (hlt j t' ht')
    rw [ht, Option.some.injEq] at h1
    rw [ht', Option.some.injEq] at h2
    subst h1 h2
    rw [inner_iff hl hb ht] at hp
    rw [inner_iff hl hb ht'] at hp'
    have hc := (face_cone ho hD hf hv _).1 (inPolygon_iff_cone.1 hp)
    have hc' := (face_cone ho hD hf' hv' _).1 (inPolygon_iff_cone.1 hp')
    refine ⟨hp, t.info.ctrCoord.getVector - t'.info.ctrCoord.getVector, ?_, ?_, ?_⟩
    · intro h0
      have he := sub_eq_zero.1 h0
      rw [← he] at hf'
      obtain ⟨l1, e1⟩ := List.getElem?_eq_some_iff.1 hf
      obtain ⟨l2, e2⟩ := List.getElem?_eq_some_iff.1 hf'
      exact hij ((List.Nodup.getElem_inj_iff hnd).1 (e1.trans e2.symm))
    · intro c hcm
      have := (face_cone ho hD hf hv c.getVector).1 (InCone.mem (List.mem_map_of_mem hcm)) _ (List.mem_of_getElem? hf')
      rw [sub_dotProduct]; linarith
    · rw [sub_dotProduct]
      exact sub_eq_zero.2 (le_antisymm (hc' _ (List.mem_of_getElem? hf)) (hc _ (List.mem_of_getElem? hf')))
  exact ⟨key ht ht' hij hp hp', key ht' ht hij.symm hp' hp⟩

end DodecaSkyMap

/-! ## The equatorial sky map -/

namespace Equat
open FloatArith (exact)

variable {mk : SpherePoint ℝ → Wcs (SpherePoint ℝ) ℝ} {env : FloatEnv ℝ} {ops : SkyOps (SpherePoint ℝ) ℝ}
  {n : ℕ} {d0 d1 ov : ℝ} {ts : List (TractRef (SpherePoint ℝ) ℝ)} {b₀ b : TractBuilder} {l : List (TractArgs (SpherePoint ℝ) ℝ)}

theorem inner_iff (hn : 1 ≤ n) (h0 : |d0| ≤ 90) (h1 : |d1| ≤ 90) (hl : tracts exact mk ⟨n, [d0, d1], ov⟩ = .ok l)
    (hb : EagerSkyMap.buildAll env ops l 0 b₀ = .ok (ts, b)) {k : ℕ} {t : TractRef (SpherePoint ℝ) ℝ} (ht : ts[k]? = some t)
    (p : SpherePoint ℝ) : t.info.InInnerRegion p ↔ InPolygon t.info.vertexCoordList p := by
  refine EagerSkyMap.noBox hb ?_ ht p
  rw [tracts_exact hn h0 h1, Except.ok.injEq] at hl
  subst hl
  intro a ha
  obtain ⟨j, -, rfl⟩ := List.mem_map.1 ha
  rfl

theorem rad_lt {x : ℝ} (h : |x| < 90) : |x * (π / 180)| < π / 2 := by
  have hp := pi_pos
  rw [abs_mul, abs_of_pos (by positivity : (0 : ℝ) < π / 180)]
  nlinarith

/-- The right ascensions of a tract, by the distance from its middle. -/
theorem touches_iff (hn : 1 ≤ n) (h0 : |d0| ≤ 90) (h1 : |d1| ≤ 90) (hl : tracts exact mk ⟨n, [d0, d1], ov⟩ = .ok l)
    (hx : 0 < b₀.patchInnerDimensions.x) (hy : 0 < b₀.patchInnerDimensions.y)
    (hb : EagerSkyMap.buildAll env ops l 0 b₀ = .ok (ts, b)) {k : ℕ} {t : TractRef (SpherePoint ℝ) ℝ} (ht : ts[k]? = some t)
    {x : ℝ} (hx0 : 0 ≤ x ∧ x < 2 * π) : t.TouchesRA x ↔ cos (π / n) ≤ cos (x - t.info.ctrCoord.lon) := by
  obtain ⟨e1, e2⟩ := C35_tracts hn h0 h1 hl hx hy hb
  have hk : k < n := by rw [← e1]; exact (List.getElem?_eq_some_iff.1 ht).1
  obtain ⟨u, hu, -, hc, hv⟩ := e2 k hk
  rw [ht, Option.some.injEq] at hu
  subst hu
  rw [hc, ← touch_iff hk hx0]
  constructor
  · rintro ⟨b1, c1, d, d', hv', ha⟩
    rw [hv] at hv'
    simp only [quad, List.cons.injEq, SpherePoint.mk.injEq] at hv'
    obtain ⟨⟨rfl, -⟩, ⟨rfl, -⟩, -⟩ := hv'
    exact ha
  · intro ha; exact ⟨_, _, _, _, hv, ha⟩

/-- C80: the inner sky region of a tract of an equatorial sky map with three or more tracts, exactly: between the meridians at the ends of the tract's
interval of right ascension, and between the great circles through its southern and through its northern vertices. -/
theorem C80_equat_region (hn : 3 ≤ n) (h0 : |d0| < 90) (h1 : |d1| < 90) (hd : d0 < d1) (hl : tracts exact mk ⟨n, [d0, d1], ov⟩ = .ok l)
    (hx : 0 < b₀.patchInnerDimensions.x) (hy : 0 < b₀.patchInnerDimensions.y)
    (hb : EagerSkyMap.buildAll env ops l 0 b₀ = .ok (ts, b)) {t : TractRef (SpherePoint ℝ) ℝ} (ht : t ∈ ts)
    (p : SpherePoint ℝ) (hlon : 0 ≤ p.lon ∧ p.lon < 2 * π) (hlat : |p.lat| ≤ π / 2) :
    t.info.InInnerRegion p ↔ |p.lat| < π / 2 ∧ t.TouchesRA p.lon ∧
      tan (d0 * (π / 180)) * cos (p.lon - t.info.ctrCoord.lon) ≤ tan p.lat * cos (π / n) ∧
      tan p.lat * cos (π / n) ≤ tan (d1 * (π / 180)) * cos (p.lon - t.info.ctrCoord.lon) := by
  have hp := pi_pos
  obtain ⟨k, hkt⟩ := List.mem_iff_getElem?.1 ht
  have hn1 : 1 ≤ n := by omega
  rw [inner_iff hn1 h0.le h1.le hl hb hkt, touches_iff hn1 h0.le h1.le hl hx hy hb hkt hlon]
  obtain ⟨e1, e2⟩ := C35_tracts hn1 h0.le h1.le hl hx hy hb
  have hk : k < n := by rw [← e1]; exact (List.getElem?_eq_some_iff.1 hkt).1
  obtain ⟨u, hu, -, hc, hv⟩ := e2 k hk
  rw [hkt, Option.some.injEq] at hu
  subst hu
  have hn' : (3 : ℝ) ≤ n := by exact_mod_cast hn
  have hδ : 0 < π / n := by positivity
  have hδ1 : π / n < π / 2 := div_lt_div_of_pos_left hp (by norm_num) (by linarith)
  rw [hv, hc]
  dsimp only
  have hm : 2 * π * k / n + π / n = (2 * k + 1) * π / n := by ring
  rw [quad_polygon hδ hδ1 ?_ (rad_lt h0) (rad_lt h1) (by nlinarith) p hlat, hm]
  · refine and_congr_right fun hl' => ?_
    have cancel : ∀ (u : ℝ) (j : ℤ), p.lon = (2 * k + 1) * π / n + u + j * (2 * π) → cos (p.lon - (2 * k + 1) * π / n) = cos u := by
      intro u j hj
      rw [hj, show (2 * k + 1) * π / n + u + j * (2 * π) - (2 * k + 1) * π / n = u + j * (2 * π) by ring, cos_add_int_mul_two_pi]
    constructor
    · rintro ⟨u, hu, ⟨j, hj⟩, lo, hi⟩
      rw [cancel u j hj]
      refine ⟨?_, lo, hi⟩
      rw [← cos_abs u]
      exact cos_le_cos_of_nonneg_of_le_pi (abs_nonneg u) (by linarith) hu
    · rintro ⟨hcos, lo, hi⟩
      have hmm := toIocMod_mem_Ioc (by positivity : (0 : ℝ) < 2 * π) (-π) (p.lon - (2 * k + 1) * π / n)
      have hkk := toIocMod_add_toIocDiv_zsmul (by positivity : (0 : ℝ) < 2 * π) (-π) (p.lon - (2 * k + 1) * π / n)
      rw [zsmul_eq_mul] at hkk
      generalize toIocMod (by positivity : (0 : ℝ) < 2 * π) (-π) (p.lon - (2 * k + 1) * π / n) = u at *
      generalize toIocDiv (by positivity : (0 : ℝ) < 2 * π) (-π) (p.lon - (2 * k + 1) * π / n) = j at *
      have hj : p.lon = (2 * k + 1) * π / n + u + j * (2 * π) := by linarith
      rw [cancel u j hj] at hcos lo hi
      refine ⟨u, ?_, ⟨j, hj⟩, lo, hi⟩
      by_contra hh
      rw [← cos_abs u] at hcos
      have := cos_lt_cos_of_nonneg_of_le_pi hδ.le (abs_le.2 ⟨by linarith [hmm.1], by linarith [hmm.2]⟩) (not_le.1 hh)
      linarith
  · split
    · next hh =>
      have : (k : ℝ) + 1 = n := by exact_mod_cast hh
      refine ⟨-1, ?_⟩
      have e : 2 * π * k / n + 2 * (π / n) = 2 * π := by
        rw [show 2 * π * (k : ℝ) / n + 2 * (π / n) = 2 * π * ((k + 1) / n) by ring, this, div_self (by positivity), mul_one]
      rw [e]; push_cast; ring
    · exact ⟨0, by push_cast; ring⟩

/-- C80: if the configured declinations are on both sides of the equator (or reach it), every position between them is in the inner sky region of the
tract that `findTract` returns. -/
theorem C80_equat_find (hops : ∀ p q, ops.separation p q = greatCircle p q) (hn : 3 ≤ n) (h0 : |d0| < 90) (h1 : |d1| < 90) (hd : d0 < d1)
    (hd0 : d0 ≤ 0) (hd1 : 0 ≤ d1) (hl : tracts exact mk ⟨n, [d0, d1], ov⟩ = .ok l)
    (hx : 0 < b₀.patchInnerDimensions.x) (hy : 0 < b₀.patchInnerDimensions.y)
    (hb : EagerSkyMap.buildAll env ops l 0 b₀ = .ok (ts, b)) (p : SpherePoint ℝ) (hlon : 0 ≤ p.lon ∧ p.lon < 2 * π)
    (hlat : d0 * (π / 180) ≤ p.lat ∧ p.lat ≤ d1 * (π / 180)) :
    ∃ (k : ℕ) (t : TractRef (SpherePoint ℝ) ℝ), BaseSkyMap.findTract ops (EagerSkyMap.skyMapOps ts) p b = (.ok t, b) ∧ ts[k]? = some t ∧
      t.info.InInnerRegion p ∧ ∀ (j : ℕ) t', ts[j]? = some t' → t'.info.InInnerRegion p → k ≤ j := by
  have hp := pi_pos
  have r0 := abs_lt.1 (rad_lt h0)
  have r1 := abs_lt.1 (rad_lt h1)
  have hlat' : |p.lat| < π / 2 := abs_lt.2 ⟨by linarith, by linarith⟩
  have hn1 : 1 ≤ n := by omega
  obtain ⟨k, t, h2, h3, h4, h5⟩ := C35_findTract hops hn1 h0 h1 hl hx hy hb p hlon.1 hlon.2 hlat'
  refine ⟨k, t, h2, h3, ?_, fun j t' hj hin => h5 j t' hj ?_⟩
  · rw [C80_equat_region hn h0 h1 hd hl hx hy hb (List.mem_of_getElem? h3) p hlon hlat'.le]
    refine ⟨hlat', h4, ?_⟩
    rw [touches_iff hn1 h0.le h1.le hl hx hy hb h3 hlon] at h4
    have hn' : (3 : ℝ) ≤ n := by exact_mod_cast hn
    have hδ : 0 < π / n := by positivity
    have hc : 0 < cos (π / n) := cos_pos_of_mem_Ioo ⟨by linarith, div_lt_div_of_pos_left hp (by norm_num) (by linarith)⟩
    have m : ∀ {x y : ℝ}, -(π / 2) < x → x ≤ y → y < π / 2 → tan x ≤ tan y := fun hx hxy hy =>
      (strictMonoOn_tan.monotoneOn (Set.mem_Ioo.2 ⟨hx, hxy.trans_lt hy⟩) (Set.mem_Ioo.2 ⟨hx.trans_le hxy, hy⟩) hxy)
    have t0 : tan (d0 * (π / 180)) ≤ 0 := by
      rw [← tan_zero]; exact m r0.1 (mul_nonpos_of_nonpos_of_nonneg hd0 (by positivity)) (by linarith)
    have t1 : 0 ≤ tan (d1 * (π / 180)) := by
      rw [← tan_zero]; exact m (by linarith) (by positivity) r1.2
    have m0 := mul_le_mul_of_nonneg_right (m r0.1 hlat.1 (by linarith)) hc.le
    have m1 := mul_le_mul_of_nonneg_right (m (by linarith) hlat.2 r1.2) hc.le
    exact ⟨(mul_le_mul_of_nonpos_left h4 t0).trans m0, m1.trans (mul_le_mul_of_nonneg_left h4 t1)⟩
  · exact ((C80_equat_region hn h0 h1 hd hl hx hy hb (List.mem_of_getElem? hj) p hlon hlat'.le).1 hin).2.1

theorem touch_ends {i j : ℕ} (hij : i < j) (hj : j < n) {x : ℝ} (hx : 0 ≤ x ∧ x < 2 * π)
    (h1 : InArc (2 * π * i / n) (if i + 1 = n then 0 else 2 * π * (i + 1) / n) x ∨ x = (if i + 1 = n then 0 else 2 * π * (i + 1) / n))
    (h2 : InArc (2 * π * j / n) (if j + 1 = n then 0 else 2 * π * (j + 1) / n) x ∨ x = (if j + 1 = n then 0 else 2 * π * (j + 1) / n)) :
    (x = 2 * π * i / n ∨ x = (if i + 1 = n then 0 else 2 * π * (i + 1) / n)) ∧
      (x = 2 * π * j / n ∨ x = (if j + 1 = n then 0 else 2 * π * (j + 1) / n)) := by
  have hp := pi_pos
  have hn' : (0 : ℝ) < n := by exact_mod_cast (by omega : 0 < n)
  rw [onArc_iff (by omega) hx] at h1
  rw [onArc_iff hj hx] at h2
  rw [if_neg (by omega : ¬ i + 1 = n)] at h1 ⊢
  have mono : ∀ {u v : ℝ}, u ≤ v → 2 * π * u / n ≤ 2 * π * v / n := fun h =>
    div_le_div_of_nonneg_right (mul_le_mul_of_nonneg_left h (by positivity)) hn'.le
  have smono : ∀ {u v : ℝ}, u < v → 2 * π * u / n < 2 * π * v / n := fun h =>
    div_lt_div_of_pos_right (mul_lt_mul_of_pos_left h (by positivity)) hn'
  have hij' : (i : ℝ) + 1 ≤ j := by exact_mod_cast hij
  have m := mono hij'
  have m' := smono (by linarith : (i : ℝ) + 1 < j + 1)
  have i0 : (0 : ℝ) ≤ i := by positivity
  have p0 : 0 < 2 * π * ((i : ℝ) + 1) / n := by positivity
  have q0 : 0 ≤ 2 * π * (i : ℝ) / n := by positivity
  rcases h1 with ⟨h1, h1'⟩ | h1 <;> rcases h2 with ⟨h2, h2'⟩ | h2
  · linarith
  · refine ⟨?_, .inr h2⟩
    split_ifs at h2
    · left; linarith
    · linarith
  · exact ⟨.inr h1, .inl (by linarith)⟩
  · split_ifs at h2 <;> linarith

/-- C80: a position that is in the inner sky regions of two tracts is on the edges of both. -/
theorem C80_equat_edges (hn : 3 ≤ n) (h0 : |d0| < 90) (h1 : |d1| < 90) (hd : d0 < d1) (hl : tracts exact mk ⟨n, [d0, d1], ov⟩ = .ok l)
    (hx : 0 < b₀.patchInnerDimensions.x) (hy : 0 < b₀.patchInnerDimensions.y)
    (hb : EagerSkyMap.buildAll env ops l 0 b₀ = .ok (ts, b)) {i j : ℕ} {t t' : TractRef (SpherePoint ℝ) ℝ} (ht : ts[i]? = some t)
    (ht' : ts[j]? = some t') (hij : i ≠ j) {p : SpherePoint ℝ} (hlon : 0 ≤ p.lon ∧ p.lon < 2 * π) (hlat : |p.lat| ≤ π / 2)
    (hp : t.info.InInnerRegion p) (hp' : t'.info.InInnerRegion p) :
    OnEdge t.info.vertexCoordList p ∧ OnEdge t'.info.vertexCoordList p := by
  have hpi := pi_pos
  have hn1 : 1 ≤ n := by omega
  obtain ⟨e1, e2⟩ := C35_tracts hn1 h0.le h1.le hl hx hy hb
  have key : ∀ {i j : ℕ} {t t' : TractRef (SpherePoint ℝ) ℝ}, ts[i]? = some t → ts[j]? = some t' → i < j →
      t.info.InInnerRegion p → t'.info.InInnerRegion p → OnEdge t.info.vertexCoordList p ∧ OnEdge t'.info.vertexCoordList p := by
    intro i j t t' ht ht' hij hp hp'
    have hj : j < n := by rw [← e1]; exact (List.getElem?_eq_some_iff.1 ht').1
    obtain ⟨u, hu, -, -, hv⟩ := e2 i (by omega)
    rw [ht, Option.some.injEq] at hu
    obtain ⟨u', hu', -, -, hv'⟩ := e2 j hj
    rw [ht', Option.some.injEq] at hu'
    subst hu hu'
    have a1 := ((C80_equat_region hn h0 h1 hd hl hx hy hb (List.mem_of_getElem? ht) p hlon hlat).1 hp).2.1
    have a2 := ((C80_equat_region hn h0 h1 hd hl hx hy hb (List.mem_of_getElem? ht') p hlon hlat).1 hp').2.1
    have arc : ∀ {k : ℕ} {t : TractRef (SpherePoint ℝ) ℝ}, t.info.vertexCoordList = quad (2 * π * k / n)
        (if k + 1 = n then 0 else 2 * π * (k + 1) / n) (d0 * (π / 180)) (d1 * (π / 180)) → t.TouchesRA p.lon →
        InArc (2 * π * k / n) (if k + 1 = n then 0 else 2 * π * (k + 1) / n) p.lon ∨ p.lon = (if k + 1 = n then 0 else 2 * π * (k + 1) / n) := by
      rintro k t hv ⟨b1, c1, d, d', hv', ha⟩
      rw [hv] at hv'
      simp only [quad, List.cons.injEq, SpherePoint.mk.injEq] at hv'
      obtain ⟨⟨rfl, -⟩, ⟨rfl, -⟩, -⟩ := hv'
      exact ha
    obtain ⟨c1, c2⟩ := touch_ends hij hj hlon (arc hv a1) (arc hv' a2)
    rw [inner_iff hn1 h0.le h1.le hl hb ht, hv] at hp
    rw [inner_iff hn1 h0.le h1.le hl hb ht', hv'] at hp'
    rw [hv, hv']
    have hn' : (3 : ℝ) ≤ n := by exact_mod_cast hn
    have width : ∀ k : ℕ, 0 ≤ sin ((if k + 1 = n then 0 else 2 * π * (k + 1) / n) - 2 * π * k / n) := by
      intro k
      have hs : 0 ≤ sin (2 * π / n) := by
        refine sin_nonneg_of_nonneg_of_le_pi (by positivity) ?_
        rw [div_le_iff₀ (by linarith)]
        nlinarith
      split
      · next hh =>
        have : (k : ℝ) + 1 = n := by exact_mod_cast hh
        have e : 0 - 2 * π * k / n = 2 * π / n - 2 * π := by
          have : (k : ℝ) = n - 1 := by linarith
          rw [this]; field_simp; ring
        rw [e, sin_sub_two_pi]; exact hs
      · have e : 2 * π * (k + 1) / n - 2 * π * k / n = 2 * π / n := by ring
        rw [e]; exact hs
    exact ⟨quad_edge (rad_lt h0).le (rad_lt h1).le (width i) hp c1, quad_edge (rad_lt h0).le (rad_lt h1).le (width j) hp' c2⟩
  rcases lt_or_gt_of_ne hij with h | h
  · exact key ht ht' h hp hp'
  · exact (key ht' ht h hp' hp).symm

/-- No centre of a tract is half a tract away from another one. -/
theorem ctr_cos_ne (hn : 0 < n) (i j : ℕ) : cos ((2 * (i : ℝ) + 1) * π / n - (2 * j + 1) * π / n) ≠ cos (π / n) := by
  have hp := pi_pos
  have hn' : (0 : ℝ) < n := by exact_mod_cast hn
  intro hcos
  rw [show (2 * (i : ℝ) + 1) * π / n - (2 * j + 1) * π / n = (i - j) * (2 * π) / n by ring, cos_eq_cos_iff] at hcos
  obtain ⟨k, hk⟩ := hcos
  have hnn : (n : ℝ) ≠ 0 := by positivity
  have hint : ∀ z : ℝ, π / n = z → 1 * π = n * z := by
    intro z hz; rw [← hz]; field_simp
  rcases hk with hk | hk
  · have h3 := hint _ hk
    have h4 : π * 1 = π * (2 * k * n + 2 * (i - j)) := by
      have : (n : ℝ) * (2 * k * π + (i - j) * (2 * π) / n) = π * (2 * k * n + 2 * (i - j)) := by field_simp
      linarith
    have h5 := mul_left_cancel₀ hp.ne' h4
    have h6 : (1 : ℤ) = 2 * k * n + 2 * (i - j) := by exact_mod_cast h5
    rw [mul_assoc] at h6
    generalize k * (n : ℤ) = z at h6
    omega
  · have h3 := hint _ hk
    have h4 : π * 1 = π * (2 * k * n - 2 * (i - j)) := by
      have : (n : ℝ) * (2 * k * π - (i - j) * (2 * π) / n) = π * (2 * k * n - 2 * (i - j)) := by field_simp
      linarith
    have h5 := mul_left_cancel₀ hp.ne' h4
    have h6 : (1 : ℤ) = 2 * k * n - 2 * (i - j) := by exact_mod_cast h5
    rw [mul_assoc] at h6
    generalize k * (n : ℤ) = z at h6
    omega

/-- C80: if the strip of the configured declinations is north of the equator, the inner sky regions do not cover it: the middle of the southern edge of
each tract's part of the strip is in no tract's inner region, though every position on it is in the strip. -/
theorem C80_equat_gap (hn : 3 ≤ n) (h0 : 0 < d0) (hd : d0 < d1) (h1 : d1 < 90) (hl : tracts exact mk ⟨n, [d0, d1], ov⟩ = .ok l)
    (hx : 0 < b₀.patchInnerDimensions.x) (hy : 0 < b₀.patchInnerDimensions.y)
    (hb : EagerSkyMap.buildAll env ops l 0 b₀ = .ok (ts, b)) {t t' : TractRef (SpherePoint ℝ) ℝ} (ht : t ∈ ts) (ht' : t' ∈ ts) :
    ¬ t'.info.InInnerRegion ⟨t.info.ctrCoord.lon, d0 * (π / 180)⟩ := by
  have hp := pi_pos
  have a0 : |d0| < 90 := by rw [abs_of_pos h0]; linarith
  have a1 : |d1| < 90 := by rw [abs_of_pos (h0.trans hd)]; exact h1
  have hn1 : 1 ≤ n := by omega
  have hn' : (3 : ℝ) ≤ n := by exact_mod_cast hn
  have hδ : 0 < π / n := by positivity
  have hδ1 : π / n < π / 2 := div_lt_div_of_pos_left hp (by norm_num) (by linarith)
  obtain ⟨e1, e2⟩ := C35_tracts hn1 a0.le a1.le hl hx hy hb
  obtain ⟨i, hi⟩ := List.mem_iff_getElem?.1 ht
  obtain ⟨j, hj⟩ := List.mem_iff_getElem?.1 ht'
  have hin : i < n := by rw [← e1]; exact (List.getElem?_eq_some_iff.1 hi).1
  have hjn : j < n := by rw [← e1]; exact (List.getElem?_eq_some_iff.1 hj).1
  obtain ⟨u, hu, -, hc, -⟩ := e2 i hin
  obtain ⟨u', hu', -, hc', -⟩ := e2 j hjn
  rw [hi, Option.some.injEq] at hu
  rw [hj, Option.some.injEq] at hu'
  subst hu hu'
  have hin' : (i : ℝ) + 1 ≤ n := by exact_mod_cast hin
  have i0 : (0 : ℝ) ≤ i := by positivity
  have hlon : 0 ≤ t.info.ctrCoord.lon ∧ t.info.ctrCoord.lon < 2 * π := by
    rw [hc]
    dsimp only
    exact ⟨by positivity, by rw [div_lt_iff₀ (by linarith)]; nlinarith⟩
  rw [C80_equat_region hn a0 a1 hd hl hx hy hb ht' ⟨t.info.ctrCoord.lon, d0 * (π / 180)⟩ hlon (rad_lt a0).le]
  rintro ⟨-, htouch, lo, -⟩
  dsimp only at htouch lo
  rw [touches_iff hn1 a0.le a1.le hl hx hy hb hj hlon] at htouch
  have tp : 0 < tan (d0 * (π / 180)) := tan_pos_of_pos_of_lt_pi_div_two (by positivity) (abs_lt.1 (rad_lt a0)).2
  have hcos : cos (t.info.ctrCoord.lon - t'.info.ctrCoord.lon) = cos (π / n) :=
    le_antisymm (le_of_mul_le_mul_left lo tp) htouch
  rw [hc, hc'] at hcos
  exact ctr_cos_ne (by omega) i j hcos

/-- C80: likewise if the strip is south of the equator: the middle of the northern edge of each tract's part of the strip is in no tract's inner region. -/
theorem C80_equat_gap_south (hn : 3 ≤ n) (h0 : -90 < d0) (hd : d0 < d1) (h1 : d1 < 0) (hl : tracts exact mk ⟨n, [d0, d1], ov⟩ = .ok l)
    (hx : 0 < b₀.patchInnerDimensions.x) (hy : 0 < b₀.patchInnerDimensions.y)
    (hb : EagerSkyMap.buildAll env ops l 0 b₀ = .ok (ts, b)) {t t' : TractRef (SpherePoint ℝ) ℝ} (ht : t ∈ ts) (ht' : t' ∈ ts) :
    ¬ t'.info.InInnerRegion ⟨t.info.ctrCoord.lon, d1 * (π / 180)⟩ := by
  have hp := pi_pos
  have a0 : |d0| < 90 := by rw [abs_of_neg (hd.trans h1)]; linarith
  have a1 : |d1| < 90 := by rw [abs_of_neg h1]; linarith
  have hn1 : 1 ≤ n := by omega
  have hn' : (3 : ℝ) ≤ n := by exact_mod_cast hn
  have hδ : 0 < π / n := by positivity
  have hδ1 : π / n < π / 2 := div_lt_div_of_pos_left hp (by norm_num) (by linarith)
  obtain ⟨e1, e2⟩ := C35_tracts hn1 a0.le a1.le hl hx hy hb
  obtain ⟨i, hi⟩ := List.mem_iff_getElem?.1 ht
  obtain ⟨j, hj⟩ := List.mem_iff_getElem?.1 ht'
  have hin : i < n := by rw [← e1]; exact (List.getElem?_eq_some_iff.1 hi).1
  have hjn : j < n := by rw [← e1]; exact (List.getElem?_eq_some_iff.1 hj).1
  obtain ⟨u, hu, -, hc, -⟩ := e2 i hin
  obtain ⟨u', hu', -, hc', -⟩ := e2 j hjn
  rw [hi, Option.some.injEq] at hu
  rw [hj, Option.some.injEq] at hu'
  subst hu hu'
  have hin' : (i : ℝ) + 1 ≤ n := by exact_mod_cast hin
  have i0 : (0 : ℝ) ≤ i := by positivity
  have hlon : 0 ≤ t.info.ctrCoord.lon ∧ t.info.ctrCoord.lon < 2 * π := by
    rw [hc]
    dsimp only
    exact ⟨by positivity, by rw [div_lt_iff₀ (by linarith)]; nlinarith⟩
  rw [C80_equat_region hn a0 a1 hd hl hx hy hb ht' ⟨t.info.ctrCoord.lon, d1 * (π / 180)⟩ hlon (rad_lt a1).le]
  rintro ⟨-, htouch, -, lo⟩
  dsimp only at htouch lo
  rw [touches_iff hn1 a0.le a1.le hl hx hy hb hj hlon] at htouch
  have tp : tan (d1 * (π / 180)) < 0 := tan_neg_of_neg_of_pi_div_two_lt (by nlinarith) (abs_lt.1 (rad_lt a1)).1
  have hcos : cos (t.info.ctrCoord.lon - t'.info.ctrCoord.lon) = cos (π / n) :=
    le_antisymm ((mul_le_mul_left_of_neg tp).1 lo) htouch
  rw [hc, hc'] at hcos
  exact ctr_cos_ne (by omega) i j hcos

/-- C80: with one tract or two, the vertices of a tract are on one great circle: the inner sky regions contain only positions on the meridians of right
ascension 0 and 180 degrees. -/
theorem C80_equat_few (hn : n = 1 ∨ n = 2) (h0 : |d0| ≤ 90) (h1 : |d1| ≤ 90) (hl : tracts exact mk ⟨n, [d0, d1], ov⟩ = .ok l)
    (hx : 0 < b₀.patchInnerDimensions.x) (hy : 0 < b₀.patchInnerDimensions.y)
    (hb : EagerSkyMap.buildAll env ops l 0 b₀ = .ok (ts, b)) {t : TractRef (SpherePoint ℝ) ℝ} (ht : t ∈ ts) {p : SpherePoint ℝ}
    (hp : t.info.InInnerRegion p) : cos p.lat = 0 ∨ sin p.lon = 0 := by
  have hn1 : 1 ≤ n := by omega
  obtain ⟨k, hk⟩ := List.mem_iff_getElem?.1 ht
  rw [inner_iff hn1 h0 h1 hl hb hk] at hp
  obtain ⟨e1, e2⟩ := C35_tracts hn1 h0 h1 hl hx hy hb
  have hkn : k < n := by rw [← e1]; exact (List.getElem?_eq_some_iff.1 hk).1
  obtain ⟨u, hu, -, -, hv⟩ := e2 k hkn
  rw [hk, Option.some.injEq] at hu
  subst hu
  have dot : ∀ (a : ℝ) (s : SpherePoint ℝ), ![0, a, 0] ⬝ᵥ s.getVector = a * (cos s.lat * sin s.lon) := by
    intro a s
    simp only [SpherePoint.getVector, dotProduct, Fin.sum_univ_three, Matrix.cons_val_zero, Matrix.cons_val_one, Matrix.cons_val]
    ring
  have zero : ∀ c ∈ t.info.vertexCoordList, sin c.lon = 0 := by
    rw [hv]
    rcases hn with rfl | rfl
    · have : k = 0 := by omega
      subst this
      simp [quad]
    · have : k = 0 ∨ k = 1 := by omega
      rcases this with rfl | rfl <;> simp [quad]
  have use : ∀ a : ℝ, 0 ≤ a * (cos p.lat * sin p.lon) := by
    intro a
    have := hp ![0, a, 0] (by intro c hc; rw [dot, zero c hc]; simp)
    rwa [dot] at this
  have h2 := use 1
  have h3 := use (-1)
  have : cos p.lat * sin p.lon = 0 := by linarith
  simpa using this

end Equat

/-! ## Tracts with the gnomonic projection -/

section tan
variable {env : FloatEnv ℝ} {ops : SkyOps (SpherePoint ℝ) ℝ} {b₀ b : TractBuilder} {a : TractArgs (SpherePoint ℝ) ℝ}
  {t : TractInfo (SpherePoint ℝ) ℝ} {scale θ : ℝ} {flipX : Bool} {f : WcsFactory}
  {other : P2 ℝ → SpherePoint ℝ → CdMatrix → String → Wcs (SpherePoint ℝ) ℝ}

/-- C80: with the gnomonic projection, the inner polygon of an explicitly placed tract (a tract of a discrete or rings sky map) is the whole area of the
tract's pixels, except for a thousandth of a pixel at the edges: the overlap belongs to it. -/
theorem C80_explicit (h : TractInfo.new env ops b₀ a = .ok (t, b)) (hx : 0 < b₀.patchInnerDimensions.x) (hy : 0 < b₀.patchInnerDimensions.y)
    (hf : WcsFactory.new scale "TAN" θ flipX = .ok f) (hs : scale ≠ 0) {crpix : P2 ℝ} {crval : SpherePoint ℝ}
    (hw : a.wcs = f.makeWcs other crpix crval) {r : ℝ} (ha : a.shape = .explicit r) (hne : t.getBBox.isEmpty = false) (p : SpherePoint ℝ) :
    InPolygon t.getInnerSkyPolygon p ↔ ∃ q, t.wcs.skyToPixel p = .pix q ∧
      -1 / 2 + 1 / 1000 ≤ q.x ∧ q.x ≤ t.getBBox.dim.x - 1 / 2 - 1 / 1000 ∧ -1 / 2 + 1 / 1000 ≤ q.y ∧ q.y ≤ t.getBBox.dim.y - 1 / 2 - 1 / 1000 := by
  have B := TractInfo.new_built h hx hy
  have hmin := Built.bbox_min B
  have hd := B.dim_pos hne
  have kx : (1 : ℝ) ≤ t.bbox.dim.x := by exact_mod_cast hd.1
  have ky : (1 : ℝ) ≤ t.bbox.dim.y := by exact_mod_cast hd.2
  have hv : t.vertexCoordList = explicitVertices t.bbox t.wcs := by
    obtain ⟨mb, bbox, n, h1, h2, rfl⟩ := TractInfo.new_inv h
    simp only [ha]
  have hbox : (Box2D.ofBox2I t.bbox : Box2D ℝ).grow (-(1 / 1000)) =
      .box ⟨-1 / 2 + 1 / 1000, -1 / 2 + 1 / 1000⟩ ⟨t.bbox.dim.x - 1 / 2 - 1 / 1000, t.bbox.dim.y - 1 / 2 - 1 / 1000⟩ := by
    unfold Box2D.ofBox2I
    rw [show t.bbox.isEmpty = false from hne, hmin]
    simp only [Bool.false_eq_true, if_false, Box2D.grow, Int.cast_zero]
    rw [if_neg]
    · congr 2 <;> ring
    · rw [not_or, not_le, not_le]; constructor <;> linarith
  rw [WcsFactory.makeWcs_eq (P := .TAN) hf rfl] at hw
  obtain ⟨crpix', e⟩ := TractInfo.new_wcs h hw
  unfold TractInfo.getInnerSkyPolygon TractInfo.getBBox
  rw [hv]
  unfold explicitVertices
  rw [hbox, e]
  simp only [Box2D.getCorners]
  exact tan_rectangle (makeCdMatrix_det hs θ flipX) (by linarith) (by linarith) p

/-- C80: hence every position in the inner polygon of an explicitly placed tract is in the tract. -/
theorem C80_explicit_contains (h : TractInfo.new env ops b₀ a = .ok (t, b)) (hx : 0 < b₀.patchInnerDimensions.x)
    (hy : 0 < b₀.patchInnerDimensions.y) (hf : WcsFactory.new scale "TAN" θ flipX = .ok f) (hs : scale ≠ 0) {crpix : P2 ℝ} {crval : SpherePoint ℝ}
    (hw : a.wcs = f.makeWcs other crpix crval) {r : ℝ} (ha : a.shape = .explicit r) (hne : t.getBBox.isEmpty = false) {p : SpherePoint ℝ}
    (hp : InPolygon t.getInnerSkyPolygon p) : t.contains p = true := by
  have B := TractInfo.new_built h hx hy
  have hmin := Built.bbox_min B
  obtain ⟨q, hq, h1, h2, h3, h4⟩ := (C80_explicit h hx hy hf hs hw ha hne p).1 hp
  unfold TractInfo.contains
  rw [hq]
  unfold TractInfo.getBBox at h2 h4
  change t.bbox.contains (toPoint2I q) = true
  rw [Box2I.contains_iff, hmin]
  unfold toPoint2I
  dsimp only
  refine ⟨?_, ?_, ?_, ?_⟩
  · rw [Int.floor_nonneg]; linarith
  · rw [zero_add, Int.floor_lt]; linarith
  · rw [Int.floor_nonneg]; linarith
  · rw [zero_add, Int.floor_lt]; linarith

/-- C80 for discrete sky maps with the gnomonic projection, after any history: the inner sky region of tract i is the area of its pixels except for a
thousandth of a pixel at the edges; each position in it is in the tract. -/
theorem C80_discrete (hx : 0 < b₀.patchInnerDimensions.x) (hy : 0 < b₀.patchInnerDimensions.y)
    (hf : WcsFactory.new scale "TAN" θ flipX = .ok f) (hs : scale ≠ 0)
    (point : ℝ → ℝ → PyM (SpherePoint ℝ)) (angle : ℝ → ℝ) (c : DiscreteConfig ℝ) {s s' : MapState (SpherePoint ℝ) ℝ}
    {m : CachingDef (SpherePoint ℝ) ℝ} (hm : m = DiscreteSkyMap.cachingDef env ops ⟨point, angle, f.makeWcs other ⟨0, 0⟩⟩ c)
    (h : (CachingSkyMap.skyMapOps m).After (CachingSkyMap.init m b₀) s) {i : ℤ} {tr : TractRef (SpherePoint ℝ) ℝ}
    (hg : CachingSkyMap.getItem m i s = (.ok tr, s')) (hne : tr.info.getBBox.isEmpty = false) (p : SpherePoint ℝ) :
    (tr.info.InInnerRegion p ↔ ∃ q, tr.info.wcs.skyToPixel p = .pix q ∧ -1 / 2 + 1 / 1000 ≤ q.x ∧
      q.x ≤ tr.info.getBBox.dim.x - 1 / 2 - 1 / 1000 ∧ -1 / 2 + 1 / 1000 ≤ q.y ∧ q.y ≤ tr.info.getBBox.dim.y - 1 / 2 - 1 / 1000) ∧
    (tr.info.InInnerRegion p → tr.info.contains p = true) := by
  obtain ⟨k, rfl, -, b, hfr, -, -⟩ := fresh_of_getItem h hg
  subst hm
  unfold CachingSkyMap.fresh at hfr
  split at hfr
  · simp at hfr
  · next a ha =>
    simp only [DiscreteSkyMap.cachingDef] at ha hfr
    obtain ⟨_, -, ha⟩ := bindOk ha
    obtain ⟨_, -, ha⟩ := bindOk ha
    obtain ⟨_, -, ha⟩ := bindOk ha
    obtain ⟨_, -, ha⟩ := bindOk ha
    simp only [pure, Except.pure, Except.ok.injEq] at ha
    subst ha
    have hin : tr.info.InInnerRegion p ↔ InPolygon tr.info.getInnerSkyPolygon p := by
      obtain ⟨mb, bbox, n, -, -, e⟩ := TractInfo.new_inv hfr
      have hno : tr.info.innerBoxCorners = none := by rw [e]
      unfold TractInfo.InInnerRegion TractInfo.getInnerSkyRegion TractInfo.getInnerSkyPolygon
      rw [hno]
    rw [hin]
    exact ⟨C80_explicit hfr hx hy hf hs rfl rfl hne p, C80_explicit_contains hfr hx hy hf hs rfl rfl hne⟩

theorem greatCircle_self (p : SpherePoint ℝ) : greatCircle p p = 0 := by
  unfold greatCircle
  rw [SpherePoint.cosSep_eq, SpherePoint.vec_unit, arccos_one]

/-- C80: with the gnomonic projection, the inner sky region of a tract that is given by its vertices (a tract of a HEALPix or dodecahedral sky map) is in
the tract. -/
theorem C80_vertices_contains (he : env.Ok) (h : TractInfo.new env sphereOps b₀ a = .ok (t, b))
    (hx : 0 < b₀.patchInnerDimensions.x) (hy : 0 < b₀.patchInnerDimensions.y)
    (hf : WcsFactory.new scale "TAN" θ flipX = .ok f) (hs : 0 < scale) (hw : a.wcs = f.makeWcs other ⟨0, 0⟩ a.ctrCoord)
    {cs : List (SpherePoint ℝ)} (ha : a.shape = .vertices cs) (hbox : a.innerBoxCorners = none) (h0 : 0 ≤ a.tractOverlap)
    (h1 : ∀ v ∈ cs, greatCircle a.ctrCoord v + a.tractOverlap / 2 < π / 2) {p : SpherePoint ℝ} (hp : t.InInnerRegion p) :
    t.contains p = true := by
  have hin : InPolygon cs p := by
    obtain ⟨mb, bbox, n, -, -, e⟩ := TractInfo.new_inv h
    have hno : t.innerBoxCorners = none := by rw [e, hbox]
    have hv : t.vertexCoordList = cs := by rw [e]; simp only [ha]
    unfold TractInfo.InInnerRegion TractInfo.getInnerSkyRegion at hp
    rw [hno] at hp
    dsimp only at hp
    rwa [hv] at hp
  refine C61_hull he h hx hy hf hs hw ha h0 h1 p ⟨p, inPolygon_iff_cone.1 hin, ?_⟩
  rw [greatCircle_self]
  have hne : ∃ v, v ∈ cs := by
    by_contra hh
    push Not at hh
    have := hin (-p.getVector) (fun c hc => absurd hc (hh c))
    rw [neg_dotProduct, SpherePoint.vec_unit] at this
    norm_num at this
  obtain ⟨v, hv⟩ := hne
  have g0 : 0 ≤ greatCircle a.ctrCoord v := arccos_nonneg _
  have := (C61_margin h0 (by linarith [h1 v hv])).1
  linarith

end tan

/-! ## Examples -/

/-- C80 is not vacuous: an equatorial sky map of 4 tracts from -1.25 to 1.25 degrees with the projection CEA is built, and the tract found for a
position in the strip has it in its inner region; one from 10 to 20 degrees is built too, and the middle of its southern edge is in no inner region. -/
example (other) : ∃ f, WcsFactory.new (1 / 1000) "CEA" 0 false = .ok f ∧
    (∃ l ts b t, Equat.tracts FloatArith.exact (f.makeWcs other ⟨0, 0⟩) ⟨(4 : ℕ), [-5 / 4, 5 / 4], 1⟩ = .ok l ∧
      EagerSkyMap.buildAll Ex.realEnv sphereOps l 0 Ex.smallBuilder = .ok (ts, b) ∧ t ∈ ts ∧ t.info.InInnerRegion ⟨2, 1 / 100⟩) ∧
    ∃ l ts b t, Equat.tracts FloatArith.exact (f.makeWcs other ⟨0, 0⟩) ⟨(4 : ℕ), [10, 20], 1⟩ = .ok l ∧
      EagerSkyMap.buildAll Ex.realEnv sphereOps l 0 Ex.smallBuilder = .ok (ts, b) ∧ t ∈ ts ∧
      ∀ t' ∈ ts, ¬ t'.info.InInnerRegion ⟨t.info.ctrCoord.lon, 10 * (π / 180)⟩ := by
  have hp := pi_gt_three
  obtain ⟨f, hf⟩ := (WcsFactory.C56_projection_length (1 / 1000) "CEA" 0 false).2 rfl
  refine ⟨f, hf, ?_, ?_⟩
  · obtain ⟨l, ts, b, h1, h2⟩ := Equat.C59_builds (env := Ex.realEnv) (b₀ := Ex.smallBuilder) (other := other) (n := 4) (d0 := -5 / 4) (d1 := 5 / 4)
      (ov := 1) (by norm_num) (by rw [abs_le]; norm_num) (by rw [abs_le]; norm_num) (by decide) (by decide) hf (by norm_num)
    obtain ⟨k, t, -, h4, h5, -⟩ := Equat.C80_equat_find (ops := sphereOps) (fun _ _ => rfl) (by norm_num) (by rw [abs_lt]; norm_num)
      (by rw [abs_lt]; norm_num) (by norm_num) (by norm_num) (by norm_num) h1 (by decide) (by decide) h2 ⟨2, 1 / 100⟩
      ⟨by norm_num, by dsimp only; linarith⟩ ⟨by dsimp only; linarith, by dsimp only; linarith⟩
    exact ⟨l, ts, b, t, h1, h2, List.mem_of_getElem? h4, h5⟩
  · obtain ⟨l, ts, b, h1, h2⟩ := Equat.C59_builds (env := Ex.realEnv) (b₀ := Ex.smallBuilder) (other := other) (n := 4) (d0 := 10) (d1 := 20)
      (ov := 1) (by norm_num) (by rw [abs_le]; norm_num) (by rw [abs_le]; norm_num) (by decide) (by decide) hf (by norm_num)
    obtain ⟨t, h3, -⟩ := (Equat.C35_tracts (by norm_num) (by rw [abs_le]; norm_num) (by rw [abs_le]; norm_num) h1 (by decide) (by decide) h2).2 2
      (by norm_num)
    exact ⟨l, ts, b, t, h1, h2, List.mem_of_getElem? h3, fun t' ht' => Equat.C80_equat_gap (by norm_num) (by norm_num) (by norm_num) (by norm_num) h1
      (by decide) (by decide) h2 (List.mem_of_getElem? h3) ht'⟩

/-- C80 is not vacuous: a dodecahedral sky map is built, and a position is in the inner region of exactly the tracts with the nearest centre. -/
example (other) (p : SpherePoint ℝ) : ∃ f D l ts b t, WcsFactory.new (1 / 1000) "TAN" 1 false = .ok f ∧
    DodecaSkyMap.tracts (1 / 1000) (f.makeWcs other ⟨0, 0⟩) ascending false 2 = .ok (D, l) ∧
    EagerSkyMap.buildAll Ex.realEnv sphereOps l 0 Ex.smallBuilder = .ok (ts, b) ∧ t ∈ ts ∧ t.info.InInnerRegion p ∧
    ∀ t' ∈ ts, greatCircle p t.info.ctrCoord ≤ greatCircle p t'.info.ctrCoord := by
  obtain ⟨f, hf⟩ := (WcsFactory.C56_projection_length (1 / 1000) "TAN" 1 false).2 rfl
  obtain ⟨D, l, ts, b, h1, h2⟩ := DodecaSkyMap.C60_builds (other := other) (tiny := 1 / 1000) (o := ascending) (w := false) (ov := 2)
    (env := Ex.realEnv) (b₀ := Ex.smallBuilder) (.inl ⟨rfl, by norm_num, by norm_num⟩) (by norm_num) (by norm_num)
    ascending_ok hf (by norm_num) (by decide) (by decide)
  obtain ⟨k, t, -, h3, h4, -⟩ := DodecaSkyMap.C80_dodeca_find (ops := sphereOps) (fun _ _ => rfl) (by norm_num) (by norm_num) ascending_ok h1 (by decide)
    (by decide) h2 p
  exact ⟨f, D, l, ts, b, t, hf, h1, h2, List.mem_of_getElem? h3, h4, (DodecaSkyMap.C80_dodeca_region (by norm_num) (by norm_num) ascending_ok h1
    (by decide) (by decide) h2 (List.mem_of_getElem? h3) p).1 h4⟩

/-- C80 is not vacuous: an explicit tract around (1, 0.5) is built, its area is not empty, its inner polygon has a vertex, and each vertex is a
position of the inner polygon. -/
example (other) : ∃ f t b, WcsFactory.new (1 / 1000) "TAN" 0 false = .ok f ∧
    TractInfo.new Ex.realEnv sphereOps Ex.smallBuilder
      ⟨0, ⟨1, 1 / 2⟩, .explicit (1 / 10), 0, f.makeWcs other ⟨0, 0⟩ ⟨1, 1 / 2⟩, none⟩ = .ok (t, b) ∧ t.getBBox.isEmpty = false ∧
    t.getInnerSkyPolygon.length = 4 ∧ ∀ v ∈ t.getInnerSkyPolygon, InPolygon t.getInnerSkyPolygon v ∧ t.contains v = true := by
  have hp := pi_gt_three
  have hlim : (1 / 10 : ℝ) + 0 < Projection.TAN.limit := by simp only [Projection.limit]; linarith
  obtain ⟨f, hf⟩ := (WcsFactory.C56_projection_length (1 / 1000) "TAN" 0 false).2 rfl
  obtain ⟨⟨t, b⟩, ht⟩ := explicit_total (other := other) (P := .TAN) (env := Ex.realEnv) (b₀ := Ex.smallBuilder)
    (a := ⟨0, ⟨1, 1 / 2⟩, .explicit (1 / 10), 0, f.makeWcs other ⟨0, 0⟩ ⟨1, 1 / 2⟩, none⟩)
    (by decide) (by decide) hf (by norm_num) rfl rfl rfl (by norm_num) hlim
  have hc : t.contains ⟨1, 1 / 2⟩ = true := by
    refine C57_covers (other := other) (P := .TAN) Ex.realEnv_ok ht (by decide) (by decide) hf (by norm_num) rfl rfl rfl hlim _ ?_
    rw [greatCircle_self]; norm_num
  have hne : t.getBBox.isEmpty = false := by
    unfold TractInfo.contains at hc
    split at hc
    · simp at hc
    · simp at hc
    · rw [Bool.eq_false_iff]
      intro he
      unfold Box2I.isEmpty at he
      unfold Box2I.contains at hc
      simp at he hc
      omega
  have hlen : t.getInnerSkyPolygon.length = 4 := by
    have B := TractInfo.new_built ht (by decide) (by decide)
    have hd := B.dim_pos hne
    have kx : (1 : ℝ) ≤ t.bbox.dim.x := by exact_mod_cast hd.1
    have ky : (1 : ℝ) ≤ t.bbox.dim.y := by exact_mod_cast hd.2
    have hv : t.vertexCoordList = explicitVertices t.bbox t.wcs := by
      obtain ⟨mb, bbox, n, h1, h2, rfl⟩ := TractInfo.new_inv ht
      rfl
    unfold TractInfo.getInnerSkyPolygon
    rw [hv]
    unfold explicitVertices Box2D.ofBox2I
    rw [show t.bbox.isEmpty = false from hne]
    simp only [Bool.false_eq_true, if_false, Box2D.grow]
    rw [if_neg]
    · rfl
    · rw [not_or, not_le, not_le]; constructor <;> linarith
  exact ⟨f, t, b, hf, ht, hne, hlen, fun v hv => ⟨fun W hW => hW v hv,
    C80_explicit_contains ht (by decide) (by decide) hf (by norm_num) (other := other) (crpix := ⟨0, 0⟩) (crval := ⟨1, 1 / 2⟩) rfl rfl hne
      (fun W hW => hW v hv)⟩⟩

end Skymap
