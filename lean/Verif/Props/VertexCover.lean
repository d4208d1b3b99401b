import Verif.Props.DodecaCover
import Verif.Props.Healpix
import Mathlib.Analysis.Convex.SpecificFunctions.Deriv

/-! # C61: tracts given by their vertices extend beyond the hull of the vertices by nearly half the overlap -/

namespace Skymap
open Matrix Real Dodeca

/-! ## Specification vocabulary -/

/-- How far a tract reaches beyond its vertices: `tan margin = cos 7.5° * tan (overlap / 2)`. The factor is there because the code takes 24
positions around every vertex, 15 degrees apart in bearing. -/
noncomputable def margin (ov : ℝ) : ℝ := arctan (cos (π / 24) * tan (ov / 2))

/-- `q` is within the angle `ε` of a position of the spherical polygon (the convex hull on the sphere) of `vs`. -/
def NearHull (vs : List (SpherePoint ℝ)) (ε : ℝ) (q : SpherePoint ℝ) : Prop :=
  ∃ p : SpherePoint ℝ, InCone (vs.map SpherePoint.getVector) p.getVector ∧ greatCircle p q ≤ ε

/-! ## The margin -/

theorem sin_scale {l x : ℝ} (h0 : 0 ≤ l) (h1 : l ≤ 1) (x0 : 0 ≤ x) (x1 : x ≤ π) : l * sin x ≤ sin (l * x) := by
  have := strictConcaveOn_sin_Icc.concaveOn.2 (⟨x0, x1⟩ : x ∈ Set.Icc 0 π) (⟨le_rfl, pi_pos.le⟩ : (0 : ℝ) ∈ Set.Icc 0 π) h0
    (by linarith : (0 : ℝ) ≤ 1 - l) (by ring)
  simpa using this

/-- `tan` is convex. -/
theorem tan_scale {k δ : ℝ} (k0 : 0 ≤ k) (k1 : k ≤ 1) (d0 : 0 ≤ δ) (d1 : δ < π / 2) : tan (k * δ) ≤ k * tan δ := by
  have hp := pi_pos
  have c1 : 0 < cos δ := cos_pos_of_mem_Ioo ⟨by linarith, d1⟩
  have hkd : k * δ ≤ δ := by nlinarith
  have hkd0 : 0 ≤ k * δ := by positivity
  have c2 : 0 < cos (k * δ) := cos_pos_of_mem_Ioo ⟨by linarith, by linarith⟩
  rw [tan_eq_sin_div_cos, tan_eq_sin_div_cos, ← mul_div_assoc, div_le_div_iff₀ c2 c1]
  have h := sin_scale (l := (1 - k) / (1 + k)) (x := (1 + k) * δ) (div_nonneg (by linarith) (by linarith))
    ((div_le_one (by linarith)).2 (by linarith)) (by positivity) (by nlinarith)
  have e : (1 - k) / (1 + k) * ((1 + k) * δ) = δ - k * δ := by field_simp
  rw [e, div_mul_eq_mul_div, div_le_iff₀ (by linarith), show (1 + k) * δ = δ + k * δ by ring, sin_sub, sin_add] at h
  linarith

theorem cos_step : 0.991 < cos (π / 24) := by
  have h1 := one_sub_sq_div_two_le_cos (x := π / 24)
  have h2 := pi_lt_d2
  have h3 := pi_pos
  nlinarith

/-- The margin is between 99.1% and 100% of half the overlap. -/
theorem margin_bounds {ov : ℝ} (h0 : 0 ≤ ov) (h1 : ov < π) : 0.991 * (ov / 2) ≤ margin ov ∧ margin ov ≤ ov / 2 := by
  have hp := pi_pos
  have d0 : 0 ≤ ov / 2 := by linarith
  have d1 : ov / 2 < π / 2 := by linarith
  have ht : 0 ≤ tan (ov / 2) := tan_nonneg_of_nonneg_of_le_pi_div_two d0 d1.le
  have hc := cos_step
  unfold margin
  constructor
  · rw [← arctan_tan (x := 0.991 * (ov / 2)) (by linarith) (by linarith)]
    apply arctan_strictMono.monotone
    refine (tan_scale (by norm_num) (by norm_num) d0 d1).trans ?_
    gcongr
  · conv_rhs => rw [← arctan_tan (x := ov / 2) (by linarith) d1]
    apply arctan_strictMono.monotone
    have := cos_le_one (π / 24)
    nlinarith

/-! ## The geometry -/

/-- A plane through the centre of the sphere that leaves all positions around a vertex on one side is at least the margin away from it. -/
theorem vertex_depth {ov : ℝ} (h0 : 0 ≤ ov) (h1 : ov < π) (v : SpherePoint ℝ) (W : Vec3)
    (hW : ∀ i : ℕ, i < 24 → W ⬝ᵥ (v.offset (15 * (i : ℝ)) (ov / 2)).getVector ≤ 0) :
    W ⬝ᵥ v.getVector ≤ -(sin (margin ov) * √(W ⬝ᵥ W)) := by
  have hp := pi_pos
  have cδ : 0 < cos (ov / 2) := cos_pos_of_mem_Ioo ⟨by linarith, by linarith⟩
  have sδ : 0 ≤ sin (ov / 2) := sin_nonneg_of_nonneg_of_le_pi (by linarith) (by linarith)
  have hκ := cos_step
  have ht : 0 ≤ cos (π / 24) * tan (ov / 2) :=
    mul_nonneg (by linarith) (tan_nonneg_of_nonneg_of_le_pi_div_two (by linarith) (by linarith))
  obtain ⟨i, hi, hd⟩ := bearing_dense (W ⬝ᵥ v.eastVec) (W ⬝ᵥ v.northVec)
  have hk := hW i hi
  have hfr := v.frame_dot W W
  rw [v.offset_dot] at hk
  set A := W ⬝ᵥ v.eastVec
  set B := W ⬝ᵥ v.northVec
  set x := W ⬝ᵥ v.getVector
  set R := √(A ^ 2 + B ^ 2) with hR
  have hR0 : 0 ≤ R := sqrt_nonneg _
  have hR2 : R ^ 2 = A ^ 2 + B ^ 2 := sq_sqrt (by positivity)
  have g := mul_le_mul_of_nonneg_left hd sδ
  have hx : x ≤ -(cos (π / 24) * tan (ov / 2) * R) := by
    rw [tan_eq_sin_div_cos, ← sub_nonneg]
    have : 0 ≤ -(cos (ov / 2) * x + sin (ov / 2) * (cos (π / 24) * R)) := by linarith
    have h2 := div_nonneg this cδ.le
    rw [show -(cos (π / 24) * (sin (ov / 2) / cos (ov / 2)) * R) - x = -(cos (ov / 2) * x + sin (ov / 2) * (cos (π / 24) * R)) / cos (ov / 2) by
      field_simp; ring]
    exact h2
  have hT : tan (margin ov) = cos (π / 24) * tan (ov / 2) := tan_arctan _
  rw [← hT] at hx ht
  have cm : 0 < cos (margin ov) := cos_arctan_pos _
  rw [tan_eq_sin_div_cos] at hx ht
  have sm : 0 ≤ sin (margin ov) := by
    by_contra h
    exact absurd ht (not_le.2 (div_neg_of_neg_of_pos (not_le.1 h) cm))
  have h1' := sin_sq_add_cos_sq (margin ov)
  set c := cos (margin ov)
  set s := sin (margin ov)
  -- c x ≤ - s R
  have hcx : s * R ≤ c * (-x) := by
    rw [← sub_nonneg]
    have : 0 ≤ c * (-(s / c * R) - x) := mul_nonneg cm.le (by linarith)
    rw [show c * (-(s / c * R) - x) = c * (-x) - s * R by field_simp; ring] at this
    exact this
  have hx0 : 0 ≤ -x := by
    by_contra h
    have := mul_neg_of_pos_of_neg cm (not_le.1 h)
    have : 0 ≤ s * R := by positivity
    linarith
  have hsq : (s * R) ^ 2 ≤ (c * (-x)) ^ 2 := by gcongr
  have hww : W ⬝ᵥ W = R ^ 2 + x ^ 2 := by rw [hR2, hfr]; ring
  have : s * √(W ⬝ᵥ W) ≤ -x := by
    refine le_of_sq_le_sq ?_ hx0
    rw [mul_pow, sq_sqrt (by rw [hww]; positivity), hww]
    linear_combination hsq + x ^ 2 * h1'
  linarith
where
  le_of_sq_le_sq {a b : ℝ} (h : a ^ 2 ≤ b ^ 2) (hb : 0 ≤ b) : a ≤ b := (abs_le_of_sq_le_sq' h hb).2

/-- ... and the same holds for every position of the hull. -/
theorem hull_depth {vs : List Vec3} (hu : ∀ v ∈ vs, v ⬝ᵥ v = 1) {p : SpherePoint ℝ} (hp : InCone vs p.getVector) (W : Vec3) {d : ℝ}
    (hd : 0 ≤ d) (hW : ∀ v ∈ vs, W ⬝ᵥ v ≤ -d) : W ⬝ᵥ p.getVector ≤ -d := by
  obtain ⟨c, hlen, h2, h3⟩ := hp.dot
  have hle : ∀ v ∈ vs, p.getVector ⬝ᵥ v ≤ 1 := by
    intro v hv
    have e1 := p.frame_dot v v
    rw [hu v hv] at e1
    rw [dotProduct_comm]
    nlinarith [mul_self_nonneg (v ⬝ᵥ p.eastVec), mul_self_nonneg (v ⬝ᵥ p.northVec)]
  have key : ∀ {c : List ℝ} {vs : List Vec3}, c.length = vs.length → (∀ x ∈ c, 0 ≤ x) → (∀ v ∈ vs, p.getVector ⬝ᵥ v ≤ 1) → (∀ v ∈ vs, W ⬝ᵥ v ≤ -d) →
      (List.zipWith (fun x v => x * (p.getVector ⬝ᵥ v)) c vs).sum ≤ c.sum ∧ (List.zipWith (fun x v => x * (W ⬝ᵥ v)) c vs).sum ≤ -(d * c.sum) := by
    clear * -
    intro c
    induction c with
    | nil => intro vs _ _ _ _; simp
    | cons x c ih =>
      intro vs hl hc h1 h2
      cases vs with
      | nil => simp at hl
      | cons v vs =>
        obtain ⟨i1, i2⟩ := ih (vs := vs) (by simpa using hl) (fun y hy => hc y (by simp [hy])) (fun v hv => h1 v (by simp [hv])) (fun v hv => h2 v (by simp [hv]))
        have hx := hc x (by simp)
        have g1 := mul_le_mul_of_nonneg_left (h1 v (by simp)) hx
        have g2 := mul_le_mul_of_nonneg_left (h2 v (by simp)) hx
        simp only [List.zipWith_cons_cons, List.sum_cons]
        constructor <;> linarith
  obtain ⟨k1, k2⟩ := key hlen h2 hle hW
  rw [← h3, p.vec_unit] at k1
  rw [← h3] at k2
  nlinarith

/-- ... and a position within the margin of that one is on the same side. -/
theorem near_side {p q : SpherePoint ℝ} {ε : ℝ} (h0 : 0 ≤ ε) (h1 : ε < π / 2) (hq : greatCircle p q ≤ ε) (W : Vec3)
    (hW : W ⬝ᵥ p.getVector ≤ -(sin ε * √(W ⬝ᵥ W))) : W ⬝ᵥ q.getVector ≤ 0 := by
  have hp := pi_pos
  have hc : cos ε ≤ p.getVector ⬝ᵥ q.getVector := by
    have := cosSep_range p q
    rw [← SpherePoint.cosSep_eq, ← cos_arccos this.1 this.2]
    exact cos_le_cos_of_nonneg_of_le_pi (arccos_nonneg _) (by linarith) hq
  have c0 : 0 < cos ε := cos_pos_of_mem_Ioo ⟨by linarith, h1⟩
  have s0 : 0 ≤ sin ε := sin_nonneg_of_nonneg_of_le_pi h0 (by linarith)
  have e0 := sin_sq_add_cos_sq ε
  have f1 := p.frame_dot W q.getVector
  have f2 := p.frame_dot W W
  have f3 := p.frame_dot q.getVector q.getVector
  rw [q.vec_unit] at f3
  rw [dotProduct_comm] at hc
  rw [f1]
  set n := W ⬝ᵥ W
  have hn : 0 ≤ n := by rw [f2]; nlinarith [mul_self_nonneg (W ⬝ᵥ p.eastVec), mul_self_nonneg (W ⬝ᵥ p.northVec), mul_self_nonneg (W ⬝ᵥ p.getVector)]
  set A := W ⬝ᵥ p.eastVec
  set B := W ⬝ᵥ p.northVec
  set x := W ⬝ᵥ p.getVector
  set a := q.getVector ⬝ᵥ p.eastVec
  set b := q.getVector ⬝ᵥ p.northVec
  set z := q.getVector ⬝ᵥ p.getVector
  have hz : 0 < z := c0.trans_le hc
  have hx0 : 0 ≤ -x := le_trans (by positivity) (by linarith : sin ε * √n ≤ -x)
  have hx2 : sin ε ^ 2 * n ≤ x ^ 2 := by
    have : (sin ε * √n) ^ 2 ≤ (-x) ^ 2 := by gcongr; linarith
    rwa [mul_pow, sq_sqrt hn, neg_sq] at this
  have hz2 : cos ε ^ 2 ≤ z ^ 2 := by gcongr
  have t1 : A ^ 2 + B ^ 2 ≤ cos ε ^ 2 * n := by linear_combination hx2 - n * e0 - f2
  have t2 : a ^ 2 + b ^ 2 ≤ sin ε ^ 2 := by linear_combination hz2 - e0 - f3
  have t3 : (A * a + B * b) ^ 2 ≤ (A ^ 2 + B ^ 2) * (a ^ 2 + b ^ 2) := by nlinarith [sq_nonneg (A * b - B * a)]
  have t4 : (A ^ 2 + B ^ 2) * (a ^ 2 + b ^ 2) ≤ (cos ε ^ 2 * n) * sin ε ^ 2 := by gcongr
  have t5 : (cos ε ^ 2 * n) * sin ε ^ 2 ≤ (-x * z) ^ 2 := by
    calc (cos ε ^ 2 * n) * sin ε ^ 2 = (sin ε ^ 2 * n) * cos ε ^ 2 := by ring
      _ ≤ x ^ 2 * z ^ 2 := by gcongr
      _ = _ := by ring
  have := (abs_le_of_sq_le_sq' (t3.trans (t4.trans t5)) (by positivity)).2
  linarith

/-! ## C61 -/

/-- C61: the margin is between 99.1% and 100% of half the overlap. -/
theorem C61_margin {ov : ℝ} (h0 : 0 ≤ ov) (h1 : ov < π) : 0.991 * (ov / 2) ≤ margin ov ∧ margin ov ≤ ov / 2 := margin_bounds h0 h1

variable {env : FloatEnv ℝ} {b₀ b : TractBuilder} {a : TractArgs (SpherePoint ℝ) ℝ} {t : TractInfo (SpherePoint ℝ) ℝ}
  {other : P2 ℝ → SpherePoint ℝ → CdMatrix → String → Wcs (SpherePoint ℝ) ℝ} {f : WcsFactory} {scale θ : ℝ} {flipX : Bool}

/-- C61: a tract with the gnomonic projection that is given by its vertices contains every position within the margin of the spherical
polygon of its vertices, whatever the rotation of the pixels and their scale. -/
theorem C61_hull (he : env.Ok) (h : TractInfo.new env sphereOps b₀ a = .ok (t, b))
    (hx : 0 < b₀.patchInnerDimensions.x) (hy : 0 < b₀.patchInnerDimensions.y)
    (hf : WcsFactory.new scale "TAN" θ flipX = .ok f) (hs : 0 < scale) (hw : a.wcs = f.makeWcs other ⟨0, 0⟩ a.ctrCoord)
    {cs : List (SpherePoint ℝ)} (ha : a.shape = .vertices cs) (h0 : 0 ≤ a.tractOverlap)
    (h1 : ∀ v ∈ cs, greatCircle a.ctrCoord v + a.tractOverlap / 2 < π / 2) (q : SpherePoint ℝ)
    (hq : NearHull cs (margin a.tractOverlap) q) : t.contains q = true := by
  have hpi := pi_pos
  obtain ⟨p, hp, hpq⟩ := hq
  have hne : cs ≠ [] := by
    rintro rfl
    obtain ⟨c, -, -, e⟩ := hp
    have := p.vec_unit
    rw [e] at this
    simp at this
  obtain ⟨v₀, hv₀⟩ := List.exists_mem_of_ne_nil _ hne
  have hov : a.tractOverlap < π := by
    have := h1 v₀ hv₀
    have : 0 ≤ greatCircle a.ctrCoord v₀ := arccos_nonneg _
    linarith
  set ov := a.tractOverlap with hovd
  obtain ⟨m0, m1⟩ := margin_bounds h0 hov
  set C := a.ctrCoord.getVector with hCd
  have hC1 : C ⬝ᵥ C = 1 := a.ctrCoord.vec_unit
  have hu : ∀ v ∈ cs.map SpherePoint.getVector, v ⬝ᵥ v = 1 := by simp [SpherePoint.vec_unit]
  have sδ : 0 ≤ sin (ov / 2) := sin_nonneg_of_nonneg_of_le_pi (by linarith) (by linarith)
  have cδ : 0 < cos (ov / 2) := cos_pos_of_mem_Ioo ⟨by linarith, by linarith⟩
  have hCv : ∀ v ∈ cs, sin (ov / 2) < C ⬝ᵥ v.getVector := by
    intro v hv
    have := cosSep_range a.ctrCoord v
    rw [← SpherePoint.cosSep_eq, ← cos_arccos this.1 this.2, ← cos_pi_div_two_sub]
    exact cos_lt_cos_of_nonneg_of_le_pi (arccos_nonneg _) (by linarith) (by have := h1 v hv; unfold greatCircle at this; linarith)
  -- everything is in front of the centre
  have front : ∀ s ∈ samplePoints sphereOps a, 0 < C ⬝ᵥ s.getVector := by
    intro s hsm
    rw [C12_sample_points] at hsm
    rcases hsm with ⟨l, e, -, hm⟩ | ⟨l, e, -, v, hv, i, -, e2⟩ | ⟨r, e, -⟩
    · rw [ha, TractShape.vertices.injEq] at e
      subst e
      exact sδ.trans_lt (hCv s hm)
    · rw [ha, TractShape.vertices.injEq] at e
      subst e
      change s = v.offset _ _ at e2
      rw [e2, ← hovd, v.offset_dot]
      have hfr := v.frame_dot C C
      have l := hCv v hv
      rw [hC1] at hfr
      set A := C ⬝ᵥ v.eastVec
      set B := C ⬝ᵥ v.northVec
      set x := C ⬝ᵥ v.getVector
      have hb := sin_sq_add_cos_sq (15 * (i : ℝ) * (π / 180))
      set cb := cos (15 * (i : ℝ) * (π / 180))
      set sb := sin (15 * (i : ℝ) * (π / 180))
      have hsc := sin_sq_add_cos_sq (ov / 2)
      have g1 : (A * cb + B * sb) ^ 2 ≤ 1 - x ^ 2 := by
        have e : (A * cb + B * sb) ^ 2 + (A * sb - B * cb) ^ 2 = 1 - x ^ 2 := by linear_combination (A ^ 2 + B ^ 2) * hb - hfr
        linarith [sq_nonneg (A * sb - B * cb)]
      have g2 : sin (ov / 2) ^ 2 ≤ x ^ 2 := by gcongr
      have g3 : (A * cb + B * sb) ^ 2 ≤ cos (ov / 2) ^ 2 := by linarith
      have g4 := (abs_le_of_sq_le_sq' g3 cδ.le).1
      have g5 := mul_lt_mul_of_pos_left l cδ
      have g6 := mul_le_mul_of_nonneg_left g4 sδ
      linarith
    · rw [ha] at e; simp at e
  have hz : 0 < C ⬝ᵥ q.getVector := by
    -- a little inside: use a slightly tilted bound
    have d1 : (-C) ⬝ᵥ p.getVector ≤ -(sin (ov / 2)) := hull_depth hu hp _ sδ (by
      intro v' hv'
      obtain ⟨v, hv, rfl⟩ := List.mem_map.1 hv'
      rw [neg_dotProduct]
      linarith [hCv v hv])
    -- strictly
    obtain ⟨c, hlen, h2, h3⟩ := hp.dot
    by_contra hneg
    rw [not_lt] at hneg
    obtain ⟨η, hη, hη1⟩ : ∃ η, sin (ov / 2) < η ∧ ∀ v ∈ cs, η ≤ C ⬝ᵥ v.getVector := by
      clear hne hv₀ hp hu front h3 hlen ha h1
      induction cs with
      | nil => exact ⟨sin (ov / 2) + 1, by linarith, by simp⟩
      | cons v cs ih =>
        obtain ⟨η, e1, e2⟩ := ih fun v hv => hCv v (by simp [hv])
        refine ⟨min η (C ⬝ᵥ v.getVector), lt_min e1 (hCv v (by simp)), fun v' hv' => ?_⟩
        rcases List.mem_cons.1 hv' with rfl | hv'
        · exact min_le_right _ _
        · exact (min_le_left _ _).trans (e2 v' hv')
    have d2 : (-C) ⬝ᵥ p.getVector ≤ -η := hull_depth hu hp _ (by linarith) (by
      intro v' hv'
      obtain ⟨v, hv, rfl⟩ := List.mem_map.1 hv'
      rw [neg_dotProduct]
      linarith [hη1 v hv])
    rw [neg_dotProduct] at d2
    -- the triangle inequality
    have e1 : η ≤ C ⬝ᵥ p.getVector := by linarith
    set y := C ⬝ᵥ p.getVector with hy'
    have f1 := p.frame_dot C q.getVector
    have f2 := p.frame_dot C C
    have f3 := p.frame_dot q.getVector q.getVector
    rw [q.vec_unit] at f3
    rw [hC1] at f2
    have hcz : cos (ov / 2) ≤ q.getVector ⬝ᵥ p.getVector := by
      have := cosSep_range p q
      rw [dotProduct_comm, ← SpherePoint.cosSep_eq, ← cos_arccos this.1 this.2]
      exact cos_le_cos_of_nonneg_of_le_pi (arccos_nonneg _) (by linarith) (by unfold greatCircle at hpq; linarith)
    rw [← hy'] at f1 f2
    set A := C ⬝ᵥ p.eastVec
    set B := C ⬝ᵥ p.northVec
    set a' := q.getVector ⬝ᵥ p.eastVec
    set b' := q.getVector ⬝ᵥ p.northVec
    set z := q.getVector ⬝ᵥ p.getVector
    have hsc := sin_sq_add_cos_sq (ov / 2)
    have g1 : A ^ 2 + B ^ 2 ≤ cos (ov / 2) ^ 2 := by
      have : sin (ov / 2) ^ 2 ≤ y ^ 2 := by gcongr; linarith
      linarith
    have g2 : a' ^ 2 + b' ^ 2 ≤ sin (ov / 2) ^ 2 := by
      have : cos (ov / 2) ^ 2 ≤ z ^ 2 := by gcongr
      linarith
    have g3 : (A * a' + B * b') ^ 2 ≤ (cos (ov / 2) * sin (ov / 2)) ^ 2 := by
      calc (A * a' + B * b') ^ 2 ≤ (A ^ 2 + B ^ 2) * (a' ^ 2 + b' ^ 2) := by nlinarith [sq_nonneg (A * b' - B * a')]
        _ ≤ cos (ov / 2) ^ 2 * sin (ov / 2) ^ 2 := by gcongr
        _ = _ := by ring
    have g4 := (abs_le_of_sq_le_sq' g3 (by positivity)).1
    have g5 : cos (ov / 2) * sin (ov / 2) < y * z := by
      have : sin (ov / 2) * cos (ov / 2) < y * cos (ov / 2) := mul_lt_mul_of_pos_right (by linarith) cδ
      have : y * cos (ov / 2) ≤ y * z := mul_le_mul_of_nonneg_left hcz (by linarith)
      linarith
    linarith
  refine zenithal_covers (P := .TAN) he h hx hy hf hs rfl hw hz fun U u1 u2 => ?_
  -- the sample furthest out
  have hsne : samplePoints sphereOps a ≠ [] := by
    have : ∃ s, s ∈ samplePoints sphereOps a := by
      by_cases ho : a.tractOverlap = 0
      · exact ⟨v₀, by rw [C12_sample_points]; exact Or.inl ⟨cs, ha, ho, hv₀⟩⟩
      · exact ⟨_, DodecaSkyMap.vertex_sample ha hv₀ (i := 0) (by norm_num) ho⟩
    obtain ⟨s, hs⟩ := this
    exact List.ne_nil_of_mem hs
  obtain ⟨s₀, hs₀, hmax⟩ : ∃ s₀ ∈ samplePoints sphereOps a, ∀ s ∈ samplePoints sphereOps a,
      U ⬝ᵥ s.getVector / (C ⬝ᵥ s.getVector) ≤ U ⬝ᵥ s₀.getVector / (C ⬝ᵥ s₀.getVector) := by
    clear front
    generalize samplePoints sphereOps a = L at hsne
    induction L with
    | nil => exact absurd rfl hsne
    | cons v vs ih =>
      by_cases h0 : vs = []
      · subst h0; exact ⟨v, by simp, by simp⟩
      · obtain ⟨v', m, hm⟩ := ih h0
        rcases le_total (U ⬝ᵥ v.getVector / (C ⬝ᵥ v.getVector)) (U ⬝ᵥ v'.getVector / (C ⬝ᵥ v'.getVector)) with hl | hl
        · exact ⟨v', by simp [m], fun x hx => (List.mem_cons.1 hx).elim (fun e => e ▸ hl) (hm x)⟩
        · exact ⟨v, by simp, fun x hx => (List.mem_cons.1 hx).elim (fun e => e ▸ le_rfl) (fun h => (hm x h).trans hl)⟩
  refine ⟨s₀, hs₀, front s₀ hs₀, ?_⟩
  simp only [Projection.along]
  set μ := U ⬝ᵥ s₀.getVector / (C ⬝ᵥ s₀.getVector)
  have hWs : ∀ s ∈ samplePoints sphereOps a, (U - μ • C) ⬝ᵥ s.getVector ≤ 0 := by
    intro s hs
    have := hmax s hs
    rw [div_le_iff₀ (front s hs)] at this
    rw [sub_dotProduct, smul_dotProduct, smul_eq_mul]
    linarith
  have hWq : (U - μ • C) ⬝ᵥ q.getVector ≤ 0 := by
    refine near_side (ε := margin ov) (by linarith) (by linarith) hpq _ ?_
    refine hull_depth hu hp _ (mul_nonneg (sin_nonneg_of_nonneg_of_le_pi (by linarith) (by linarith)) (sqrt_nonneg _)) ?_
    intro v' hv'
    obtain ⟨v, hv, rfl⟩ := List.mem_map.1 hv'
    by_cases ho : a.tractOverlap = 0
    · have : margin ov = 0 := by rw [hovd, ho]; simp [margin]
      rw [this, sin_zero, zero_mul, neg_zero]
      exact hWs v (by rw [C12_sample_points]; exact Or.inl ⟨cs, ha, ho, hv⟩)
    · exact vertex_depth h0 hov v _ fun i hi => hWs _ (DodecaSkyMap.vertex_sample ha hv hi ho)
  rw [sub_dotProduct, smul_dotProduct, smul_eq_mul] at hWq
  rw [div_le_iff₀ hz]
  linarith

/-- C61 for the dodecahedral sky map with the gnomonic projection: every tract contains every position within the margin of its inner
region, so that adjacent tracts share the strip of twice that width along their common edge. -/
theorem C61_dodeca {tiny ov : ℝ} {o : SetOrder} {w : Bool} {D : Dodecahedron} {l : List (TractArgs (SpherePoint ℝ) ℝ)}
    {ts : List (TractRef (SpherePoint ℝ) ℝ)} (hov0 : 0 ≤ ov) (hov1 : ov ≤ 90) (he : env.Ok) (ht0 : 0 < tiny) (ht1 : tiny ≤ 1 / 10) (ho : o.Ok)
    (hf : WcsFactory.new scale "TAN" θ flipX = .ok f) (hs : 0 < scale)
    (hl : DodecaSkyMap.tracts tiny (f.makeWcs other ⟨0, 0⟩) o w ov = .ok (D, l))
    (hx : 0 < b₀.patchInnerDimensions.x) (hy : 0 < b₀.patchInnerDimensions.y) (hb : EagerSkyMap.buildAll env sphereOps l 0 b₀ = .ok (ts, b))
    {t : TractRef (SpherePoint ℝ) ℝ} (ht : t ∈ ts) (q : SpherePoint ℝ)
    (hq : NearHull t.info.vertexCoordList (margin (ov * (π / 180))) q) : t.info.contains q = true := by
  have hpi := pi_pos
  obtain ⟨k, hk⟩ := List.mem_iff_getElem?.1 ht
  obtain ⟨a, b', hak, hnew⟩ := EagerSkyMap.buildAll_fresh hb hk
  obtain ⟨hD, -, hargs⟩ := DodecaSkyMap.args_ok ht0 ht1 ho hl
  obtain ⟨cs, -, h1, h2, h3, h4, h5, h6⟩ := hargs hak
  have hcs : t.info.vertexCoordList = cs := by
    obtain ⟨mb, bbox, n, -, -, e⟩ := TractInfo.new_inv hnew
    rw [e, h1]
  rw [hcs, ← h5] at hq
  refine C61_hull he hnew hx hy hf hs h6 h1 (by rw [h5]; positivity) (fun v hv => ?_) q hq
  have e := DodecaSkyMap.vertex_face ho hD h3 h4 (List.mem_map_of_mem hv)
  have k0 := DodecaSkyMap.cosV_lo
  have h45 : cos (π / 4) < 0.7946 := by
    rw [cos_pi_div_four, div_lt_iff₀ (by norm_num), sqrt_lt' (by norm_num)]; norm_num
  have : greatCircle a.ctrCoord v < π / 4 := by
    unfold greatCircle
    rw [SpherePoint.cosSep_eq, e, ← arccos_cos (x := π / 4) (by linarith) (by linarith)]
    have := cosSep_range a.ctrCoord v
    rw [SpherePoint.cosSep_eq, e] at this
    exact strictAntiOn_arccos ⟨by linarith [neg_one_le_cos (π / 4)], by linarith [cos_le_one (π / 4)]⟩ ⟨this.1, this.2⟩ (by linarith)
  rw [h5]
  nlinarith

/-- C61 for HEALPix sky maps: tract `k`, accessed after any history, contains every position within the margin of the spherical polygon of its
vertices. -/
theorem C61_healpix {hpg : HpGeom ℝ} {c : HealpixConfig ℝ} {m : CachingDef (SpherePoint ℝ) ℝ} (he : env.Ok)
    (hx : 0 < b₀.patchInnerDimensions.x) (hy : 0 < b₀.patchInnerDimensions.y)
    (hf : WcsFactory.new scale "TAN" θ flipX = .ok f) (hs : 0 < scale)
    (hm : HealpixSkyMap.cachingDef π env sphereOps hpg (f.makeWcs other ⟨0, 0⟩) c = .ok m) {s s' : MapState (SpherePoint ℝ) ℝ}
    (h : (CachingSkyMap.skyMapOps m).After (CachingSkyMap.init m b₀) s) {k : Int} {r : TractRef (SpherePoint ℝ) ℝ}
    (hg : CachingSkyMap.getItem m k s = (.ok r, s')) (h0 : 0 ≤ c.tractOverlap)
    (h1 : ∀ v ∈ r.info.vertexCoordList, greatCircle r.info.ctrCoord v + c.tractOverlap / 2 < π / 2) (q : SpherePoint ℝ)
    (hq : NearHull r.info.vertexCoordList (margin c.tractOverlap) q) : r.info.contains q = true := by
  obtain ⟨j, rfl, -, b, hfr, -, -⟩ := fresh_of_getItem h hg
  obtain ⟨-, e⟩ := healpix_def_inv hm
  unfold CachingSkyMap.fresh at hfr
  cases ha : m.tractArgs (j : Int) with
  | error e => rw [ha] at hfr; simp at hfr
  | ok a =>
    rw [ha] at hfr
    obtain ⟨mb, bbox, n, -, -, e2⟩ := TractInfo.new_inv hfr
    rw [e] at ha hfr
    dsimp only at ha hfr
    obtain ⟨ang, -, ha⟩ := bindOk ha
    obtain ⟨ctr, -, ha⟩ := bindOk ha
    obtain ⟨bnd, -, ha⟩ := bindOk ha
    obtain ⟨vs, -, ha⟩ := bindOk ha
    simp only [pure, Except.pure, Except.ok.injEq] at ha
    subst ha
    rw [e2] at h1 hq
    exact C61_hull he hfr hx hy hf hs rfl rfl h0 h1 q hq

/-- C61 is not vacuous: with an overlap of 2 degrees, dodecahedral sky maps of gnomonic tracts are built, and tract 3 contains the
positions within 0.99 degrees of its vertices. -/
example (other) : ∃ f D l ts b t, WcsFactory.new (0.2 / 3600 * (π / 180)) "TAN" 1 false = .ok f ∧
    DodecaSkyMap.tracts (1 / 1000) (f.makeWcs other ⟨0, 0⟩) ascending false 2 = .ok (D, l) ∧
    EagerSkyMap.buildAll Ex.realEnv sphereOps l 0 ⟨.legacy, ⟨4000, 4000⟩, 250, none⟩ = .ok (ts, b) ∧ ts[3]? = some t ∧
    t.info.vertexCoordList ≠ [] ∧ ∀ v ∈ t.info.vertexCoordList, ∀ q, greatCircle v q ≤ 0.99 * (π / 180) → t.info.contains q = true := by
  have hp := pi_pos
  have hs : (0 : ℝ) < 0.2 / 3600 * (π / 180) := by positivity
  obtain ⟨f, hf⟩ := (WcsFactory.C56_projection_length (0.2 / 3600 * (π / 180)) "TAN" 1 false).2 rfl
  obtain ⟨D, l, ts, b, h1, h2⟩ := DodecaSkyMap.C60_builds (other := other) (tiny := 1 / 1000) (o := ascending) (w := false) (ov := 2)
    (env := Ex.realEnv) (b₀ := ⟨.legacy, ⟨4000, 4000⟩, 250, none⟩) (.inl ⟨rfl, by norm_num, by norm_num⟩) (by norm_num) (by norm_num)
    ascending_ok hf hs (by decide) (by decide)
  obtain ⟨-, hlen, htr⟩ := DodecaSkyMap.C36_tracts (by norm_num) (by norm_num) ascending_ok h1 (by decide) (by decide) h2
  obtain ⟨t, ht, -, -, e⟩ := htr 3 (by norm_num)
  refine ⟨f, D, l, ts, b, t, hf, h1, h2, ht, ?_, fun v hv q hq => ?_⟩
  · have hD := (DodecaSkyMap.args_ok (by norm_num) (by norm_num) ascending_ok h1).1
    obtain ⟨-, vs', -, e1, e2, -⟩ := C37_getVertices ascending_ok hD 3 (by norm_num)
    intro h
    rw [h] at e
    rw [show ((3 : ℕ) : ℤ) = 3 from rfl] at e e1
    rw [e, Except.ok.injEq] at e1
    rw [← e1] at e2
    simp at e2
  · refine C61_dodeca (other := other) (ov := 2) (by norm_num) (by norm_num) Ex.realEnv_ok (by norm_num) (by norm_num) ascending_ok hf hs h1 (by decide) (by decide) h2
      (List.mem_of_getElem? ht) q ⟨v, InCone.mem (List.mem_map_of_mem hv), hq.trans ?_⟩
    have := (C61_margin (ov := 2 * (π / 180)) (by positivity) (by linarith)).1
    linarith

end Skymap
