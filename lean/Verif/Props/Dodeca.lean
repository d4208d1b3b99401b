import Verif.Lemmas.DodecaCone
import Verif.Lemmas.Eager
import Verif.Props.Equat
import Verif.Props.CoordFromVec

/-! # C36: the dodecahedral sky map -/

namespace Skymap
namespace Dodeca
open Matrix Dodecahedron

theorem IsRotation.surj {M : Matrix (Fin 3) (Fin 3) ℝ} (hM : IsRotation M) (u : Vec3) : ∃ w, u = M *ᵥ w := by
  refine ⟨Mᵀ *ᵥ u, ?_⟩
  rw [Matrix.mulVec_mulVec, mul_eq_one_comm.1 hM.1, Matrix.one_mulVec]

/-- A direction is in the cone of a face exactly if no other face is nearer. -/
theorem face_cone {o : SetOrder} (ho : o.Ok) {w : Bool} {D : Dodecahedron} (hD : Dodecahedron.new o w = .ok D) {k : ℕ} {f : Vec3}
    {vs : List Vec3} (hf : D.faceVecList[k]? = some f) (hvs : D.getVertices k = .ok vs) (u : Vec3) :
    InCone vs u ↔ ∀ f' ∈ D.faceVecList, f' ⬝ᵥ u ≤ f ⬝ᵥ u := by
  obtain ⟨M, P, hM, hP, hD', -⟩ := new_spec ho w
  rw [hD, Except.ok.injEq] at hD'
  subst hD'
  dsimp only at hf
  rw [List.getElem?_map, Option.map_eq_some_iff] at hf
  obtain ⟨i, hi, rfl⟩ := hf
  have hi12 : i < 12 := (mem_range_perm hP).1 (List.mem_of_getElem? hi)
  obtain ⟨R, hR, -, hget⟩ := getVertices_eq (w := w) ho hM hi hi12
  rw [hvs, Except.ok.injEq] at hget
  subst hget
  obtain ⟨x, rfl⟩ := hM.surj u
  have e : InCone (R.map fun t => M *ᵥ vtx t) (M *ᵥ x) ↔ InCone ((five i).map vtx) x := by
    constructor
    · intro h
      have h1 := h.map Mᵀ
      rw [Matrix.mulVec_mulVec, hM.1, Matrix.one_mulVec] at h1
      apply h1.mono
      intro v hv
      obtain ⟨v', hv', rfl⟩ := List.mem_map.1 hv
      obtain ⟨t, ht, rfl⟩ := List.mem_map.1 hv'
      rw [Matrix.mulVec_mulVec, hM.1, Matrix.one_mulVec]
      exact InCone.mem (List.mem_map.2 ⟨t, hR.mem_iff.1 ht, rfl⟩)
    · intro h
      apply (h.map M).mono
      intro v hv
      obtain ⟨v', hv', rfl⟩ := List.mem_map.1 hv
      obtain ⟨t, ht, rfl⟩ := List.mem_map.1 hv'
      exact InCone.mem (List.mem_map.2 ⟨t, hR.mem_iff.2 ht, rfl⟩)
  rw [e, cone_iff hi12]
  constructor
  · intro h f' hf'
    obtain ⟨j, hj, rfl⟩ := List.mem_map.1 hf'
    rw [hM.dot, hM.dot]
    exact h j ((mem_range_perm hP).1 hj)
  · intro h j hj
    have := h _ (List.mem_map.2 ⟨j, (mem_range_perm hP).2 hj, rfl⟩)
    rwa [hM.dot, hM.dot] at this

/-- C36: for every direction, `getFaceInd` finds a face; the direction is in the cone of that face's vertices, and in that of no face
with a smaller number. -/
theorem C36_getFaceInd {o : SetOrder} (ho : o.Ok) {w : Bool} {D : Dodecahedron} (hD : Dodecahedron.new o w = .ok D) (u : Vec3) :
    ∃ k : ℕ, k < 12 ∧ D.getFaceInd u = .ok k ∧ (∃ vs, D.getVertices k = .ok vs ∧ InCone vs u) ∧
      ∀ j : ℕ, j < 12 → ∀ vs, D.getVertices j = .ok vs → InCone vs u → k ≤ j := by
  have hlen : D.faceVecList.length = 12 := by
    obtain ⟨D', M, hD', -, -, h, -⟩ := C37_regular ho w
    rw [hD, Except.ok.injEq] at hD'
    rw [hD']; exact h
  obtain ⟨k, m, hk, hm, hmax⟩ := npArgmax_spec (l := D.faceVecList.map fun f => f ⬝ᵥ u) (by
    intro h0
    have := congrArg List.length h0
    simp [hlen] at this)
  rw [List.getElem?_map, Option.map_eq_some_iff] at hm
  obtain ⟨f, hf, rfl⟩ := hm
  have hk12 : k < 12 := by rw [← hlen]; exact (List.getElem?_eq_some_iff.1 hf).1
  obtain ⟨f', vs, hf', hvs, -⟩ := C37_getVertices ho hD k hk12
  refine ⟨k, hk12, hk, ⟨vs, hvs, (face_cone ho hD hf hvs u).2 ?_⟩, ?_⟩
  · intro f'' hf''
    obtain ⟨j, hj⟩ := List.mem_iff_getElem?.1 hf''
    rcases hmax j _ (by rw [List.getElem?_map, hj]; rfl) with h | h
    · exact h.le
    · exact h.1.le
  · intro j hj vs' hvs' hc
    obtain ⟨fj, -, hfj, -⟩ := C37_getVertices ho hD j hj
    have h1 := (face_cone ho hD hfj hvs' u).1 hc f (List.mem_of_getElem? hf)
    rcases hmax j _ (by rw [List.getElem?_map, hfj]; rfl) with h | h
    · exact absurd h1 (not_le.2 h)
    · exact h.2

/-- Every face and vertex is on a pole or well away from the poles. -/
theorem tilt {o : SetOrder} (ho : o.Ok) {w : Bool} {D : Dodecahedron} (hD : Dodecahedron.new o w = .ok D) (v : Vec3)
    (hv : v ∈ D.faceVecList ∨ v ∈ D.vertexVecList) : v 2 ^ 2 = 1 ∨ v 2 ^ 2 ≤ 7 / 10 := by
  have hg1 := g_lo
  have hg2 := g_hi
  have hV := (vertices_eq ho).2
  have h5 : Real.sqrt 5 ^ 2 = 5 := Real.sq_sqrt (by norm_num)
  obtain ⟨n1, n2⟩ := nfv
  -- a face or a vertex against a face
  have ff : ∀ i < 12, ∀ j < 12, (face i ⬝ᵥ face j) ^ 2 = 1 ∨ (face i ⬝ᵥ face j) ^ 2 ≤ 7 / 10 := by
    intro i hi j hj
    by_cases hne : i = j
    · subst hne; rw [face_unit hi]; left; norm_num
    · rw [face_val hj hi hne, face_value]
      split_ifs
      · right; rw [div_pow, h5]; norm_num
      · right; rw [neg_sq, div_pow, h5]; norm_num
      · left; norm_num
  have vf : ∀ t ∈ triples, ∀ i < 12, (face i ⬝ᵥ vtx t) ^ 2 ≤ 7 / 10 := by
    intro t ht i hi
    rw [vf_dot]
    set n := (Real.sqrt (2 + g))⁻¹ * (Real.sqrt (6 + 9 * g))⁻¹
    have hb : |ev (dotZ (faceZ i) (vertZ t))| ≤ 2 + 3 * g := by
      rw [vf_cases t ht i hi, abs_le]
      split_ifs <;> simp only [ev] <;> push_cast <;> constructor <;> linarith
    have h2 : |n * ev (dotZ (faceZ i) (vertZ t))| ≤ 0.82 := by
      rw [abs_mul, abs_of_pos (by linarith)]
      nlinarith [abs_nonneg (ev (dotZ (faceZ i) (vertZ t)))]
    rw [← sq_abs]
    nlinarith [abs_nonneg (n * ev (dotZ (faceZ i) (vertZ t)))]
  have vv : ∀ t ∈ triples, ∀ t' ∈ triples, (vtx t ⬝ᵥ vtx t') ^ 2 = 1 ∨ (vtx t ⬝ᵥ vtx t') ^ 2 ≤ 7 / 10 := by
    intro t ht t' ht'
    by_cases hne : t = t'
    · subst hne; rw [vtx_unit ht]; left; norm_num
    · have hp : (0 : ℝ) < 6 + 9 * g := by linarith
      have ea : ev (4, 7) / (6 + 9 * g) = Real.sqrt 5 / 3 := by rw [← edge_value]; simp [ev]
      have eb : ev (-4, -7) / (6 + 9 * g) = -(Real.sqrt 5 / 3) := by
        rw [← edge_value, ← neg_div]; simp [ev]; ring
      have ec : ev (2, 3) / (6 + 9 * g) = 1 / 3 := by
        rw [div_eq_div_iff hp.ne' (by norm_num)]; simp [ev]; ring
      have ed : ev (-2, -3) / (6 + 9 * g) = -(1 / 3) := by
        rw [div_eq_iff hp.ne']; simp [ev]; ring
      have ee : ev (-6, -9) / (6 + 9 * g) = -1 := by
        rw [div_eq_iff hp.ne']; simp [ev]; ring
      rw [vtx_dot]
      rcases vert_cases t ht t' ht' hne with e | e | e | e | e <;> rw [e]
      · rw [ea]; right; rw [div_pow, h5]; norm_num
      · rw [ec]; right; norm_num
      · rw [eb]; right; rw [neg_sq, div_pow, h5]; norm_num
      · rw [ee]; left; norm_num
      · rw [ed]; right; norm_num
  cases w with
  | true =>
    obtain ⟨M, P, hM, hP, hD', -, h0, -⟩ := new_faces ho
    rw [hD, Except.ok.injEq] at hD'
    subst hD'
    rcases hv with hv | hv
    · obtain ⟨i, hi, rfl⟩ := List.mem_map.1 hv
      rw [third hM h0]
      exact ff i ((mem_range_perm hP).1 hi) 0 (by norm_num)
    · obtain ⟨t, ht, rfl⟩ := List.mem_map.1 hv
      rw [third hM h0, dotProduct_comm]
      exact .inr (vf t (hV.mem_iff.1 ht) 0 (by norm_num))
  | false =>
    obtain ⟨M, P, hM, hP, hD', -, t₀, ht₀, h0, -⟩ := new_vertices ho
    rw [hD, Except.ok.injEq] at hD'
    subst hD'
    rcases hv with hv | hv
    · obtain ⟨i, hi, rfl⟩ := List.mem_map.1 hv
      rw [third hM h0]
      exact .inr (vf t₀ ht₀ i ((mem_range_perm hP).1 hi))
    · obtain ⟨t, ht, rfl⟩ := List.mem_map.1 hv
      rw [third hM h0]
      exact vv t (hV.mem_iff.1 ht) t₀ ht₀

end Dodeca

namespace SpherePoint
open Dodeca Matrix

theorem vector_dot (p q : SpherePoint ℝ) : p.getVector ⬝ᵥ q.getVector = cosSep p q := by
  simp only [getVector, dotProduct, Fin.sum_univ_three, Matrix.cons_val_zero, Matrix.cons_val_one, Matrix.cons_val, cosSep, Real.cos_sub]
  ring

theorem wrap_trig (x : ℝ) : Real.cos (wrapAngle Real.pi x) = Real.cos x ∧ Real.sin (wrapAngle Real.pi x) = Real.sin x := by
  unfold wrapAngle
  exact ⟨Real.cos_sub_int_mul_two_pi x _, Real.sin_sub_int_mul_two_pi x _⟩

/-- The position of a unit vector. -/
theorem ofVector_unit {v : Vec3} (hv : v ⬝ᵥ v = 1) : ∃ p, SpherePoint.ofVector (v 0) (v 1) (v 2) = .ok p ∧ p.getVector = v := by
  have hsq : v 0 ^ 2 + v 1 ^ 2 + v 2 ^ 2 = 1 := by
    rw [← hv]; simp only [dotProduct, Fin.sum_univ_three]; ring
  refine ⟨⟨wrapAngle Real.pi (atan2 (v 1) (v 0)), atan2 (v 2) (Real.sqrt (v 0 ^ 2 + v 1 ^ 2))⟩, ?_, ?_⟩
  · unfold SpherePoint.ofVector
    rw [if_neg]
    rintro ⟨h0, h1, h2⟩
    rw [h0, h1, h2] at hsq
    norm_num at hsq
  · obtain ⟨r, hr0, hr, hx, hy⟩ := atan2_polar (v 1) (v 0)
    obtain ⟨R, hR0, hR, hc, hs⟩ := atan2_polar (v 2) (Real.sqrt (v 0 ^ 2 + v 1 ^ 2))
    have hrs : Real.sqrt (v 0 ^ 2 + v 1 ^ 2) = r := by rw [← hr, Real.sqrt_sq hr0]
    have hR1 : R = 1 := by
      have : R ^ 2 = 1 := by rw [hR, hrs, hr]; linarith
      nlinarith
    rw [hR1, one_mul] at hc hs
    rw [hrs] at hc
    obtain ⟨w1, w2⟩ := wrap_trig (atan2 (v 1) (v 0))
    ext i
    fin_cases i
    · change Real.cos _ * Real.cos _ = v 0
      simp only [w1]; rw [hrs] at *; rw [← hc]; exact hx.symm
    · change Real.cos _ * Real.sin _ = v 1
      simp only [w2]; rw [hrs] at *; rw [← hc]; exact hy.symm
    · change Real.sin _ = v 2
      exact hs.symm

end SpherePoint

namespace DodecaSkyMap
open Dodeca Matrix Dodecahedron

/-- `coordFromVec` gives the position in the direction of the vector. -/
theorem coord_vector {tiny : ℝ} (h0 : 0 < tiny) (h1 : tiny ≤ 1 / 10) {v : Vec3} (hv : v ⬝ᵥ v = 1) (hz : v 2 ^ 2 = 1 ∨ v 2 ^ 2 ≤ 7 / 10)
    (ra : ℝ) : ∃ p, coordFromVec tiny v ra = .ok p ∧ p.getVector = v := by
  have hsq : v 0 ^ 2 + v 1 ^ 2 + v 2 ^ 2 = 1 := by
    rw [← hv]; simp only [dotProduct, Fin.sum_univ_three]; ring
  unfold coordFromVec
  by_cases hp : |v 0| < tiny ∧ |v 1| < tiny
  · have hx : v 0 ^ 2 ≤ 1 / 100 := by rw [← sq_abs]; nlinarith [abs_nonneg (v 0), hp.1]
    have hy : v 1 ^ 2 ≤ 1 / 100 := by rw [← sq_abs]; nlinarith [abs_nonneg (v 1), hp.2]
    have hz1 : v 2 ^ 2 = 1 := by
      rcases hz with h | h
      · exact h
      · linarith
    have hx0 : v 0 = 0 := by nlinarith [sq_nonneg (v 0), sq_nonneg (v 1)]
    have hy0 : v 1 = 0 := by nlinarith [sq_nonneg (v 0), sq_nonneg (v 1)]
    obtain ⟨c1, -⟩ := C54_coordFromVec tiny (Real.pi / 2) SpherePoint.ofVector (v 0) (v 1) (v 2) (some ra)
    obtain ⟨-, c2, c3⟩ := c1 hp.1 hp.2
    rcases (sq_eq_sq_iff_eq_or_eq_neg.1 (hz1.trans (one_pow 2).symm) : v 2 = 1 ∨ v 2 = -1) with h | h
    · refine ⟨_, c2 ra rfl (by rw [h]; norm_num), ?_⟩
      ext i; fin_cases i <;> simp [SpherePoint.getVector, hx0, hy0, h]
    · refine ⟨_, c3 ra rfl (by rw [h]; norm_num), ?_⟩
      ext i; fin_cases i <;> simp [SpherePoint.getVector, hx0, hy0, h]
  · obtain ⟨-, c⟩ := C54_coordFromVec tiny (Real.pi / 2) SpherePoint.ofVector (v 0) (v 1) (v 2) (some ra)
    rw [c (by rw [not_and_or, not_lt, not_lt] at hp; exact hp)]
    exact SpherePoint.ofVector_unit hv

variable {tiny ov : ℝ} {mk : SpherePoint ℝ → Wcs (SpherePoint ℝ) ℝ} {o : SetOrder} {w : Bool} {D : Dodecahedron}
  {l : List (TractArgs (SpherePoint ℝ) ℝ)} {env : FloatEnv ℝ} {ops : SkyOps (SpherePoint ℝ) ℝ} {b₀ b : TractBuilder}
  {ts : List (TractRef (SpherePoint ℝ) ℝ)}

theorem unit_vectors (ho : o.Ok) (hD : Dodecahedron.new o w = .ok D) (v : Vec3) (hv : v ∈ D.faceVecList ∨ v ∈ D.vertexVecList) :
    v ⬝ᵥ v = 1 := by
  obtain ⟨D', M, hD', -, -, -, -, h1, -, -, -, h2, -⟩ := C37_regular ho w
  rw [hD, Except.ok.injEq] at hD'
  subst hD'
  exact hv.elim (h1 v) (h2 v)

/-- The arguments of the constructor of a tract. -/
theorem tract_ok (ht0 : 0 < tiny) (ht1 : tiny ≤ 1 / 10) (ho : o.Ok) (hD : Dodecahedron.new o w = .ok D) (k : ℕ) (hk : k < 12) :
    ∃ a f vs cs, tract tiny mk D ov k = .ok a ∧ a.id = k ∧ D.faceVecList[k]? = some f ∧ a.ctrCoord.getVector = f ∧
      D.getVertices k = .ok vs ∧ a.shape = .vertices cs ∧ cs.map SpherePoint.getVector = vs ∧ a.tractOverlap = ov ∧ a.wcs = mk a.ctrCoord := by
  obtain ⟨f, vs, hf, hvs, -, -, hmem, -⟩ := C37_getVertices ho hD k hk
  have hfm := List.mem_of_getElem? hf
  obtain ⟨c, hc, hcv⟩ := coord_vector ht0 ht1 (unit_vectors ho hD f (.inl hfm)) (tilt ho hD f (.inl hfm)) 0
  have hex : ∀ v ∈ vs, ∃ p, coordFromVec tiny v c.lon = .ok p ∧ p.getVector = v := by
    intro v hv
    have hvm := ((hmem v).1 hv).1
    exact coord_vector ht0 ht1 (unit_vectors ho hD v (.inr hvm)) (tilt ho hD v (.inr hvm)) c.lon
  have hcs : ∃ cs, pyMapM (fun v => coordFromVec tiny v c.lon) vs = .ok cs ∧ cs.map SpherePoint.getVector = vs := by
    clear hmem hvs
    induction vs with
    | nil => exact ⟨[], rfl, rfl⟩
    | cons v vs ih =>
      obtain ⟨p, hp, hpv⟩ := hex v (by simp)
      obtain ⟨cs, h1, h2⟩ := ih fun v hv => hex v (by simp [hv])
      exact ⟨p :: cs, by simp only [pyMapM, hp, h1], by simp [hpv, h2]⟩
  obtain ⟨cs, hcs, hcs'⟩ := hcs
  refine ⟨⟨k, c, .vertices cs, ov, mk c, none⟩, f, vs, cs, ?_, rfl, hf, hcv, hvs, rfl, hcs', rfl, rfl⟩
  unfold tract getFaceCtr
  rw [CachingSkyMap.pyGetItem_nat hf]
  simp only [bind, Except.bind, hc, hvs, hcs]
  rfl

/-- C36: a dodecahedral sky map has twelve tracts, numbered from 0: the centre of tract `k` is the centre of face `k` and the inner region is
given by the vertices of face `k`. -/
theorem C36_tracts (ht0 : 0 < tiny) (ht1 : tiny ≤ 1 / 10) (ho : o.Ok) (hl : tracts tiny mk o w ov = .ok (D, l))
    (hx : 0 < b₀.patchInnerDimensions.x) (hy : 0 < b₀.patchInnerDimensions.y) (hb : EagerSkyMap.buildAll env ops l 0 b₀ = .ok (ts, b)) :
    Dodecahedron.new o w = .ok D ∧ ts.length = 12 ∧ ∀ k : ℕ, k < 12 → ∃ t, ts[k]? = some t ∧ t.info.id = k ∧
      D.faceVecList[k]? = some t.info.ctrCoord.getVector ∧ D.getVertices k = .ok (t.info.vertexCoordList.map SpherePoint.getVector) := by
  unfold tracts at hl
  obtain ⟨D', hD, hl⟩ := bindOk hl
  obtain ⟨l', hl', hl⟩ := bindOk hl
  simp only [pure, Except.pure, Except.ok.injEq, Prod.mk.injEq] at hl
  obtain ⟨rfl, rfl⟩ := hl
  obtain ⟨e1, e2, -⟩ := EagerSkyMap.buildAll_ok hb hx hy
  have hlen : l'.length = 12 := by
    rw [pyMapM_ok_iff] at hl'
    rw [← hl'.length_eq]; rfl
  refine ⟨hD, by omega, fun k hk => ?_⟩
  have hk' : ts[k]? = some (ts[k]'(by omega)) := List.getElem?_eq_getElem _
  obtain ⟨a, g1, g2, b', b'', g3, -⟩ := e2 k _ hk'
  generalize ts[k]'(by omega) = t at *
  obtain ⟨a', f, vs, cs, h1, h2, h3, h4, h5, h6, h7, -⟩ := tract_ok (mk := mk) (ov := ov * (Real.pi / 180)) ht0 ht1 ho hD k hk
  have haa : a = a' := by
    rw [pyMapM_ok_iff, List.forall₂_iff_get] at hl'
    obtain ⟨gl, gall⟩ := hl'
    have := gall k (by rw [gl]; omega) (by omega)
    have hr : (pyRange 0 12).get ⟨k, by rw [gl]; omega⟩ = (k : ℤ) := by
      have := pyRange_getElem? 0 12 k (by omega)
      rw [List.getElem?_eq_some_iff] at this
      obtain ⟨_, h⟩ := this
      simpa using h
    rw [hr, h1, Except.ok.injEq] at this
    rw [this]
    rw [List.getElem?_eq_some_iff] at g1
    obtain ⟨_, h⟩ := g1
    simpa using h.symm
  subst haa
  unfold TractInfo.new at g3
  obtain ⟨mb, -, g3⟩ := bindOk g3
  obtain ⟨r, -, g3⟩ := bindOk g3
  simp only [pure, Except.pure, Except.ok.injEq, Prod.mk.injEq] at g3
  refine ⟨t, hk', by rw [g2, h2], ?_, ?_⟩
  · rw [← g3.1, h3, h4]
  · rw [← g3.1, h6, h5, h7]

/-- C36: for every position, `DodecaSkyMap.findTract` returns the tract whose inner region (the cone of its vertices) contains the position,
the one with the smallest number on a common boundary; it is the tract with the nearest centre that the default `findTract` returns. -/
theorem C36_findTract (hops : ∀ p q, ops.separation p q = greatCircle p q) (ht0 : 0 < tiny) (ht1 : tiny ≤ 1 / 10) (ho : o.Ok)
    (hl : tracts tiny mk o w ov = .ok (D, l)) (hx : 0 < b₀.patchInnerDimensions.x) (hy : 0 < b₀.patchInnerDimensions.y)
    (hb : EagerSkyMap.buildAll env ops l 0 b₀ = .ok (ts, b)) (p : SpherePoint ℝ) :
    ∃ (k : ℕ) (t : TractRef (SpherePoint ℝ) ℝ), findTract D (EagerSkyMap.skyMapOps ts) p b = (.ok t, b) ∧
      BaseSkyMap.findTract ops (EagerSkyMap.skyMapOps ts) p b = (.ok t, b) ∧ ts[k]? = some t ∧
      InCone (t.info.vertexCoordList.map SpherePoint.getVector) p.getVector ∧
      ∀ (j : ℕ) t', ts[j]? = some t' → InCone (t'.info.vertexCoordList.map SpherePoint.getVector) p.getVector → k ≤ j := by
  obtain ⟨hD, hlen, htr⟩ := C36_tracts ht0 ht1 ho hl hx hy hb
  obtain ⟨k, hk, hind, ⟨vs, hvs, hcone⟩, hlow⟩ := C36_getFaceInd ho hD p.getVector
  obtain ⟨t, ht, hid, hf, hv⟩ := htr k hk
  have hlt : ∀ (i : ℕ) t, ts[i]? = some t → i < 12 := by
    intro i t ht; rw [← hlen]; exact (List.getElem?_eq_some_iff.1 ht).1
  rw [hvs, Except.ok.injEq] at hv
  subst hv
  have hlow' : ∀ (j : ℕ) t', ts[j]? = some t' → InCone (t'.info.vertexCoordList.map SpherePoint.getVector) p.getVector → k ≤ j := by
    intro j t' ht' hc
    have hj := hlt j t' ht'
    obtain ⟨t'', ht'', -, -, hv'⟩ := htr j hj
    rw [ht', Option.some.injEq] at ht''
    subst ht''
    exact hlow j hj _ hv' hc
  refine ⟨k, t, ?_, ?_, ht, hcone, hlow'⟩
  · unfold findTract
    simp only [bind, PyS.bind, hind, PyS.lift]
    simp only [EagerSkyMap.skyMapOps, PyS.lift]
    rw [CachingSkyMap.pyGetItem_nat ht]
  · obtain ⟨i, r, hr, hi, hmin⟩ := eager_findTract ops ts env b p (by omega)
    have hi12 := hlt i r hi
    obtain ⟨r', hr', -, hfr, hvr⟩ := htr i hi12
    rw [hi, Option.some.injEq] at hr'
    subst hr'
    have hsep : ∀ (j : ℕ) (t t' : TractRef (SpherePoint ℝ) ℝ), ts[j]? = some t' → (ops.separation p t.info.ctrCoord ≤ ops.separation p t'.info.ctrCoord ↔
        t'.info.ctrCoord.getVector ⬝ᵥ p.getVector ≤ t.info.ctrCoord.getVector ⬝ᵥ p.getVector) := by
      intro j t t' _
      rw [hops, hops, greatCircle_le, ← SpherePoint.vector_dot, ← SpherePoint.vector_dot, dotProduct_comm, dotProduct_comm p.getVector]
    have hci : InCone (r.info.vertexCoordList.map SpherePoint.getVector) p.getVector := by
      rw [face_cone ho hD hfr hvr]
      intro f' hf'
      obtain ⟨j, hj⟩ := List.mem_iff_getElem?.1 hf'
      have hj12 : j < 12 := by
        have hl12 : D.faceVecList.length = 12 := by
          obtain ⟨D', M, hD', -, -, h, -⟩ := C37_regular ho w
          rw [hD, Except.ok.injEq] at hD'
          rw [hD']; exact h
        rw [← hl12]; exact (List.getElem?_eq_some_iff.1 hj).1
      obtain ⟨t', ht', -, hf'', -⟩ := htr j hj12
      rw [hj, Option.some.injEq] at hf''
      rw [hf'', ← hsep j r t' ht']
      rcases hmin j t' ht' with h | h
      · exact h.le
      · exact h.1.le
    have hki := hlow' i r hi hci
    have hsk : ops.separation p t.info.ctrCoord ≤ ops.separation p r.info.ctrCoord := by
      rw [hsep i t r hi]
      exact (face_cone ho hD hf hvs _).1 hcone _ (List.mem_of_getElem? hfr)
    have hik : i = k := by
      rcases hmin k t ht with h | h
      · exact absurd hsk (not_le.2 h)
      · omega
    subst hik
    rw [ht, Option.some.injEq] at hi
    subst hi
    exact hr

/-- C36 is not vacuous: with a projection that is defined everywhere the sky map is built, in both orientations. -/
theorem C36_builds (ht0 : 0 < tiny) (ht1 : tiny ≤ 1 / 10) (ho : o.Ok) (hx : 0 < b₀.patchInnerDimensions.x)
    (hy : 0 < b₀.patchInnerDimensions.y) (hw : ∀ ctr c, ∃ q, (mk ctr).skyToPixel c = .pix q) :
    ∃ D l ts b, tracts tiny mk o w ov = .ok (D, l) ∧ EagerSkyMap.buildAll env ops l 0 b₀ = .ok (ts, b) := by
  obtain ⟨D, -, hD, -⟩ := C37_regular ho w
  have hex : ∀ L : List ℤ, (∀ i ∈ L, ∃ k : ℕ, k < 12 ∧ i = k) → ∃ l, pyMapM (tract tiny mk D (ov * (Real.pi / 180))) L = .ok l ∧
      ∀ a ∈ l, a.wcs = mk a.ctrCoord := by
    intro L hL
    induction L with
    | nil => exact ⟨[], rfl, by simp⟩
    | cons i L ih =>
      obtain ⟨k, hk, rfl⟩ := hL i (by simp)
      obtain ⟨a, f, vs, cs, h1, -, -, -, -, -, -, -, h2⟩ := tract_ok (mk := mk) (ov := ov * (Real.pi / 180)) ht0 ht1 ho hD k hk
      obtain ⟨l, h3, h4⟩ := ih fun i hi => hL i (by simp [hi])
      refine ⟨a :: l, by simp only [pyMapM, h1, h3], ?_⟩
      intro a' ha'
      rcases List.mem_cons.1 ha' with rfl | h
      · exact h2
      · exact h4 a' h
  obtain ⟨l, h1, h2⟩ := hex (pyRange 0 12) (by
    intro i hi
    unfold pyRange at hi
    obtain ⟨k, hk, rfl⟩ := List.mem_map.1 hi
    exact ⟨k, by simpa using hk, by simp⟩)
  obtain ⟨ts, b, h3⟩ := EagerSkyMap.buildAll_total env ops l 0 b₀ hx hy (by
    intro a ha c _
    rw [h2 a ha]
    exact hw _ _)
  refine ⟨D, l, ts, b, ?_, h3⟩
  unfold tracts
  simp only [bind, Except.bind, hD, h1]
  rfl

example : ∃ (env : FloatEnv ℝ) (ops : SkyOps (SpherePoint ℝ) ℝ) (mk : SpherePoint ℝ → Wcs (SpherePoint ℝ) ℝ) (o : SetOrder)
    (D : Dodecahedron) (l : List (TractArgs (SpherePoint ℝ) ℝ)) (ts : List (TractRef (SpherePoint ℝ) ℝ)) (b : TractBuilder),
    (∀ p q, ops.separation p q = greatCircle p q) ∧ o.Ok ∧ tracts (1 / 1000) mk o false (7 / 2) = .ok (D, l) ∧
    EagerSkyMap.buildAll env ops l 0 Ex.legacy = .ok (ts, b) ∧ ts.length = 12 := by
  obtain ⟨D, l, ts, b, h1, h2⟩ := C36_builds (tiny := 1 / 1000) (ov := 7 / 2) (w := false) (b₀ := Ex.legacy) (o := ascending)
    (env := ⟨id, fun x => x + 1, ⟨0, 0⟩⟩) (ops := ⟨fun c b r => ⟨c.lon + b / 1000 * r, c.lat + r⟩, greatCircle⟩)
    (mk := fun _ => ⟨fun c => .pix ⟨100 * c.lon, 100 * c.lat⟩, fun q => ⟨q.x / 100, q.y / 100⟩⟩)
    (by norm_num) (by norm_num) ascending_ok (by decide) (by decide) (fun _ _ => ⟨_, rfl⟩)
  exact ⟨_, _, _, _, D, l, ts, b, fun _ _ => rfl, ascending_ok, h1, h2,
    (C36_tracts (by norm_num) (by norm_num) ascending_ok h1 (by decide) (by decide) h2).2.1⟩

end DodecaSkyMap
end Skymap
