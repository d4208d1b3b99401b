import Verif.Model.DodecaNonFinite
import Verif.Props.Dodeca

/-! # C83: coordinates that are not positions, for dodecahedral sky maps -/

namespace Skymap
namespace DodecaSkyMap
open Dodeca Matrix Dodecahedron

variable {env : FloatEnv ℝ} {b₀ b : TractBuilder} {tiny ov : ℝ} {o : SetOrder} {w : Bool}
  {D : Dodecahedron} {l : List (TractArgs (SpherePoint ℝ) ℝ)} {ts : List (TractRef (SpherePoint ℝ) ℝ)}
  {mk : SpherePoint ℝ → Wcs (SpherePoint ℝ) ℝ} {ops : SkyOps (SpherePoint ℝ) ℝ}

theorem dot_fin (f : Vec3) (x y : ℝ) :
    XFloat.dot f (XFloat.getVector ⟨.fin x, .fin y⟩) = some (f ⬝ᵥ (⟨x, y⟩ : SpherePoint ℝ).getVector) := by
  simp [XFloat.dot, XFloat.getVector, XFloat.app, XFloat.mulN, XFloat.addN, SpherePoint.getVector, dotProduct, Fin.sum_univ_three]

theorem dot_nan (f : Vec3) {p : SpherePoint (XFloat ℝ)} (h : ∀ x y, p ≠ ⟨.fin x, .fin y⟩) : XFloat.dot f (XFloat.getVector p) = none := by
  obtain ⟨lon, lat⟩ := p
  cases lon <;> cases lat <;> simp [XFloat.dot, XFloat.getVector, XFloat.app, XFloat.mulN, XFloat.addN] at h ⊢

/-- C83: for finite coordinates this is the `findTract` of the other properties. -/
theorem C83_dodeca_finite {σ : Type} (D : Dodecahedron) (M : SkyMapOps σ (SpherePoint ℝ) ℝ) (x y : ℝ) :
    findTractX D M ⟨.fin x, .fin y⟩ = findTract D M ⟨x, y⟩ := by
  have h1 : D.getFaceIndX (XFloat.getVector ⟨.fin x, .fin y⟩) = D.getFaceInd (⟨x, y⟩ : SpherePoint ℝ).getVector := by
    have e : (D.faceVecList.map fun f => XFloat.dot f (XFloat.getVector ⟨.fin x, .fin y⟩)) =
        (D.faceVecList.map fun f => f ⬝ᵥ (⟨x, y⟩ : SpherePoint ℝ).getVector).map some := by
      rw [List.map_map]
      exact List.map_congr_left fun f _ => dot_fin f x y
    have e2 : ∀ m : List ℝ, XFloat.npArgmax (m.map some) = Dodeca.npArgmax m := by
      intro m
      unfold XFloat.npArgmax
      have h : (m.map some).findIdx? (fun x => x.isNone) = none := by
        rw [List.findIdx?_eq_none_iff]; intro x hx; obtain ⟨a, -, rfl⟩ := List.mem_map.1 hx; rfl
      rw [h]
      simp
    unfold getFaceIndX
    rw [e, e2]; rfl
  unfold findTractX findTract
  rw [h1]

/-- C83: for every coordinate that `SpherePoint` accepts, `findTract` of a dodecahedral sky map is the `findTract` of the other properties if
both angles are numbers, and silently returns the first tract if one of them is NaN, whatever the other one is. -/
theorem C83_dodeca (ht0 : 0 < tiny) (ht1 : tiny ≤ 1 / 10) (ho : o.Ok)
    (hl : tracts tiny mk o w ov = .ok (D, l)) (hx : 0 < b₀.patchInnerDimensions.x) (hy : 0 < b₀.patchInnerDimensions.y)
    (hb : EagerSkyMap.buildAll env ops l 0 b₀ = .ok (ts, b)) (A : FloatArith ℝ) {lon lat : XFloat ℝ} {p : SpherePoint (XFloat ℝ)}
    (hp : XFloat.point A lon lat = .ok p) :
    (∃ x y, p = ⟨.fin x, .fin y⟩ ∧ findTractX D (EagerSkyMap.skyMapOps ts) p b = findTract D (EagerSkyMap.skyMapOps ts) ⟨x, y⟩ b) ∨
    ((p.lon = .nan ∨ p.lat = .nan) ∧
      ∃ t, ts[0]? = some t ∧ t.info.id = 0 ∧ findTractX D (EagerSkyMap.skyMapOps ts) p b = (.ok t, b)) := by
  by_cases hn : ∀ x y, p ≠ ⟨.fin x, .fin y⟩
  · right
    constructor
    · unfold XFloat.point at hp
      split at hp
      · exact absurd hp (by simp)
      · rename_i hc
        simp only [Except.ok.injEq] at hp
        subst hp
        cases lon <;> cases lat <;> simp_all [XFloat.liftMod, XFloat.gt, XFloat.lt]
    obtain ⟨hD, hlen, htr⟩ := C36_tracts ht0 ht1 ho hl hx hy hb
    obtain ⟨t, ht, hid, -⟩ := htr 0 (by norm_num)
    have hl12 : D.faceVecList.length = 12 := by
      obtain ⟨D', M, hD', -, -, h, -⟩ := C37_regular ho w
      rw [hD, Except.ok.injEq] at hD'
      rw [hD']; exact h
    refine ⟨t, ht, hid, ?_⟩
    have h0 : D.getFaceIndX (XFloat.getVector p) = .ok 0 := by
      unfold getFaceIndX XFloat.npArgmax
      match hfl : D.faceVecList, hl12 with
      | f :: rest, _ =>
        simp [List.findIdx?_cons, dot_nan f hn]
    unfold findTractX
    simp only [bind, PyS.bind, h0, PyS.lift]
    simp only [EagerSkyMap.skyMapOps, PyS.lift]
    rw [CachingSkyMap.pyGetItem_nat ht]
  · left
    push Not at hn
    obtain ⟨x, y, rfl⟩ := hn
    exact ⟨x, y, rfl, by rw [C83_dodeca_finite]⟩

/-- The hypotheses are met, with a NaN right ascension at the south pole and with an infinite one, which becomes NaN. -/
example : ∃ (env : FloatEnv ℝ) (ops : SkyOps (SpherePoint ℝ) ℝ) (mk : SpherePoint ℝ → Wcs (SpherePoint ℝ) ℝ) (o : SetOrder)
    (D : Dodecahedron) (l : List (TractArgs (SpherePoint ℝ) ℝ)) (ts : List (TractRef (SpherePoint ℝ) ℝ)) (b : TractBuilder) (A : FloatArith ℝ),
    o.Ok ∧ tracts (1 / 1000) mk o false (7 / 2) = .ok (D, l) ∧ EagerSkyMap.buildAll env ops l 0 Ex.legacy = .ok (ts, b) ∧
    XFloat.point A .nan (.fin (-(A.pi / 2))) = .ok ⟨.nan, .fin (-(A.pi / 2))⟩ ∧ XFloat.point A .inf (.fin 0) = .ok ⟨.nan, .fin 0⟩ := by
  obtain ⟨D, l, ts, b, h1, h2⟩ := C36_builds (tiny := 1 / 1000) (ov := 7 / 2) (w := false) (b₀ := Ex.legacy) (o := ascending)
    (env := ⟨id, fun x => x + 1, ⟨0, 0⟩⟩) (ops := ⟨fun c b r => ⟨c.lon + b / 1000 * r, c.lat + r⟩, greatCircle⟩)
    (mk := fun _ => ⟨fun c => .pix ⟨100 * c.lon, 100 * c.lat⟩, fun q => ⟨q.x / 100, q.y / 100⟩⟩)
    (by norm_num) (by norm_num) ascending_ok (by decide) (by decide) (fun _ _ => ⟨_, rfl⟩)
  refine ⟨_, _, _, _, D, l, ts, b, FloatArith.exact, ascending_ok, h1, h2, ?_, ?_⟩ <;>
    simp [XFloat.point, XFloat.gt, XFloat.lt, XFloat.liftMod, FloatArith.exact]
  all_goals have := Real.pi_pos
  all_goals try linarith

end DodecaSkyMap
end Skymap
