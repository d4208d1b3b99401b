import Verif.Props.RegisterMaps
import Verif.Lemmas.Generate

/-! # Sky maps whose tracts are all built by the constructor -/

set_option linter.unusedSectionVars false

namespace Skymap

/-- `findTract` of a sky map with a non-empty list of tracts: it returns, changes nothing, and the tract is the first of the nearest. -/
theorem eager_findTract {Sky K : Type} [Field K] [LinearOrder K] [FloorRing K] (ops : SkyOps Sky K) (ts : List (TractRef Sky K))
    (env : FloatEnv K) (b : TractBuilder) (p : Sky) (h : 0 < ts.length) :
    ∃ (k : Nat) (t : TractRef Sky K), BaseSkyMap.findTract ops (EagerSkyMap.skyMapOps ts) p b = (.ok t, b) ∧ ts[k]? = some t ∧
      ∀ (j : Nat) t', ts[j]? = some t' → ops.separation p t.info.ctrCoord < ops.separation p t'.info.ctrCoord ∨
        (ops.separation p t.info.ctrCoord = ops.separation p t'.info.ctrCoord ∧ k ≤ j) := by
  have item : ∀ (i : Nat) t s, (EagerSkyMap.skyMapOps ts).getItem i s = (.ok t, s) ↔ ts[i]? = some t := by
    intro i t s
    simp only [EagerSkyMap.skyMapOps, PyS.lift, Prod.mk.injEq, and_true]
    constructor
    · intro hg
      by_cases hi : i < ts.length
      · rw [CachingSkyMap.pyGetItem_nat (List.getElem?_eq_getElem hi), Except.ok.injEq] at hg
        rw [← hg]; exact List.getElem?_eq_getElem hi
      · unfold pyGetItem at hg
        have h2 : ¬ ((i : Int) < 0) := by omega
        simp [h2, hi] at hg
    · exact CachingSkyMap.pyGetItem_nat
  obtain ⟨r, s', hr⟩ := (C22_total (M := EagerSkyMap.skyMapOps ts) (s := b) ops p).2 h (by
    intro i hi s₁ _
    exact ⟨ts[i]'hi, s₁, (item _ _ _).2 (List.getElem?_eq_getElem hi)⟩)
  have hs : s' = b := by
    apply eager_state ts
    have := (findTract_finder (M := EagerSkyMap.skyMapOps ts) ops env (Search_permanent_eager ts b).1).1.only p b
    rw [hr] at this
    exact this
  subst hs
  obtain ⟨k, hk, hg, hmin⟩ := C22_nearest ops (Search_permanent_eager ts s').1 p r hr
  refine ⟨k, r, hr, (item _ _ _).1 hg, ?_⟩
  intro j t' ht'
  obtain ⟨r', h1, h2⟩ := hmin j (List.getElem?_eq_some_iff.1 ht').1
  rw [item, ht', Option.some.injEq] at h1
  subst h1
  exact h2

/-- Building all tracts succeeds if every point that sizes a tract is projected to a pixel. -/
theorem EagerSkyMap.buildAll_total {Sky K : Type} [Field K] [LinearOrder K] [IsStrictOrderedRing K] [FloorRing K] (env : FloatEnv K) (ops : SkyOps Sky K)
    (l : List (TractArgs Sky K)) (m : Nat) (b₀ : TractBuilder) (hx : 0 < b₀.patchInnerDimensions.x)
    (hy : 0 < b₀.patchInnerDimensions.y) (hw : ∀ a ∈ l, ∀ c ∈ samplePoints ops a, ∃ q, a.wcs.skyToPixel c = .pix q) :
    ∃ ts b, EagerSkyMap.buildAll env ops l m b₀ = .ok (ts, b) := by
  induction l generalizing m b₀ with
  | nil => exact ⟨_, _, rfl⟩
  | cons a l ih =>
    obtain ⟨⟨t, b'⟩, ht⟩ := TractInfo.new_total env ops b₀ a hx hy (hw a (by simp))
    have hd := (TractInfo.new_built ht hx hy).dims
    obtain ⟨ts, b, h3⟩ := ih (m + 1) b' (by rw [hd]; exact hx) (by rw [hd]; exact hy) fun a' ha' => hw a' (by simp [ha'])
    refine ⟨⟨m, t⟩ :: ts, b, ?_⟩
    rw [EagerSkyMap.buildAll, ht]
    simp only [bind, Except.bind]
    rw [h3]
    rfl

end Skymap
