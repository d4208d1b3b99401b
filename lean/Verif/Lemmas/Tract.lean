import Verif.Lemmas.Builder
import Verif.Lemmas.Grid

/-! # What a constructed tract looks like -/

namespace Skymap
variable {Sky K : Type} [Field K] [LinearOrder K] [FloorRing K]

theorem toBox2I_wf (b : Box2D K) : b.toBox2I.WF := by
  cases b with
  | empty => exact Box2I.empty_wf
  | box lo hi =>
    unfold Box2D.toBox2I
    dsimp only
    split
    · exact Box2I.empty_wf
    · right; constructor <;> dsimp only <;> omega

/-- Inversion of `TractInfo.new`. -/
theorem TractInfo.new_inv {env : FloatEnv K} {ops : SkyOps Sky K} {b₀ b : TractBuilder} {a : TractArgs Sky K}
    {t : TractInfo Sky K} (h : TractInfo.new env ops b₀ a = .ok (t, b)) :
    ∃ mb bbox n, minimumBoundingBox env ops a = .ok mb ∧ b₀.setupPatches mb.toBox2I = .ok (bbox, n, b) ∧
      t = { id := a.id, ctrCoord := a.ctrCoord
            vertexCoordList := match a.shape with
              | .vertices l => l
              | .explicit _ => explicitVertices (finalOrientation bbox a.wcs).1 (finalOrientation bbox a.wcs).2
            tractOverlap := a.tractOverlap, innerBoxCorners := a.innerBoxCorners
            numPatches := n, bbox := (finalOrientation bbox a.wcs).1, wcs := (finalOrientation bbox a.wcs).2 } := by
  unfold TractInfo.new at h
  cases hm : minimumBoundingBox env ops a with
  | error e => rw [hm] at h; simp [bind, Except.bind] at h
  | ok mb =>
    rw [hm] at h
    simp only [bind, Except.bind] at h
    cases hs : b₀.setupPatches mb.toBox2I with
    | error e => rw [hs] at h; simp at h
    | ok r =>
      rw [hs] at h
      simp only [pure, Except.pure, Except.ok.injEq, Prod.mk.injEq] at h
      obtain ⟨rfl, rfl⟩ := h
      exact ⟨mb, r.1, r.2.1, rfl, by rw [hs], rfl⟩

/-- The facts about a newly built tract that the property proofs use. -/
structure TractInfo.Built (t : TractInfo Sky K) (b₀ b : TractBuilder) : Prop where
  ready : b.Ready t.numPatches
  dims : b.patchInnerDimensions = b₀.patchInnerDimensions
  border : b.patchBorder = b₀.patchBorder
  kind : b.kind = b₀.kind
  box : t.bbox = Box2I.mk' ⟨0, 0⟩
    ⟨t.numPatches.x * b.patchInnerDimensions.x, t.numPatches.y * b.patchInnerDimensions.y⟩
  st : b.state = some ⟨t.numPatches, t.bbox⟩

theorem TractInfo.new_built {env : FloatEnv K} {ops : SkyOps Sky K} {b₀ b : TractBuilder} {a : TractArgs Sky K}
    {t : TractInfo Sky K} (h : TractInfo.new env ops b₀ a = .ok (t, b))
    (hx : 0 < b₀.patchInnerDimensions.x) (hy : 0 < b₀.patchInnerDimensions.y) : t.Built b₀ b := by
  obtain ⟨mb, bbox, n, h1, h2, rfl⟩ := TractInfo.new_inv h
  obtain ⟨r1, r2, r3, r4⟩ := TractBuilder.setupPatches_ready b₀ _ (toBox2I_wf mb) hx hy h2
  obtain ⟨bb, nn, e1, e2, e3, e4⟩ := TractBuilder.setupPatches_pos b₀ _ (toBox2I_wf mb) hx hy
  rw [e1] at h2
  simp only [Except.ok.injEq, Prod.mk.injEq] at h2
  obtain ⟨rfl, rfl, rfl⟩ := h2
  have hb : Box2I.mk' ⟨0, 0⟩ bb.dim = Box2I.mk' ⟨0, 0⟩ ⟨nn.x * b₀.patchInnerDimensions.x,
    nn.y * b₀.patchInnerDimensions.y⟩ := by rw [e4]
  refine ⟨r1, r2, r3, r4, ?_, ?_⟩
  · exact hb
  · change some _ = some _
    rw [← hb]
    rfl

omit [Field K] [LinearOrder K] [FloorRing K] in
theorem TractInfo.Built.contains_bbox {t : TractInfo Sky K} {b₀ b : TractBuilder} (h : t.Built b₀ b) (p : Point2I) :
    t.bbox.contains p = true ↔ 0 ≤ p.x ∧ p.x < t.numPatches.x * b.patchInnerDimensions.x ∧
      0 ≤ p.y ∧ p.y < t.numPatches.y * b.patchInnerDimensions.y := by
  rw [h.box]; exact h.ready.contains_tract p

end Skymap
