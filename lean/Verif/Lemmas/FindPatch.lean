import Verif.Lemmas.Pixels
import Mathlib.Data.List.Pairwise

/-! # findPatch and findPatchList -/

namespace Skymap
open TractBuilder
variable {Sky K : Type} [Field K] [LinearOrder K] [IsStrictOrderedRing K] [FloorRing K]

theorem nodup_xgrid (a b c d : Int) :
    ((pyRange a b).flatMap fun x => (pyRange c d).map fun y => (⟨x, y⟩ : Index2D)).Nodup := by
  rw [List.nodup_flatMap]
  constructor
  · intro x _
    apply List.Nodup.map _ (pyRange_nodup c d)
    intro y y' h
    simp at h
    exact h
  · apply List.Pairwise.imp _ (pyRange_nodup a b)
    intro x x' hne
    simp only [Function.onFun]
    rw [List.disjoint_left]
    intro i hi hi'
    simp only [List.mem_map] at hi hi'
    obtain ⟨y, -, rfl⟩ := hi
    obtain ⟨y', -, h⟩ := hi'
    simp at h
    exact hne h.1.symm

theorem mem_xgrid {a b c d : Int} {i : Index2D} :
    i ∈ ((pyRange a b).flatMap fun x => (pyRange c d).map fun y => (⟨x, y⟩ : Index2D)) ↔
      a ≤ i.x ∧ i.x < b ∧ c ≤ i.y ∧ i.y < d := by
  simp only [List.mem_flatMap, List.mem_map, mem_pyRange]
  constructor
  · rintro ⟨x, hx, y, hy, rfl⟩; exact ⟨hx.1, hx.2, hy.1, hy.2⟩
  · rintro ⟨h1, h2, h3, h4⟩; exact ⟨i.x, ⟨h1, h2⟩, i.y, ⟨h3, h4⟩, rfl⟩

theorem patchOf_eq {env : FloatEnv K} (he : env.Ok) {b : TractBuilder} (hx : 0 < b.patchInnerDimensions.x)
    (hy : 0 < b.patchInnerDimensions.y) {v : Point2I} (h1 : 0 ≤ v.x) (h2 : 0 ≤ v.y) (h3 : v.x < 2 ^ 53)
    (h4 : v.y < 2 ^ 53) :
    TractInfo.patchOf env b v = .ok ⟨v.x / b.patchInnerDimensions.x, v.y / b.patchInnerDimensions.y⟩ := by
  unfold TractInfo.patchOf TractBuilder.getPatchInnerDimensions
  rw [pyIntTrueDiv_eq he.rnd h1 hx h3, pyIntTrueDiv_eq he.rnd h2 hy h4]
  rfl

/-- The patch holding a pixel. -/
theorem contains_inner_iff {b : TractBuilder} (hx : 0 < b.patchInnerDimensions.x)
    (hy : 0 < b.patchInnerDimensions.y) (i : Index2D) (p : Point2I) :
    (b.patchInnerBBox i).contains p = true ↔
      i = ⟨p.x / b.patchInnerDimensions.x, p.y / b.patchInnerDimensions.y⟩ := by
  rw [patchInnerBBox_eq hx hy, Box2I.contains_iff]
  dsimp only
  constructor
  · rintro ⟨h1, h2, h3, h4⟩
    apply I2.ext'
    · dsimp only; rw [eq_comm, Int.ediv_eq_iff_of_pos hx]; omega
    · dsimp only; rw [eq_comm, Int.ediv_eq_iff_of_pos hy]; omega
  · rintro rfl
    dsimp only
    have a1 := Int.mul_ediv_add_emod p.x b.patchInnerDimensions.x
    have a2 := Int.emod_nonneg p.x (by omega : b.patchInnerDimensions.x ≠ 0)
    have a3 := Int.emod_lt_of_pos p.x hx
    have c1 := Int.mul_ediv_add_emod p.y b.patchInnerDimensions.y
    have c2 := Int.emod_nonneg p.y (by omega : b.patchInnerDimensions.y ≠ 0)
    have c3 := Int.emod_lt_of_pos p.y hy
    rw [mul_comm] at a1 c1
    omega

/-- The pixel rectangle `findPatchList` searches. -/
def searchBox (env : FloatEnv K) (t : TractInfo Sky K) (b : TractBuilder) (cs : List Sky) : Box2I :=
  (((TractInfo.coordBox env.tweak t.wcs cs).toBox2I).grow b.patchBorder).clip t.bbox

theorem findPatchList_spec {env : FloatEnv K} (he : env.Ok) {t : TractInfo Sky K} {b₀ b : TractBuilder}
    (B : t.Built b₀ b) (hb : 0 ≤ b.patchBorder) (sx : t.bbox.dim.x < 2 ^ 53) (sy : t.bbox.dim.y < 2 ^ 53)
    (cs : List Sky) :
    ∃ l, t.findPatchList env b cs = .ok l ∧ l.Nodup ∧
      ∀ pi, pi ∈ l ↔ ∃ i, t.getPatchInfo b (.index2D i) = .ok pi ∧
        ∃ q, pi.innerBBox.contains q = true ∧ (searchBox env t b cs).contains q = true := by
  have hX : t.findPatchList env b cs = if (searchBox env t b cs).isEmpty then .ok []
    else (TractInfo.patchOf env b (searchBox env t b cs).getMin >>= fun ll =>
      TractInfo.patchOf env b (searchBox env t b cs).getMax >>= fun ur =>
      pyMapM (fun i : Index2D => t.getPatchInfo b (.seq [i.x, i.y]))
        ((pyRange ll.x (ur.x + 1)).flatMap fun x => (pyRange ll.y (ur.y + 1)).map fun y => ⟨x, y⟩)) := rfl
  have wf : (searchBox env t b cs).WF := Box2I.clip_wf _ _ (Box2I.grow_wf _ (toBox2I_wf _) _)
  have sub : ∀ q, (searchBox env t b cs).contains q = true → t.bbox.contains q = true :=
    fun q hq => ((Box2I.contains_clip _ _ q).1 hq).2
  rw [hX]
  generalize searchBox env t b cs = X at wf sub
  by_cases hemp : X.isEmpty = true
  · rw [if_pos hemp]
    refine ⟨[], rfl, List.nodup_nil, ?_⟩
    intro pi
    simp only [List.not_mem_nil, false_iff]
    rintro ⟨i, -, q, -, hq⟩
    rw [Box2I.isEmpty_iff] at hemp
    rw [Box2I.contains_iff] at hq
    omega
  · rw [if_neg hemp]
    rw [Box2I.isEmpty_iff] at hemp
    have hpos : 0 < X.dim.x ∧ 0 < X.dim.y := by rcases wf with h | h <;> omega
    have hmin : X.contains X.getMin = true := by
      rw [Box2I.contains_iff]; simp only [Box2I.getMin]; omega
    have hmax : X.contains X.getMax = true := by
      rw [Box2I.contains_iff]; simp only [Box2I.getMax]; omega
    have imin := (B.contains_bbox _).1 (sub _ hmin)
    have imax := (B.contains_bbox _).1 (sub _ hmax)
    have hdx := B.ready.dx
    have hdy := B.ready.dy
    have big : ∀ p, t.bbox.contains p = true → p.x < 2 ^ 53 ∧ p.y < 2 ^ 53 := by
      intro p hp
      have hm : t.bbox.min = ⟨0, 0⟩ := by
        rw [B.box]
        by_cases hz : t.numPatches.x * b.patchInnerDimensions.x = 0 ∨ t.numPatches.y * b.patchInnerDimensions.y = 0
        · rw [Box2I.mk'_zero _ _ hz]; rfl
        · have := (B.contains_bbox _).1 hp
          rw [Box2I.mk'_pos _ _ (by dsimp only; omega) (by dsimp only; omega)]
      rw [Box2I.contains_iff, hm] at hp
      dsimp only at hp
      omega
    have bmin := big _ (sub _ hmin)
    have bmax := big _ (sub _ hmax)
    rw [patchOf_eq he hdx hdy imin.1 imin.2.2.1 bmin.1 bmin.2, patchOf_eq he hdx hdy imax.1 imax.2.2.1 bmax.1 bmax.2]
    simp only [bind, Except.bind]
    have inr : ∀ i ∈ ((pyRange (X.getMin.x / b.patchInnerDimensions.x) (X.getMax.x / b.patchInnerDimensions.x + 1)).flatMap fun x =>
        (pyRange (X.getMin.y / b.patchInnerDimensions.y) (X.getMax.y / b.patchInnerDimensions.y + 1)).map fun y => (⟨x, y⟩ : Index2D)),
        InRange t.numPatches i := by
      intro i hi
      rw [mem_xgrid] at hi
      have h1 := Int.ediv_nonneg imin.1 hdx.le
      have h2 := Int.ediv_nonneg imin.2.2.1 hdy.le
      have h3 := (Int.ediv_lt_iff_lt_mul hdx).2 imax.2.1
      have h4 := (Int.ediv_lt_iff_lt_mul hdy).2 imax.2.2.2
      unfold InRange
      omega
    refine ⟨_, pyMapM_ok_of _ (fun i => b.patchVal t.numPatches i t.wcs) _ ?_, ?_, ?_⟩
    · intro i hi
      exact (getPatchInfo_seq2 _ _ _ _).trans (B.ready.getPatchInfo_ok hb (inr i hi) t.wcs)
    · apply List.Nodup.map _ (nodup_xgrid _ _ _ _)
      intro i j hij
      have := congrArg PatchInfo.index hij
      simpa using this
    · intro pi
      rw [List.mem_map]
      constructor
      · rintro ⟨i, hi, rfl⟩
        refine ⟨i, B.ready.getPatchInfo_ok hb (inr i hi) t.wcs, ?_⟩
        rw [mem_xgrid] at hi
        have e1 := Int.mul_ediv_add_emod X.getMin.x b.patchInnerDimensions.x
        have e2 := Int.emod_nonneg X.getMin.x (by omega : b.patchInnerDimensions.x ≠ 0)
        have e3 := Int.emod_lt_of_pos X.getMin.x hdx
        have f1 := Int.mul_ediv_add_emod X.getMin.y b.patchInnerDimensions.y
        have f2 := Int.emod_nonneg X.getMin.y (by omega : b.patchInnerDimensions.y ≠ 0)
        have f3 := Int.emod_lt_of_pos X.getMin.y hdy
        have g1 := Int.mul_ediv_add_emod X.getMax.x b.patchInnerDimensions.x
        have g2 := Int.emod_nonneg X.getMax.x (by omega : b.patchInnerDimensions.x ≠ 0)
        have g3 := Int.emod_lt_of_pos X.getMax.x hdx
        have k1 := Int.mul_ediv_add_emod X.getMax.y b.patchInnerDimensions.y
        have k2 := Int.emod_nonneg X.getMax.y (by omega : b.patchInnerDimensions.y ≠ 0)
        have k3 := Int.emod_lt_of_pos X.getMax.y hdy
        have m1 : b.patchInnerDimensions.x * (X.getMin.x / b.patchInnerDimensions.x) ≤ b.patchInnerDimensions.x * i.x := Int.mul_le_mul_of_nonneg_left (by omega) (by omega)
        have m2 : b.patchInnerDimensions.x * i.x ≤ b.patchInnerDimensions.x * (X.getMax.x / b.patchInnerDimensions.x) := Int.mul_le_mul_of_nonneg_left (by omega) (by omega)
        have m3 : b.patchInnerDimensions.y * (X.getMin.y / b.patchInnerDimensions.y) ≤ b.patchInnerDimensions.y * i.y := Int.mul_le_mul_of_nonneg_left (by omega) (by omega)
        have m4 : b.patchInnerDimensions.y * i.y ≤ b.patchInnerDimensions.y * (X.getMax.y / b.patchInnerDimensions.y) := Int.mul_le_mul_of_nonneg_left (by omega) (by omega)
        have n1 : i.x * b.patchInnerDimensions.x = b.patchInnerDimensions.x * i.x := mul_comm _ _
        have n2 : i.y * b.patchInnerDimensions.y = b.patchInnerDimensions.y * i.y := mul_comm _ _
        refine ⟨⟨max (i.x * b.patchInnerDimensions.x) X.getMin.x, max (i.y * b.patchInnerDimensions.y) X.getMin.y⟩, ?_, ?_⟩
        · rw [patchVal_inner, patchInnerBBox_eq hdx hdy, Box2I.contains_iff]
          dsimp only
          refine ⟨by omega, ?_, by omega, ?_⟩
          · apply max_lt (by omega)
            by_contra hcon
            have : i.x + 1 ≤ X.getMin.x / b.patchInnerDimensions.x := by
              rw [Int.le_ediv_iff_mul_le hdx]
              have : (i.x + 1) * b.patchInnerDimensions.x = i.x * b.patchInnerDimensions.x + b.patchInnerDimensions.x := by ring
              omega
            omega
          · apply max_lt (by omega)
            by_contra hcon
            have : i.y + 1 ≤ X.getMin.y / b.patchInnerDimensions.y := by
              rw [Int.le_ediv_iff_mul_le hdy]
              have : (i.y + 1) * b.patchInnerDimensions.y = i.y * b.patchInnerDimensions.y + b.patchInnerDimensions.y := by ring
              omega
            omega
        · rw [Box2I.contains_iff]
          simp only [Box2I.getMin, Box2I.getMax] at *
          omega
      · rintro ⟨i, h1, q, h2, h3⟩
        obtain ⟨hr, rfl⟩ := (B.ready.getPatchInfo_iff hb _ t.wcs _).1 h1
        refine ⟨i, ?_, rfl⟩
        rw [patchVal_inner, contains_inner_iff hdx hdy] at h2
        rw [mem_xgrid, h2]
        rw [Box2I.contains_iff] at h3
        dsimp only
        simp only [Box2I.getMin, Box2I.getMax]
        refine ⟨Int.ediv_le_ediv hdx h3.1, ?_, Int.ediv_le_ediv hdy h3.2.2.1, ?_⟩
        · rw [Int.lt_add_one_iff]; exact Int.ediv_le_ediv hdx (by omega)
        · rw [Int.lt_add_one_iff]; exact Int.ediv_le_ediv hdy (by omega)

end Skymap
