import Verif.Model.FloatIndex
import Verif.Spec.ExampleMap
import Verif.Lemmas.SkyMap
import Mathlib.Tactic.NormNum

/-!
# C89: an index that is a float never gives a tract, a patch or a cell
-/

namespace Skymap

variable {K : Type}

/-- The index consists of one or two numbers of which one is a float. -/
def IndexArgX.HasFloat : IndexArgX K → Prop
  | .index2D i => (∃ x, i.x = .float x) ∨ ∃ x, i.y = .float x
  | .number v => ∃ x, v = .float x
  | .seq l => ∃ x, PyNum.float x ∈ l

/-- An index that consists of ints. -/
def IndexArg.toX : IndexArg → IndexArgX K
  | .index2D i => .index2D ⟨.int i.x, .int i.y⟩
  | .number n => .number (.int n)
  | .seq l => .seq (l.map .int)

/-- `0 <= v < n`, a float being compared by its value; NaN and infinities are in no range. -/
def PyNum.Within [Field K] [LinearOrder K] (v : PyNum K) (n : Int) : Prop :=
  match v with
  | .int m => 0 ≤ m ∧ m < n
  | .float (.fin x) => 0 ≤ x ∧ x < (n : K)
  | .float _ => False

section
variable [Field K] [LinearOrder K] [FloorRing K]

omit [FloorRing K] in
theorem PyNum.inRange_iff (v : PyNum K) (n : Int) : v.inRange n = true ↔ v.Within n := by
  cases v with
  | int m => simp [PyNum.inRange, PyNum.Within]
  | float x => cases x <;> simp [PyNum.inRange, PyNum.Within, XFloat.ge, XFloat.lt]

end

/-- C89: on ints these are the functions of the other properties. -/
theorem C89_ints [Field K] [LinearOrder K] [FloorRing K] (F : PyFloatOps K) {W : Type} (b : TractBuilder) (p : PatchInfo W) (w : W) :
    (∀ a, b.getPatchInfoX F a.toX w = b.getPatchInfo a w) ∧ (∀ a, p.getCellInfoX F a.toX = p.getCellInfo a) ∧
    (∀ n, b.getPatchIndexPairX F (.int n) = (b.getPatchIndexPair n).map fun i => ⟨.int i.x, .int i.y⟩) ∧
    (∀ n, p.getCellIndexPairX F (.int n) = (p.getCellIndexPair n).map fun i => ⟨.int i.x, .int i.y⟩) ∧
    (∀ a, b.getSequentialPatchIndexFromPairX F a.toX = (b.getSequentialPatchIndexFromPair a).map .int) ∧
    ∀ a, p.getSequentialCellIndexFromPairX F a.toX = (p.getSequentialCellIndexFromPair a).map .int := by
  have hseq : ∀ l : List Int, Index2DX.ofSeq (l.map (PyNum.int (K := K))) = (Index2D.ofSeq l).map fun i => ⟨.int i.x, .int i.y⟩ := by
    intro l
    match l with
    | [] => rfl
    | [_] => rfl
    | [_, _] => rfl
    | _ :: _ :: _ :: _ => rfl
  have h3 : ∀ n, b.getPatchIndexPairX F (.int n) = (b.getPatchIndexPair n).map fun i => ⟨.int i.x, .int i.y⟩ := by
    intro n
    unfold TractBuilder.getPatchIndexPairX TractBuilder.getPatchIndexPair
    cases b.getState with
    | error e => rfl
    | ok st =>
      simp only [bind, Except.bind, PyNum.mod, PyNum.floorDiv, pyMod, pyFloorDiv]
      split_ifs <;> rfl
  have h4 : ∀ n, p.getCellIndexPairX F (.int n) = (p.getCellIndexPair n).map fun i => ⟨.int i.x, .int i.y⟩ := by
    intro n
    unfold PatchInfo.getCellIndexPairX PatchInfo.getCellIndexPair
    split_ifs with h
    · rfl
    · simp only [bind, Except.bind, PyNum.mod, PyNum.floorDiv, pyMod, pyFloorDiv]
      split_ifs <;> rfl
  refine ⟨?_, ?_, h3, h4, ?_, ?_⟩
  · intro a
    have hr : b.resolveX F a.toX = (b.resolve a).map fun i => ⟨.int i.x, .int i.y⟩ := by
      cases a with
      | index2D i => rfl
      | number n => exact h3 n
      | seq l => exact hseq l
    unfold TractBuilder.getPatchInfoX
    rw [hr]
    unfold TractBuilder.getPatchInfo
    cases b.state with
    | none => rfl
    | some st =>
      cases b.resolve a with
      | error e => rfl
      | ok i =>
        simp only [bind, Except.bind, Except.map, PyNum.inRange, Index2DX.toCInts, PyNum.toCInt, PyNum.mul, TractBuilder.resolve,
          Bool.or_eq_true, Bool.not_eq_true', decide_eq_false_iff_not, pure, Except.pure]
        split_ifs <;> rfl
  · intro a
    have hr : p.resolveCellX F a.toX = (p.resolveCell a).map fun i => ⟨.int i.x, .int i.y⟩ := by
      cases a with
      | index2D i => rfl
      | number n => exact h4 n
      | seq l => exact hseq l
    unfold PatchInfo.getCellInfoX
    rw [hr]
    unfold PatchInfo.getCellInfo
    split_ifs with h
    · rfl
    · cases p.resolveCell a with
      | error e => rfl
      | ok i =>
        simp only [bind, Except.bind, Except.map, PyNum.inRange, Index2DX.toCInts, PyNum.toCInt, PyNum.mul, PyNum.add, PatchInfo.resolveCell,
          Bool.or_eq_true, Bool.not_eq_true', decide_eq_false_iff_not, pure, Except.pure]
        split_ifs <;> rfl
  · intro a
    cases a with
    | index2D i => cases h : b.getState <;> simp [TractBuilder.getSequentialPatchIndexFromPairX, TractBuilder.getSequentialPatchIndexFromPair,
        IndexArg.toX, h, bind, Except.bind, Except.map, PyNum.mul, PyNum.add, pure, Except.pure]
    | number n => rfl
    | seq l =>
      simp only [TractBuilder.getSequentialPatchIndexFromPairX, TractBuilder.getSequentialPatchIndexFromPair, IndexArg.toX, List.length_map]
      split_ifs
      · rfl
      · rw [hseq]
        cases Index2D.ofSeq l with
        | error e => rfl
        | ok i => cases b.getState <;> rfl
  · intro a
    cases a with
    | index2D i => rfl
    | number n => rfl
    | seq l =>
      simp only [PatchInfo.getSequentialCellIndexFromPairX, PatchInfo.getSequentialCellIndexFromPair, IndexArg.toX, hseq]
      cases Index2D.ofSeq l <;> rfl

set_option linter.unusedSectionVars false

section
variable [Field K] [LinearOrder K] [FloorRing K] (F : PyFloatOps K) {W : Type}

omit [Field K] [LinearOrder K] [FloorRing K] in
/-- A component that is a float is refused by `Point2I`. -/
theorem toCInts_float {i : Index2DX K} (h : (∃ x, i.x = .float x) ∨ ∃ x, i.y = .float x) : i.toCInts = .error .TypeError := by
  obtain ⟨u, v⟩ := i
  rcases h with ⟨x, h⟩ | ⟨x, h⟩ <;> simp only at h <;> subst h
  · rfl
  · cases u <;> rfl

/-- C89: `getPatchInfo` refuses every pair with a float: IndexError if a component is outside the grid, else TypeError. -/
theorem C89_getPatchInfo_pair {b : TractBuilder} {st : BuilderState} (hs : b.state = some st) (u v : PyNum K)
    (h : (∃ x, u = .float x) ∨ ∃ x, v = .float x) (w : W) (a : IndexArgX K) (ha : a = .index2D ⟨u, v⟩ ∨ a = .seq [u, v]) :
    (u.Within st.numPatches.x ∧ v.Within st.numPatches.y → b.getPatchInfoX F a w = .error .TypeError) ∧
    (¬ (u.Within st.numPatches.x ∧ v.Within st.numPatches.y) → b.getPatchInfoX F a w = .error .IndexError) := by
  have hr : b.resolveX F a = .ok ⟨u, v⟩ := by rcases ha with rfl | rfl <;> rfl
  have hm : Index2DX.toCInts ⟨u.mul F b.patchInnerDimensions.x, v.mul F b.patchInnerDimensions.y⟩ = .error .TypeError := by
    apply toCInts_float
    rcases h with ⟨x, rfl⟩ | ⟨x, rfl⟩
    · exact .inl ⟨_, rfl⟩
    · exact .inr ⟨_, rfl⟩
  unfold TractBuilder.getPatchInfoX
  rw [hs]
  simp only [hr, bind, Except.bind, hm, ← PyNum.inRange_iff]
  constructor
  · rintro ⟨h1, h2⟩
    simp [h1, h2]
  · intro hn
    have : (!u.inRange st.numPatches.x || !v.inRange st.numPatches.y) = true := by
      by_contra hc
      simp only [Bool.or_eq_true, Bool.not_eq_true', not_or, Bool.not_eq_false] at hc
      exact hn hc
    simp only [this, ↓reduceIte]
    rfl

/-- C89: `getPatchInfo` never returns a patch for an index with a float: it raises IndexError or TypeError on a builder that has a grid with columns. -/
theorem C89_getPatchInfo {b : TractBuilder} {st : BuilderState} (hs : b.state = some st) (hx : st.numPatches.x ≠ 0) {a : IndexArgX K}
    (h : a.HasFloat) (w : W) : b.getPatchInfoX F a w = .error .IndexError ∨ b.getPatchInfoX F a w = .error .TypeError := by
  have pair : ∀ u v : PyNum K, ((∃ x, u = .float x) ∨ ∃ x, v = .float x) → ∀ a, (a = .index2D ⟨u, v⟩ ∨ a = .seq [u, v]) →
      b.getPatchInfoX F a w = .error .IndexError ∨ b.getPatchInfoX F a w = .error .TypeError := by
    intro u v hf a ha
    obtain ⟨h1, h2⟩ := C89_getPatchInfo_pair F hs u v hf w a ha
    by_cases hc : u.Within st.numPatches.x ∧ v.Within st.numPatches.y
    · exact .inr (h1 hc)
    · exact .inl (h2 hc)
  match a, h with
  | .index2D i, h => exact pair i.x i.y h _ (.inl rfl)
  | .seq [], h => obtain ⟨x, h⟩ := h; simp at h
  | .seq [_], _ => right; unfold TractBuilder.getPatchInfoX; rw [hs]; rfl
  | .seq [u, v], h =>
    refine pair u v ?_ _ (.inr rfl)
    obtain ⟨x, h⟩ := h
    simp only [List.mem_cons, List.not_mem_nil, or_false] at h
    rcases h with h | h
    · exact .inl ⟨x, h.symm⟩
    · exact .inr ⟨x, h.symm⟩
  | .seq (_ :: _ :: _ :: _), _ => right; unfold TractBuilder.getPatchInfoX; rw [hs]; rfl
  | .number v, h =>
    obtain ⟨x, rfl⟩ := h
    have := pair (.float (F.mod x st.numPatches.x)) (.float (F.floorDiv x st.numPatches.x)) (.inl ⟨_, rfl⟩) _ (.inl rfl)
    unfold TractBuilder.getPatchInfoX at this ⊢
    rw [hs] at this ⊢
    simp only [TractBuilder.resolveX, TractBuilder.getPatchIndexPairX, TractBuilder.getState, hs, PyNum.mod, PyNum.floorDiv, if_neg hx, bind,
      Except.bind, pure, Except.pure] at this ⊢
    exact this

/-- C89: likewise `getCellInfo`. -/
theorem C89_getCellInfo (p : PatchInfo W) {a : IndexArgX K} (h : a.HasFloat) :
    p.getCellInfoX F a = .error .IndexError ∨ p.getCellInfoX F a = .error .TypeError := by
  unfold PatchInfo.getCellInfoX
  by_cases h0 : p.numCells.x = 0 ∨ p.numCells.y = 0
  · rw [if_pos h0]; exact .inl rfl
  rw [if_neg h0]
  have add_float : ∀ x : XFloat K, ∀ v, ∃ y, (PyNum.float x).add F v = .float y := fun x v => ⟨_, by cases v <;> rfl⟩
  let rest : Index2DX K → PyM (CellInfo W) := fun i => do
          if !i.x.inRange p.numCells.x || !i.y.inRange p.numCells.y then throw PyErr.IndexError
          let _ ← Index2DX.toCInts
            ⟨((i.x.add F (.int (-p.numCellsInPatchBorder))).mul F p.cellInnerDimensions.x).add F (.int p.innerBBox.getMin.x),
             ((i.y.add F (.int (-p.numCellsInPatchBorder))).mul F p.cellInnerDimensions.y).add F (.int p.innerBBox.getMin.y)⟩
          let i ← i.toCInts
          p.getCellInfo (.index2D i)
  have pair : ∀ i : Index2DX K, ((∃ x, i.x = .float x) ∨ ∃ x, i.y = .float x) →
      rest i = .error .IndexError ∨
      rest i = .error .TypeError := by
    intro i hf
    simp only [rest]
    rw [toCInts_float (i := ⟨((i.x.add F _).mul F _).add F _, _⟩)]
    · by_cases hc : (!i.x.inRange p.numCells.x || !i.y.inRange p.numCells.y) = true
      · simp only [hc, ↓reduceIte]; exact .inl rfl
      · simp only [hc]; exact .inr rfl
    · rcases hf with ⟨x, hf⟩ | ⟨x, hf⟩
      · left
        obtain ⟨y, hy⟩ := add_float x (.int (-p.numCellsInPatchBorder))
        simp only [hf, hy, PyNum.mul]
        exact add_float _ _
      · right
        obtain ⟨y, hy⟩ := add_float x (.int (-p.numCellsInPatchBorder))
        simp only [hf, hy, PyNum.mul]
        exact add_float _ _
  match a, h with
  | .index2D i, h => exact pair i h
  | .seq [], h => obtain ⟨x, h⟩ := h; simp at h
  | .seq [_], _ => exact .inr rfl
  | .seq [u, v], h =>
    refine pair ⟨u, v⟩ ?_
    obtain ⟨x, h⟩ := h
    simp only [List.mem_cons, List.not_mem_nil, or_false] at h
    rcases h with h | h
    · exact .inl ⟨x, h.symm⟩
    · exact .inr ⟨x, h.symm⟩
  | .seq (_ :: _ :: _ :: _), _ => exact .inr rfl
  | .number v, h =>
    obtain ⟨x, rfl⟩ := h
    have := pair ⟨.float (F.mod x p.numCells.x), .float (F.floorDiv x p.numCells.x)⟩ (.inl ⟨_, rfl⟩)
    have h1 : p.numCells.x ≠ 0 := fun h => h0 (.inl h)
    simp only [rest, PatchInfo.resolveCellX, PatchInfo.getCellIndexPairX, if_neg h0, PyNum.mod, PyNum.floorDiv, if_neg h1, bind, Except.bind, pure,
      Except.pure] at this ⊢
    exact this

end

/-- C89: the conversions between pairs and sequential indices do not refuse floats, they return floats: which float is Python's arithmetic. -/
theorem C89_conversions (F : PyFloatOps K) {W : Type} {b : TractBuilder} {st : BuilderState} (hs : b.state = some st) (hx : st.numPatches.x ≠ 0)
    (p : PatchInfo W) (hc : p.numCells.x ≠ 0) (hc' : p.numCells.y ≠ 0) :
    (∀ x, ∃ u v, b.getPatchIndexPairX F (.float x) = .ok ⟨.float u, .float v⟩) ∧
    (∀ x, ∃ u v, p.getCellIndexPairX F (.float x) = .ok ⟨.float u, .float v⟩) ∧
    (∀ u v : PyNum K, ((∃ x, u = .float x) ∨ ∃ x, v = .float x) → ∀ a, (a = .index2D ⟨u, v⟩ ∨ a = .seq [u, v]) →
      (∃ y, b.getSequentialPatchIndexFromPairX F a = .ok (.float y)) ∧ ∃ y, p.getSequentialCellIndexFromPairX F a = .ok (.float y)) := by
  refine ⟨fun x => ⟨F.mod x st.numPatches.x, F.floorDiv x st.numPatches.x, ?_⟩, fun x => ⟨F.mod x p.numCells.x, F.floorDiv x p.numCells.x, ?_⟩, ?_⟩
  · simp [TractBuilder.getPatchIndexPairX, TractBuilder.getState, hs, PyNum.mod, PyNum.floorDiv, hx, bind, Except.bind, pure, Except.pure]
  · simp [PatchInfo.getCellIndexPairX, PyNum.mod, PyNum.floorDiv, hc, hc', bind, Except.bind, pure, Except.pure]
  · intro u v h a ha
    have hf : ∀ n : Int, ∃ y, (v.mul F n).add F u = .float y := by
      intro n
      rcases h with ⟨x, rfl⟩ | ⟨x, rfl⟩
      · cases v <;> exact ⟨_, rfl⟩
      · cases u <;> exact ⟨_, rfl⟩
    obtain ⟨y, hy⟩ := hf st.numPatches.x
    obtain ⟨y', hy'⟩ := hf p.numCells.x
    rcases ha with rfl | rfl
    · exact ⟨⟨y, by simp [TractBuilder.getSequentialPatchIndexFromPairX, TractBuilder.getState, hs, bind, Except.bind, pure, Except.pure, hy]⟩,
        ⟨y', by simp [PatchInfo.getSequentialCellIndexFromPairX, bind, Except.bind, pure, Except.pure, hy']⟩⟩
    · exact ⟨⟨y, by simp [TractBuilder.getSequentialPatchIndexFromPairX, TractBuilder.getState, hs, bind, Except.bind, pure, Except.pure, hy,
          Index2DX.ofSeq]⟩,
        ⟨y', by simp [PatchInfo.getSequentialCellIndexFromPairX, bind, Except.bind, pure, Except.pure, hy', Index2DX.ofSeq]⟩⟩

/-- C89: `skyMap[x]` for a float x raises on every sky map and changes nothing: TypeError, but on the caching classes IndexError for numbers
outside `0 <= x <= len(skyMap)` and OverflowError for infinities. -/
theorem C89_getItem [Field K] [LinearOrder K] [FloorRing K] {Sky : Type} (m : CachingDef Sky K) (s : MapState Sky K)
    (tracts : List (TractRef Sky K)) :
    (∀ x : K, 0 ≤ x ∧ x ≤ (m.numTracts : K) → CachingSkyMap.getItemX m (.float (.fin x)) s = (.error .TypeError, s)) ∧
    (∀ x : K, ¬ (0 ≤ x ∧ x ≤ (m.numTracts : K)) → CachingSkyMap.getItemX m (.float (.fin x)) s = (.error .IndexError, s)) ∧
    CachingSkyMap.getItemX m (.float .nan) s = (.error .TypeError, s) ∧
    CachingSkyMap.getItemX m (.float .inf) s = (.error .OverflowError, s) ∧
    CachingSkyMap.getItemX m (.float .negInf) s = (.error .OverflowError, s) ∧
    (∀ n, CachingSkyMap.getItemX m (.int n) s = CachingSkyMap.getItem m n s) ∧
    (∀ x, EagerSkyMap.getItemX tracts (.float x) = .error .TypeError) ∧
    ∀ n, EagerSkyMap.getItemX tracts (.int n) = pyGetItem tracts n := by
  refine ⟨?_, ?_, rfl, rfl, rfl, fun _ => rfl, fun _ => rfl, fun _ => rfl⟩
  · rintro x ⟨h1, h2⟩
    simp [CachingSkyMap.getItemX, XFloat.lt, XFloat.gt, not_lt.2 h1, not_lt.2 h2]
  · intro x h
    have : x < 0 ∨ (m.numTracts : K) < x := by
      by_contra hc
      rw [not_or, not_lt, not_lt] at hc
      exact h hc
    rcases this with h | h <;> simp [CachingSkyMap.getItemX, XFloat.lt, XFloat.gt, h]

/-! ## Concrete cases -/

/-- Python's arithmetic without rounding, for finite floats. -/
def Ex.floatOps : PyFloatOps ℚ where
  mod x n := x.liftMod fun a => a - n * ⌊a / n⌋
  floorDiv x n := x.liftMod fun a => (⌊a / n⌋ : ℚ)
  mul x n := x.lift fun a => a * n
  add u v := match u, v with
    | .int m, .int n => .fin (m + n)
    | .int m, .float y => y.lift fun b => m + b
    | .float x, .int n => x.lift fun a => a + n
    | .float (.fin a), .float y => y.lift fun b => a + b
    | .float _, .float _ => .nan

/-- A builder with a grid of 3 by 4 patches. -/
def Ex.gridBuilder : TractBuilder := { Ex.legacy with state := some ⟨⟨3, 4⟩, ⟨⟨0, 0⟩, ⟨12, 12⟩⟩⟩ }

/-- On a builder with a grid: indices with floats inside and outside the grid, of both kinds, and conversions. -/
example : (Ex.gridBuilder.state.map (·.numPatches)) = some ⟨3, 4⟩ ∧
    ([.number (.float (.fin 4)), .number (.float .nan), .number (.float (.fin 12)), .index2D ⟨.int 1, .float (.fin 2)⟩,
      .seq [.float (.fin 3), .int 0], .seq [.float (.fin (1/2)), .float (.fin 0)], .seq [.float .inf]] : List (IndexArgX ℚ)).map
      (fun a => (Ex.gridBuilder.getPatchInfoX Ex.floatOps a ()).map (·.index)) =
      [.error .TypeError, .error .IndexError, .error .IndexError, .error .TypeError, .error .IndexError, .error .TypeError, .error .TypeError] ∧
    (Ex.gridBuilder.getPatchInfoX Ex.floatOps (.number (.int 4)) ()).map (·.index) = .ok ⟨1, 1⟩ ∧
    Ex.gridBuilder.getPatchIndexPairX Ex.floatOps (.float (.fin (9/2))) = .ok ⟨.float (.fin (3/2)), .float (.fin 1)⟩ := by
  decide +kernel

/-- A patch of 4 by 4 cells. -/
example : (PatchInfo.new ⟨0, 0⟩ ⟨⟨0, 0⟩, ⟨6, 6⟩⟩ ⟨⟨-4, -4⟩, ⟨14, 14⟩⟩ 0 () [3, 3] 1 2 1).map (fun p =>
      (([.number (.float (.fin 5)), .number (.float .nan), .seq [.int 1, .float (.fin (7/2))], .seq [.int 1, .float (.fin (9/2))]] :
          List (IndexArgX ℚ)).map fun a => (p.getCellInfoX Ex.floatOps a).map (·.index),
        (p.getCellInfoX Ex.floatOps (.number (.int 5))).map (·.index))) =
      .ok ([.error .TypeError, .error .IndexError, .error .TypeError, .error .IndexError], .ok ⟨1, 1⟩) := by
  decide +kernel

/-- The hypotheses of `C89_getPatchInfo`. -/
example : Ex.gridBuilder.getPatchInfoX Ex.floatOps (.number (.float .inf)) () = .error .IndexError ∨
    Ex.gridBuilder.getPatchInfoX Ex.floatOps (.number (.float .inf)) () = .error .TypeError :=
  C89_getPatchInfo (st := ⟨⟨3, 4⟩, ⟨⟨0, 0⟩, ⟨12, 12⟩⟩⟩) (a := .number (.float .inf)) _ rfl (by decide) ⟨_, rfl⟩ _

/-- A sky map on which tract 0 and tract 1 were accessed. -/
example : ([.fin 1, .fin 2, .fin 3, .fin (-1/2), .nan, .inf] : List (XFloat ℚ)).map (fun x =>
      (CachingSkyMap.getItemX Ex.unequalMap (.float x) (Ex.visit Ex.unequalMap [0, 1])).1.map fun r => r.oid) =
      [.error .TypeError, .error .TypeError, .error .IndexError, .error .IndexError, .error .TypeError, .error .OverflowError] ∧
    (CachingSkyMap.getItemX Ex.unequalMap (.int 1) (Ex.visit Ex.unequalMap [0, 1])).1.map (fun r => r.oid) = .ok 1 := by
  decide +kernel

end Skymap
