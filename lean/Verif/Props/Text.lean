import Verif.Model.Text
import Verif.Props.Cells

/-!
# C86: the text of a patch or cell identifies it

Two patches print the same with `repr` exactly if they compare equal, and the same with `str` exactly if they have the same index; the same
for cells.
-/

namespace Skymap
open TractBuilder

/-! ## Reading decimal numbers back -/

theorem toDigits_inj (a : Nat) : ∀ b : Nat, Nat.toDigits 10 a = Nat.toDigits 10 b → a = b := by
  induction a using Nat.strong_induction_on with
  | _ a ih =>
    intro b h
    rw [Nat.toDigits_eq_if (by norm_num), Nat.toDigits_eq_if (n := b) (by norm_num)] at h
    have dig : ∀ x y : Nat, x < 10 → y < 10 → x.digitChar = y.digitChar → x = y := by
      intro x y hx hy he
      have := congrArg Char.toNat he
      rw [Nat.toNat_digitChar_of_lt_ten hx, Nat.toNat_digitChar_of_lt_ten hy] at this
      omega
    split at h <;> split at h
    · exact dig a b (by omega) (by omega) (by simpa using h)
    · exfalso
      have := congrArg List.length h
      have p := Nat.length_toDigits_pos (b := 10) (n := b / 10)
      simp at this
    · exfalso
      have := congrArg List.length h
      have p := Nat.length_toDigits_pos (b := 10) (n := a / 10)
      simp at this
    · obtain ⟨h1, h2⟩ := List.append_inj' h rfl
      have e1 := ih (a / 10) (by omega) (b / 10) h1
      have e2 := dig (a % 10) (b % 10) (by omega) (by omega) (by simpa using h2)
      omega

/-- A character of a number. -/
def Numeral (c : Char) : Bool := c.isDigit || c == '-'

theorem numeral_repr (a : Int) : ∀ c ∈ a.repr.toList, Numeral c = true := by
  intro c hc
  unfold Numeral
  rw [Int.repr_eq_if] at hc
  split at hc
  · rw [Nat.toList_repr] at hc
    rw [Nat.isDigit_of_mem_toDigits (by norm_num) (by norm_num) hc]; rfl
  · rw [String.toList_append, Nat.toList_repr, List.mem_append] at hc
    rcases hc with hc | hc
    · have : c = '-' := by simpa using hc
      simp [this]
    · rw [Nat.isDigit_of_mem_toDigits (by norm_num) (by norm_num) hc]; rfl

theorem repr_inj {a b : Int} (h : a.repr = b.repr) : a = b := by
  have minus : ∀ n : Nat, '-' ∉ n.repr.toList := by
    intro n hn
    rw [Nat.toList_repr] at hn
    have := Nat.isDigit_of_mem_toDigits (by norm_num) (by norm_num) hn
    revert this; decide
  have h := congrArg String.toList h
  rw [Int.repr_eq_if, Int.repr_eq_if] at h
  split at h <;> split at h
  · rw [Nat.toList_repr, Nat.toList_repr] at h
    have := toDigits_inj _ _ h
    omega
  · exfalso
    refine minus a.toNat ?_
    rw [h]; simp
  · exfalso
    refine minus b.toNat ?_
    rw [← h]; simp
  · rw [String.toList_append, String.toList_append, Nat.toList_repr, Nat.toList_repr] at h
    have := toDigits_inj _ _ (List.append_cancel_left h)
    omega

theorem split_unique {P : Char → Bool} : ∀ {u v x y : List Char}, (∀ c ∈ u, P c = true) → (∀ c ∈ v, P c = true) →
    (∀ c ∈ x.head?, P c = false) → (∀ c ∈ y.head?, P c = false) → u ++ x = v ++ y → u = v ∧ x = y
  | [], [], _, _, _, _, _, _, h => ⟨rfl, h⟩
  | [], c :: v, x, _, _, hv, hx, _, h => by
    exfalso
    rw [List.nil_append] at h
    have a := hx c (by rw [h]; simp)
    rw [hv c (by simp)] at a
    cases a
  | c :: u, [], _, y, hu, _, _, hy, h => by
    exfalso
    rw [List.nil_append] at h
    have a := hy c (by rw [← h]; simp)
    rw [hu c (by simp)] at a
    cases a
  | c :: u, d :: v, x, y, hu, hv, hx, hy, h => by
    rw [List.cons_append, List.cons_append, List.cons.injEq] at h
    obtain ⟨e1, e2⟩ := split_unique (fun c hc => hu c (by simp [hc])) (fun c hc => hv c (by simp [hc])) hx hy h.2
    exact ⟨by rw [h.1, e1], e2⟩

/-- A number can be read off from a text in which something else follows. -/
theorem read_int {a b : Int} {c d : Char} {x y : List Char} (hc : Numeral c = false) (hd : Numeral d = false)
    (h : a.repr.toList ++ c :: x = b.repr.toList ++ d :: y) : a = b ∧ c :: x = d :: y := by
  obtain ⟨e1, e2⟩ := split_unique (numeral_repr a) (numeral_repr b) (by simpa using hc) (by simpa using hd) h
  exact ⟨repr_inj (String.toList_inj.1 e1), e2⟩

theorem read_pair {p q : I2} {x y : List Char} (h : (pairText p).toList ++ x = (pairText q).toList ++ y) : p = q ∧ x = y := by
  simp only [pairText, String.toList_append, List.append_assoc] at h
  have h := List.append_cancel_left h
  obtain ⟨e1, h⟩ := read_int (c := ',') (d := ',') rfl rfl h
  have h := List.append_cancel_left (as := [',', ' ']) h
  obtain ⟨e2, h⟩ := read_int (c := ')') (d := ')') rfl rfl h
  cases p; cases q
  simp only at e1 e2
  subst e1 e2
  exact ⟨rfl, by simpa using h⟩

theorem read_index {p q : Index2D} {x y : List Char} (h : p.text.toList ++ x = q.text.toList ++ y) : p = q ∧ x = y := by
  simp only [Index2D.text, String.toList_append, List.append_assoc] at h
  have h := List.append_cancel_left h
  obtain ⟨e1, h⟩ := read_int (c := ',') (d := ',') rfl rfl h
  have h := List.append_cancel_left (as := [',', ' ', 'y', '=']) h
  obtain ⟨e2, h⟩ := read_int (c := ')') (d := ')') rfl rfl h
  cases p; cases q
  simp only at e1 e2
  subst e1 e2
  exact ⟨rfl, by simpa using h⟩

theorem read_box {p q : Box2I} {x y : List Char} (h : p.text.toList ++ x = q.text.toList ++ y) : p = q ∧ x = y := by
  simp only [Box2I.text, String.toList_append, List.append_assoc] at h
  have h := List.append_cancel_left h
  obtain ⟨e1, h⟩ := read_pair h
  have h := List.append_cancel_left h
  obtain ⟨e2, h⟩ := read_pair h
  have h := List.append_cancel_left h
  refine ⟨?_, h⟩
  obtain ⟨⟨a, b⟩, ⟨c, d⟩⟩ := p
  obtain ⟨⟨a', b'⟩, ⟨c', d'⟩⟩ := q
  simp only [Box2I.getMin, Box2I.getMax, I2.mk.injEq] at e1 e2
  simp only [Box2I.mk.injEq, I2.mk.injEq]
  omega

/-! ## Cells and patches -/

variable {W : Type}

theorem cell_str (c d : CellInfo W) : c.str = d.str ↔ c.index = d.index := by
  constructor
  · intro h
    have h := congrArg String.toList h
    simp only [CellInfo.str, String.toList_append, List.append_assoc] at h
    exact (read_index (List.append_cancel_left h)).1
  · intro h
    unfold CellInfo.str
    rw [h]

theorem cell_repr (c d : CellInfo W) :
    c.repr = d.repr ↔ c.index = d.index ∧ c.innerBBox = d.innerBBox ∧ c.outerBBox = d.outerBBox := by
  constructor
  · intro h
    have h := congrArg String.toList h
    unfold CellInfo.repr at h
    simp only [String.toList_append, List.append_assoc] at h
    obtain ⟨e1, h⟩ := read_index (List.append_cancel_left h)
    obtain ⟨e2, h⟩ := read_box (List.append_cancel_left h)
    obtain ⟨e3, h⟩ := read_box (List.append_cancel_left h)
    exact ⟨e1, e2, e3⟩
  · intro h
    unfold CellInfo.repr
    rw [h.1, h.2.1, h.2.2]

/-- C86: `str` of a cell tells its index and nothing else; two cells print the same with `repr` exactly if they compare equal. -/
theorem C86_cell (c d : CellInfo W) : (c.str = d.str ↔ c.index = d.index) ∧ (c.repr = d.repr ↔ c.eq d = true) := by
  refine ⟨cell_str c d, (cell_repr c d).trans ?_⟩
  unfold CellInfo.eq
  rw [Bool.and_eq_true, Bool.and_eq_true, beq_iff_eq, beq_iff_eq, beq_iff_eq, and_assoc]

/-- C86: `str` of a patch tells its index and nothing else. -/
theorem C86_patch_str (p q : PatchInfo W) : p.str = q.str ↔ p.index = q.index := by
  constructor
  · intro h
    have h := congrArg String.toList h
    simp only [PatchInfo.str, String.toList_append, List.append_assoc] at h
    exact (read_index (List.append_cancel_left h)).1
  · intro h; simp [PatchInfo.str, h]

/-- C86: what `repr` of a patch tells, for every patch that a client can construct. -/
theorem C86_patch_text (p q : PatchInfo W) : p.repr = q.repr ↔ p.index = q.index ∧ p.innerBBox = q.innerBBox ∧ p.outerBBox = q.outerBBox ∧
    (p.numCells.x ≤ 0 ∧ q.numCells.x ≤ 0 ∨
      p.numCells.x = q.numCells.x ∧ p.cellInnerDimensions = q.cellInnerDimensions ∧ p.cellBorder = q.cellBorder) := by
  constructor
  · intro h
    have h := congrArg String.toList h
    unfold PatchInfo.repr at h
    split at h <;> split at h <;> simp only [String.toList_append, List.append_assoc] at h
    all_goals
      obtain ⟨e1, h⟩ := read_index (List.append_cancel_left h)
      obtain ⟨e2, h⟩ := read_box (List.append_cancel_left h)
      obtain ⟨e3, h⟩ := read_box (List.append_cancel_left h)
      refine ⟨e1, e2, e3, ?_⟩
    · obtain ⟨e4, h⟩ := read_pair (List.append_cancel_left h)
      have h := List.append_cancel_left h
      obtain ⟨e5, h⟩ := read_int (c := ',') (d := ',') rfl rfl h
      have h : (", numCellsPerPatchInner=".toList ++ _ = ", numCellsPerPatchInner=".toList ++ _) := h
      have h := List.append_cancel_left h
      obtain ⟨e6, -⟩ := read_int (c := ')') (d := ')') rfl rfl h
      exact .inr ⟨e6, e4, e5⟩
    · simp at h
    · simp at h
    · exact .inl ⟨by omega, by omega⟩
  · rintro ⟨e1, e2, e3, ⟨e4, e5⟩ | ⟨e4, e5, e6⟩⟩
    · unfold PatchInfo.repr
      rw [if_neg (by omega), if_neg (by omega), e1, e2, e3]
    · unfold PatchInfo.repr
      rw [e1, e2, e3, e4, e5, e6]

variable {Sky K : Type} [Field K] [LinearOrder K] [FloorRing K]
variable {env env' : FloatEnv K} {ops ops' : SkyOps Sky K} {b₀ b : TractBuilder} {a : TractArgs Sky K} {t : TractInfo Sky K}

/-- A patch without cells. -/
theorem legacy_plain {lcfg : LegacyTractBuilderConfig} {dx dy : Int}
    (hd : lcfg.patchInnerDimensions = [dx, dy]) (hx : 0 < dx) (hy : 0 < dy) (hb : 0 ≤ lcfg.patchBorder)
    (hnew : LegacyTractBuilder.new lcfg = .ok b₀) (h : TractInfo.new env ops b₀ a = .ok (t, b))
    {i : Index2D} {pi : PatchInfo (Wcs Sky K)} (hi : t.getPatchInfo b (.index2D i) = .ok pi) :
    pi.numCells = ⟨0, 0⟩ ∧ pi.cellBorder = 0 ∧ pi.index = i := by
  unfold LegacyTractBuilder.new at hnew
  rw [hd] at hnew
  simp only [Except.ok.injEq] at hnew
  have B := TractInfo.new_built h (by rw [← hnew]; exact hx) (by rw [← hnew]; exact hy)
  obtain ⟨hr, rfl⟩ := (B.ready.getPatchInfo_iff (by rw [B.border, ← hnew]; exact hb) _ t.wcs _).1 hi
  unfold patchVal
  rw [B.kind, ← hnew]
  exact ⟨rfl, rfl, rfl⟩

/-- Either kind of patch, by what is printed of it. -/
theorem patch_kind (hb : SaneBuilder b₀) (h : TractInfo.new env ops b₀ a = .ok (t, b))
    {i : Index2D} {p : PatchInfo (Wcs Sky K)} (hi : t.getPatchInfo b (.index2D i) = .ok p) :
    p.index = i ∧ (p.numCells = ⟨0, 0⟩ ∧ p.cellBorder = 0 ∨
      ∃ x y per nb cb : Int, CellPatch p ⟨x, y⟩ per nb cb ∧ p.outerBBox = p.innerBBox.grow (nb * x + cb)) := by
  rcases hb with ⟨cf, dx, dy, c1, c2, c3, c4, c5⟩ | ⟨cf, x, y, hs, hnew⟩
  · obtain ⟨h1, h2, h3⟩ := legacy_plain c1 c2 c3 c4 c5 h hi
    exact ⟨h3, .inl ⟨h1, h2⟩⟩
  · obtain ⟨C, -, ho, -, hx⟩ := cellPatch_of_new hs hnew h hi
    exact ⟨hx, .inr ⟨_, _, _, _, _, C, ho⟩⟩

/-- The boxes, the number of cells and the cell border determine the size of a cell. -/
theorem cell_dims_eq {p q : PatchInfo W} {x y per nb cb x' y' per' nb' cb' : Int} (C : CellPatch p ⟨x, y⟩ per nb cb)
    (D : CellPatch q ⟨x', y'⟩ per' nb' cb') (ho : p.outerBBox = p.innerBBox.grow (nb * x + cb))
    (ho' : q.outerBBox = q.innerBBox.grow (nb' * x' + cb')) (e2 : p.innerBBox = q.innerBBox) (e3 : p.outerBBox = q.outerBBox)
    (e4 : p.numCells = q.numCells) (e5 : p.cellBorder = q.cellBorder) : p.cellInnerDimensions = q.cellInnerDimensions := by
  have hx := C.cx; have hy := C.cy; have hper := C.perPos; have hnb := C.nbNonneg; have hcb := C.cbNonneg
  have hx' := D.cx; have hy' := D.cy; have hper' := D.perPos; have hnb' := D.nbNonneg; have hcb' := D.cbNonneg
  dsimp only at hx hy hx' hy'
  have i1 := C.inner
  have i2 := D.inner
  have m1 := C.num
  have m2 := D.num
  have k1 := C.border
  have k2 := D.border
  rw [e4, m2] at m1
  rw [e5, k2] at k1
  rw [e2, i2] at i1
  simp only [I2.mk.injEq] at m1 i1
  have og : p.outerBBox.dim.x = q.outerBBox.dim.x := by rw [e3]
  have g1 := Int.mul_nonneg hnb hx.le
  have g2 := Int.mul_nonneg hnb' hx'.le
  have pos : 0 < q.innerBBox.dim.x ∧ 0 < q.innerBBox.dim.y := by
    rw [i2]; exact ⟨mul_pos hx' hper', mul_pos hy' hper'⟩
  rw [ho, ho', e2, Box2I.grow_pos _ pos.1 pos.2 _ (by omega), Box2I.grow_pos _ pos.1 pos.2 _ (by omega)] at og
  dsimp only at og
  have q1 : x * (per + 2 * nb) = x * per + 2 * (nb * x) := by ring
  have q2 : x' * (per' + 2 * nb') = x' * per' + 2 * (nb' * x') := by ring
  have q3 : x = x' := by
    apply Int.eq_of_mul_eq_mul_right (a := per + 2 * nb) (by omega)
    rw [q1, ← m1.1, q2]
    omega
  have q4 : per = per' := by
    apply Int.eq_of_mul_eq_mul_left hx.ne'
    rw [← i1.1, q3]
  have q5 : y = y' := by
    apply Int.eq_of_mul_eq_mul_right hper.ne'
    rw [← i1.2, q4]
  rw [C.dims, D.dims, q3, q5]

/-- C86: patches of any two tracts - of any two sky maps with sensible configurations - print the same with `repr` exactly if they
compare equal. -/
theorem C86_patch {b₀' b' : TractBuilder} {a' : TractArgs Sky K} {t' : TractInfo Sky K} (hb : SaneBuilder b₀) (hb' : SaneBuilder b₀')
    (h : TractInfo.new env ops b₀ a = .ok (t, b)) (h' : TractInfo.new env' ops' b₀' a' = .ok (t', b'))
    (i i' : Index2D) (p p' : PatchInfo (Wcs Sky K))
    (hi : t.getPatchInfo b (.index2D i) = .ok p) (hi' : t'.getPatchInfo b' (.index2D i') = .ok p') :
    p.repr = p'.repr ↔ p.eq p' = true := by
  rw [C86_patch_text]
  unfold PatchInfo.eq
  simp only [Bool.and_eq_true, beq_iff_eq]
  obtain ⟨-, k⟩ := patch_kind hb h hi
  obtain ⟨-, k'⟩ := patch_kind hb' h' hi'
  rcases k with ⟨n1, n2⟩ | ⟨x, y, per, nb, cb, C, ho⟩ <;> rcases k' with ⟨m1, m2⟩ | ⟨x', y', per', nb', cb', D, ho'⟩
  · simp [n1, n2, m1, m2, and_assoc]
  · have pos := D.numPos
    constructor
    · rintro ⟨-, -, -, ⟨-, h⟩ | ⟨h, -⟩⟩
      · omega
      · rw [n1] at h; dsimp only at h; omega
    · rintro ⟨⟨-, h⟩, -⟩
      rw [← h, n1] at pos; dsimp only at pos; omega
  · have pos := C.numPos
    constructor
    · rintro ⟨-, -, -, ⟨h, -⟩ | ⟨h, -⟩⟩
      · omega
      · rw [m1] at h; dsimp only at h; omega
    · rintro ⟨⟨-, h⟩, -⟩
      rw [h, m1] at pos; dsimp only at pos; omega
  · have pos := C.numPos
    constructor
    · rintro ⟨e1, e2, e3, ⟨h, -⟩ | ⟨h, -, h5⟩⟩
      · omega
      · refine ⟨⟨⟨⟨e1, e2⟩, e3⟩, ?_⟩, h5⟩
        rw [C.num, D.num] at h ⊢
        dsimp only at h
        rw [h]
    · rintro ⟨⟨⟨⟨e1, e2⟩, e3⟩, e4⟩, e5⟩
      exact ⟨e1, e2, e3, .inr ⟨by rw [e4], cell_dims_eq C D ho ho' e2 e3 e4 e5, e5⟩⟩

/-- C86: within one tract already `str` identifies a patch: patches that print the same are the same. -/
theorem C86_same_tract (hb : SaneBuilder b₀) (h : TractInfo.new env ops b₀ a = .ok (t, b)) (i i' : Index2D)
    (p p' : PatchInfo (Wcs Sky K)) (hi : t.getPatchInfo b (.index2D i) = .ok p) (hi' : t.getPatchInfo b (.index2D i') = .ok p') :
    (p.str = p'.str ↔ p = p') ∧ (p.eq p' = true ↔ p = p') := by
  have k := (patch_kind hb h hi).1
  have k' := (patch_kind hb h hi').1
  have key : p.index = p'.index → p = p' := by
    intro e
    rw [k, k'] at e
    rw [e, hi'] at hi
    exact (Except.ok.inj hi).symm
  refine ⟨(C86_patch_str p p').trans ⟨key, fun e => by rw [e]⟩, fun e => ?_, fun e => by rw [e]; simp [PatchInfo.eq]⟩
  simp only [PatchInfo.eq, Bool.and_eq_true, beq_iff_eq] at e
  exact key e.1.1.1.1

omit [Field K] [LinearOrder K] [FloorRing K] in
/-- C86: `str` of a tract tells its id and nothing else, and `repr` at least its id, whatever the text of the centre is. -/
theorem C86_tract (s u : TractInfo Sky K) :
    (s.str = u.str ↔ s.id = u.id) ∧ ∀ vectorText : Sky → String, s.repr vectorText = u.repr vectorText → s.id = u.id := by
  refine ⟨⟨fun h => ?_, fun h => ?_⟩, fun v h => ?_⟩
  · have h := congrArg String.toList h
    simp only [TractInfo.str, String.toList_append, List.append_assoc] at h
    exact (read_int (c := ')') (d := ')') rfl rfl (List.append_cancel_left h)).1
  · unfold TractInfo.str
    rw [h]
  · have h := congrArg String.toList h
    unfold TractInfo.repr at h
    simp only [String.toList_append, List.append_assoc] at h
    exact (read_int (c := ',') (d := ',') rfl rfl (List.append_cancel_left h)).1

/-- The patch (1,0) of a tract of half-size 5 and of a larger tract of half-size 11, with the cells builder, print the same; its
neighbour does not. -/
example : ∃ t b t' b' p p' q, SaneBuilder Ex.cells ∧
    TractInfo.new Ex.env Ex.ops Ex.cells Ex.args = .ok (t, b) ∧
    TractInfo.new Ex.env Ex.ops Ex.cells { Ex.args with shape := .explicit 11 } = .ok (t', b') ∧
    t.numPatches ≠ t'.numPatches ∧
    t.getPatchInfo b (.index2D ⟨1, 0⟩) = .ok p ∧ t'.getPatchInfo b' (.index2D ⟨1, 0⟩) = .ok p' ∧
    t.getPatchInfo b (.index2D ⟨0, 0⟩) = .ok q ∧ p.repr = p'.repr ∧ p.repr ≠ q.repr := by
  have hb2 : (TractInfo.new Ex.env Ex.ops Ex.cells { Ex.args with shape := .explicit 11 }).map
    (fun r => r.1.numPatches) = .ok ⟨4, 4⟩ := by decide +kernel
  obtain ⟨⟨t, b⟩, h1, h2⟩ := Except.map_ok_inv Ex.cells_built
  obtain ⟨⟨t', b'⟩, h1', h2'⟩ := Except.map_ok_inv hb2
  simp only [Prod.mk.injEq] at h2
  dsimp only at h2'
  have B := TractInfo.new_built h1 (by decide) (by decide)
  have B' := TractInfo.new_built h1' (by decide) (by decide)
  have g := B.ready.getPatchInfo_ok (i := ⟨1, 0⟩) (by rw [B.border]; decide) (by rw [h2.1]; decide) t.wcs
  have g0 := B.ready.getPatchInfo_ok (i := ⟨0, 0⟩) (by rw [B.border]; decide) (by rw [h2.1]; decide) t.wcs
  have g' := B'.ready.getPatchInfo_ok (i := ⟨1, 0⟩) (by rw [B'.border]; decide) (by rw [h2']; decide) t'.wcs
  have sb : SaneBuilder Ex.cells := Or.inr ⟨⟨[3, 3], 1, 2, 1⟩, 3, 3, Ex.cells_sane, rfl⟩
  refine ⟨t, b, t', b', _, _, _, sb, h1, h1', ?_, g, g', g0, ?_, ?_⟩
  · rw [h2.1, h2']; decide
  · refine (C86_patch sb sb h1 h1' _ _ _ _ g g').2 ?_
    simp only [PatchInfo.eq, patchVal, B.kind, B'.kind, patchInnerBBox, B.dims, B'.dims, B.border, B'.border]
    rfl
  · intro e
    have e := (C86_patch sb sb h1 h1 _ _ _ _ g g0).1 e
    have e := ((C86_same_tract sb h1 _ _ _ _ g g0).2).1 e
    have e := congrArg PatchInfo.index e
    rw [(patch_kind sb h1 g).1, (patch_kind sb h1 g0).1] at e
    exact absurd e (by decide)

/-- A patch, as a client can make it, for the limits of C86. -/
def textPatch (cell border : Int) (n : Int) : PatchInfo Unit :=
  ⟨⟨0, 0⟩, 0, ⟨⟨0, 0⟩, ⟨6, 6⟩⟩, ⟨⟨0, 0⟩, ⟨6, 6⟩⟩, (), ⟨cell, cell⟩, border, 0, ⟨n, n⟩⟩

/-- C86, its limits: of patches that a client makes by hand, and that no sky map has, two can print the same and compare different -
if they have no cells, but a cell border - and two can compare equal and print differently - if the size of their cells does not fit the
size of the patch. -/
theorem C86_by_hand : ((textPatch 0 1 0).repr = (textPatch 0 2 0).repr ∧ (textPatch 0 1 0).eq (textPatch 0 2 0) = false) ∧
    ((textPatch 3 1 2).eq (textPatch 2 1 2) = true ∧ (textPatch 3 1 2).repr ≠ (textPatch 2 1 2).repr) := by
  refine ⟨⟨(C86_patch_text _ _).2 ⟨rfl, rfl, rfl, .inl ⟨le_refl _, le_refl _⟩⟩, by decide⟩, by decide, fun e => ?_⟩
  obtain ⟨-, -, -, ⟨h, -⟩ | ⟨-, h, -⟩⟩ := (C86_patch_text _ _).1 e
  · exact absurd h (by decide)
  · exact absurd h (by decide)

end Skymap
