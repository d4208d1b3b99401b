import Verif.Props.Search

/-!
# C94: the order and the repetition of coordinates

`findPatchList`, and with it `findTractPatchList`, looks at a list of coordinates, and a tract is sized by a list of vertices; both take the
bounding box of their pixel positions.  `Box2D.include` moves the maximum a little above the included position (`FloatEnv.tweak`; a few units
in the last place).  If no position lies in the gap that this leaves above another one, the order of the list and repetitions do not matter.
-/

set_option linter.unusedSectionVars false

namespace Skymap
variable {Sky K : Type} [Field K] [LinearOrder K] [FloorRing K]

/-! ## Specification -/

/-- Two lists with the same members. -/
def SameMembers {α : Type} (l l' : List α) : Prop := ∀ a, a ∈ l ↔ a ∈ l'

/-- No coordinate has a pixel position in the gap that `Box2D.include` leaves above the position of another one. -/
def NoneClose (tweak : K → K) (w : Wcs Sky K) (cs : List Sky) : Prop :=
  ∀ c ∈ cs, ∀ c' ∈ cs, ∀ q q', w.skyToPixel c = .pix q → w.skyToPixel c' = .pix q' →
    (q.x < q'.x → tweak q.x ≤ q'.x) ∧ (q.y < q'.y → tweak q.y ≤ q'.y)

/-- The coordinate has a finite pixel position. -/
def Projects (w : Wcs Sky K) (c : Sky) : Bool :=
  match w.skyToPixel c with
  | .pix _ => true
  | _ => false

/-! ## Lemmas -/

theorem mem_posList' {w : Wcs Sky K} {cs : List Sky} {q : P2 K} : q ∈ posList w cs ↔ ∃ c ∈ cs, w.skyToPixel c = .pix q := by
  unfold posList
  rw [List.mem_filterMap]
  constructor
  · rintro ⟨c, hc, h⟩
    refine ⟨c, hc, ?_⟩
    revert h
    cases w.skyToPixel c <;> simp
  · rintro ⟨c, hc, h⟩
    exact ⟨c, hc, by rw [h]⟩

/-- The bounding box is determined by the set of positions. -/
theorem boxOf_unique {tweak : K → K} {b b' : Box2D K} {l l' : List (P2 K)} (h : BoxOf tweak b l) (h' : BoxOf tweak b' l')
    (hm : SameMembers l l')
    (hs : ∀ q ∈ l, ∀ q' ∈ l, (q.x < q'.x → tweak q.x ≤ q'.x) ∧ (q.y < q'.y → tweak q.y ≤ q'.y)) : b = b' := by
  cases b with
  | empty =>
    cases b' with
    | empty => rfl
    | box lo hi =>
      obtain ⟨-, -, -, ⟨q, hq, -⟩, -⟩ := h'
      have hl : l = [] := h
      rw [← hm, hl] at hq
      simp at hq
  | box lo hi =>
    cases b' with
    | empty =>
      obtain ⟨-, -, -, ⟨q, hq, -⟩, -⟩ := h
      have hl : l' = [] := h'
      rw [hm, hl] at hq
      simp at hq
    | box lo' hi' =>
      obtain ⟨a, -, -, ⟨q1, m1, e1⟩, ⟨q2, m2, e2⟩, ⟨q3, m3, e3⟩, ⟨q4, m4, e4⟩⟩ := h
      obtain ⟨a', -, -, ⟨r1, n1, f1⟩, ⟨r2, n2, f2⟩, ⟨r3, n3, f3⟩, ⟨r4, n4, f4⟩⟩ := h'
      have lx : lo.x = lo'.x := le_antisymm (by rw [f1]; exact (a r1 ((hm _).2 n1)).1) (by rw [e1]; exact (a' q1 ((hm _).1 m1)).1)
      have ly : lo.y = lo'.y :=
        le_antisymm (by rw [f2]; exact (a r2 ((hm _).2 n2)).2.2.1) (by rw [e2]; exact (a' q2 ((hm _).1 m2)).2.2.1)
      have hx : q3.x = r3.x := by
        rcases lt_trichotomy q3.x r3.x with hlt | heq | hlt
        · have h1 := (hs q3 m3 r3 ((hm _).2 n3)).1 hlt
          have h2 := (a r3 ((hm _).2 n3)).2.1
          rw [e3] at h2
          exact absurd h2 (not_lt.2 h1)
        · exact heq
        · have h1 := (hs r3 ((hm _).2 n3) q3 m3).1 hlt
          have h2 := (a' q3 ((hm _).1 m3)).2.1
          rw [f3] at h2
          exact absurd h2 (not_lt.2 h1)
      have hy : q4.y = r4.y := by
        rcases lt_trichotomy q4.y r4.y with hlt | heq | hlt
        · have h1 := (hs q4 m4 r4 ((hm _).2 n4)).2 hlt
          have h2 := (a r4 ((hm _).2 n4)).2.2.2
          rw [e4] at h2
          exact absurd h2 (not_lt.2 h1)
        · exact heq
        · have h1 := (hs r4 ((hm _).2 n4) q4 m4).2 hlt
          have h2 := (a' q4 ((hm _).1 m4)).2.2.2
          rw [f4] at h2
          exact absurd h2 (not_lt.2 h1)
      rcases lo with ⟨x, y⟩; rcases hi with ⟨x2, y2⟩; rcases lo' with ⟨x3, y3⟩; rcases hi' with ⟨x4, y4⟩
      dsimp only at *
      rw [lx, ly, e3, f3, e4, f4, hx, hy]

theorem coordBox_order {tweak : K → K} (ht : ∀ x, x < tweak x) {w : Wcs Sky K} {cs cs' : List Sky} (hm : SameMembers cs cs')
    (hs : NoneClose tweak w cs) : TractInfo.coordBox tweak w cs = TractInfo.coordBox tweak w cs' := by
  refine boxOf_unique (coordBox_boxOf ht w cs) (coordBox_boxOf ht w cs') ?_ ?_
  · intro q
    rw [mem_posList', mem_posList']
    constructor <;> rintro ⟨c, hc, h⟩
    · exact ⟨c, (hm c).1 hc, h⟩
    · exact ⟨c, (hm c).2 hc, h⟩
  · intro q hq q' hq'
    rw [mem_posList'] at hq hq'
    obtain ⟨c, hc, h⟩ := hq
    obtain ⟨c', hc', h'⟩ := hq'
    exact hs c hc c' hc' q q' h h'

/-- The sizing loop raises exactly if some position raises. -/
theorem includeAll_raises {tweak : K → K} {w : Wcs Sky K} (cs : List Sky) (b : Box2D K) :
    (∃ b', includeAll tweak w cs b = .ok b') ∨ (includeAll tweak w cs b = .error .PexError ∧ ∃ c ∈ cs, w.skyToPixel c = .raises) := by
  induction cs generalizing b with
  | nil => exact Or.inl ⟨b, rfl⟩
  | cons c cs ih =>
    unfold includeAll
    cases hc : w.skyToPixel c with
    | raises => exact Or.inr ⟨rfl, c, by simp, hc⟩
    | nonfinite =>
      rcases ih b with h | ⟨h, c', h1, h2⟩
      · exact Or.inl h
      · exact Or.inr ⟨h, c', by simp [h1], h2⟩
    | pix p =>
      rcases ih (b.incl tweak p) with h | ⟨h, c', h1, h2⟩
      · exact Or.inl h
      · exact Or.inr ⟨h, c', by simp [h1], h2⟩

theorem includeAll_order {tweak : K → K} (ht : ∀ x, x < tweak x) {w : Wcs Sky K} {cs cs' : List Sky} (hm : SameMembers cs cs')
    (hs : NoneClose tweak w cs) : includeAll tweak w cs .empty = includeAll tweak w cs' .empty := by
  rcases includeAll_raises (tweak := tweak) (w := w) cs .empty with ⟨b, h⟩ | ⟨h, c, h1, h2⟩ <;>
    rcases includeAll_raises (tweak := tweak) (w := w) cs' .empty with ⟨b', h'⟩ | ⟨h', c', h1', h2'⟩
  · rw [h, h']
    obtain ⟨k, -⟩ := includeAll_boxOf ht w cs .empty b [] rfl h
    obtain ⟨k', -⟩ := includeAll_boxOf ht w cs' .empty b' [] rfl h'
    rw [List.nil_append] at k k'
    congr 1
    refine boxOf_unique k k' ?_ ?_
    · intro q
      rw [mem_posList', mem_posList']
      constructor <;> rintro ⟨c, hc, h⟩
      · exact ⟨c, (hm c).1 hc, h⟩
      · exact ⟨c, (hm c).2 hc, h⟩
    · intro q hq q' hq'
      rw [mem_posList'] at hq hq'
      obtain ⟨c, hc, h⟩ := hq
      obtain ⟨c', hc', h'⟩ := hq'
      exact hs c hc c' hc' q q' h h'
  · exact absurd h2' ((includeAll_boxOf ht w cs .empty b [] rfl h).2 c' ((hm c').2 h1'))
  · exact absurd h2 ((includeAll_boxOf ht w cs' .empty b' [] rfl h').2 c ((hm c).1 h1))
  · rw [h, h']

/-! ## Searching -/

/-- Including one coordinate in a box, in the way of `TractInfo.coordBox` (tractInfo.py:224-268): one without a finite pixel position is skipped. -/
def coordStep (tweak : K → K) (w : Wcs Sky K) (b : Box2D K) (c : Sky) : Box2D K :=
  match b.inclRes tweak (w.skyToPixel c) with
  | .error _ => b
  | .ok b' => b'

theorem coordBox_foldl (tweak : K → K) (w : Wcs Sky K) (cs : List Sky) :
    TractInfo.coordBox tweak w cs = cs.foldl (coordStep tweak w) .empty := rfl

variable {env : FloatEnv K} {ops : SkyOps Sky K} {b₀ b : TractBuilder} {a a' : TractArgs Sky K} {t : TractInfo Sky K}

/-- C94: coordinates in another order, or repeated: the same patches in the same order (or the same exception), for every tract and every
state of the builder. -/
theorem C94_findPatchList (ht : ∀ x, x < env.tweak x) {cs cs' : List Sky} (hm : SameMembers cs cs')
    (hs : NoneClose env.tweak t.wcs cs) : t.findPatchList env b cs = t.findPatchList env b cs' := by
  unfold TractInfo.findPatchList
  rw [coordBox_order ht hm hs]

/-- C94: coordinates without a finite pixel position can be left out, without any assumption. -/
theorem C94_unprojectable (cs : List Sky) :
    t.findPatchList env b cs = t.findPatchList env b (cs.filter (Projects t.wcs)) := by
  have h : ∀ (cs : List Sky) (x : Box2D K), cs.foldl (coordStep env.tweak t.wcs) x = (cs.filter (Projects t.wcs)).foldl (coordStep env.tweak t.wcs) x := by
    intro cs
    induction cs with
    | nil => intro x; rfl
    | cons c cs ih =>
      intro x
      rw [List.foldl_cons, List.filter_cons, ih]
      cases hc : t.wcs.skyToPixel c <;> simp [coordStep, Projects, hc, Box2D.inclRes]
  unfold TractInfo.findPatchList
  rw [coordBox_foldl, coordBox_foldl, h cs]

section
variable [IsStrictOrderedRing K]

/-- A box that holds another one still does so when both are converted to pixels, grown and clipped. -/
theorem toBox2I_mono {lo hi lo' hi' : P2 K} (h1 : lo'.x ≤ lo.x) (h2 : lo'.y ≤ lo.y) (h3 : hi.x ≤ hi'.x) (h4 : hi.y ≤ hi'.y) {p : Point2I}
    (hp : (Box2D.box lo hi).toBox2I.contains p = true) : (Box2D.box lo' hi').toBox2I.contains p = true := by
  have e1 : ⌊lo'.x + 1 / 2⌋ ≤ ⌊lo.x + 1 / 2⌋ := Int.floor_le_floor (by linarith)
  have e2 : ⌊lo'.y + 1 / 2⌋ ≤ ⌊lo.y + 1 / 2⌋ := Int.floor_le_floor (by linarith)
  have e3 : ⌈hi.x - 1 / 2⌉ ≤ ⌈hi'.x - 1 / 2⌉ := Int.ceil_le_ceil (by linarith)
  have e4 : ⌈hi.y - 1 / 2⌉ ≤ ⌈hi'.y - 1 / 2⌉ := Int.ceil_le_ceil (by linarith)
  unfold Box2D.toBox2I at hp ⊢
  dsimp only at hp ⊢
  rw [Box2I.contains_iff] at hp ⊢
  split at hp
  · simp only [Box2I.empty] at hp; omega
  · rw [if_neg (by omega)]
    dsimp only at hp ⊢
    omega

/-- Including more positions only enlarges a box. -/
theorem coordFold_grows {tweak : K → K} (ht : ∀ x, x < tweak x) (w : Wcs Sky K) (cs : List Sky) :
    ∀ lo hi : P2 K, ∃ lo' hi' : P2 K, cs.foldl (coordStep tweak w) (Box2D.box lo hi) = .box lo' hi' ∧ lo'.x ≤ lo.x ∧ lo'.y ≤ lo.y ∧ hi.x ≤ hi'.x ∧ hi.y ≤ hi'.y := by
  induction cs with
  | nil => exact fun lo hi => ⟨lo, hi, rfl, le_rfl, le_rfl, le_rfl, le_rfl⟩
  | cons c cs ih =>
    intro lo hi
    rw [List.foldl_cons]
    unfold coordStep at ih ⊢
    cases hc : w.skyToPixel c with
    | raises => exact ih lo hi
    | nonfinite => exact ih lo hi
    | pix p =>
      have ax : ∀ l h c : K, (Box2D.includeAxis tweak l h c).1 ≤ l ∧ h ≤ (Box2D.includeAxis tweak l h c).2 := by
        intro l h c
        unfold Box2D.includeAxis
        split
        · rename_i hh; exact ⟨hh.le, le_rfl⟩
        · split
          · rename_i hh; exact ⟨le_rfl, hh.trans (ht c).le⟩
          · exact ⟨le_rfl, le_rfl⟩
      obtain ⟨lo', hi', e, k1, k2, k3, k4⟩ := ih ⟨(Box2D.includeAxis tweak lo.x hi.x p.x).1, (Box2D.includeAxis tweak lo.y hi.y p.y).1⟩
        ⟨(Box2D.includeAxis tweak lo.x hi.x p.x).2, (Box2D.includeAxis tweak lo.y hi.y p.y).2⟩
      exact ⟨lo', hi', e, k1.trans (ax _ _ _).1, k2.trans (ax _ _ _).1, (ax _ _ _).2.trans k3, (ax _ _ _).2.trans k4⟩

/-- C94: further coordinates at the end of the list never remove a patch, without any assumption on the coordinates. -/
theorem C94_append (he : env.Ok) (h : TractInfo.new env ops b₀ a = .ok (t, b)) (hx : 0 < b₀.patchInnerDimensions.x)
    (hy : 0 < b₀.patchInnerDimensions.y) (hb : 0 ≤ b₀.patchBorder) (sx : t.bbox.dim.x < 2 ^ 53) (sy : t.bbox.dim.y < 2 ^ 53)
    (cs ds : List Sky) :
    ∃ l l', t.findPatchList env b cs = .ok l ∧ t.findPatchList env b (cs ++ ds) = .ok l' ∧ ∀ p ∈ l, p ∈ l' := by
  have B := TractInfo.new_built h hx hy
  have hb' : 0 ≤ b.patchBorder := by rw [B.border]; exact hb
  obtain ⟨l, e1, -, e2⟩ := findPatchList_spec he B hb' sx sy cs
  obtain ⟨l', e1', -, e2'⟩ := findPatchList_spec he B hb' sx sy (cs ++ ds)
  refine ⟨l, l', e1, e1', ?_⟩
  intro p hp
  obtain ⟨i, hi, q, hq, hs⟩ := (e2 p).1 hp
  refine (e2' p).2 ⟨i, hi, q, hq, ?_⟩
  unfold searchBox at hs ⊢
  rw [Box2I.contains_clip] at hs ⊢
  refine ⟨?_, hs.2⟩
  have hs1 := hs.1
  rw [Box2I.contains_grow _ (toBox2I_wf _) _ hb'] at hs1 ⊢
  obtain ⟨r, hr, d1, d2⟩ := hs1
  refine ⟨r, ?_, d1, d2⟩
  rw [coordBox_foldl] at hr ⊢
  rw [List.foldl_append]
  revert hr
  generalize List.foldl _ (Box2D.empty : Box2D K) cs = x
  cases x with
  | empty => intro hr; rw [Box2I.contains_iff] at hr; simp only [Box2D.toBox2I, Box2I.empty] at hr; omega
  | box lo hi =>
    intro hr
    obtain ⟨lo', hi', e, k1, k2, k3, k4⟩ := coordFold_grows he.tweak_gt t.wcs ds lo hi
    rw [e]
    exact toBox2I_mono k1 k2 k3 k4 hr

end

/-- Replacing the body of a loop over tracts. -/
theorem mapM_congr {σ α β : Type} {f g : α → PyS σ β} (h : ∀ a s, f a s = g a s) (l : List α) : PyS.mapM f l = PyS.mapM g l := by
  have : f = g := funext fun a => funext fun s => h a s
  rw [this]

/-- C94: the same for `findTractPatchList`, if no two coordinates are close in the pixels of any tract. -/
theorem C94_findTractPatchList {σ : Type} (M : SkyMapOps σ Sky K) (ht : ∀ x, x < env.tweak x) {cs cs' : List Sky}
    (hm : SameMembers cs cs')
    (hs : ∀ i s r s', M.getItem i s = (.ok r, s') → NoneClose env.tweak r.info.wcs cs) (s : σ) :
    BaseSkyMap.findTractPatchList env M cs s = BaseSkyMap.findTractPatchList env M cs' s := by
  unfold BaseSkyMap.findTractPatchList BaseSkyMap.forTracts
  rw [mapM_congr (g := fun i : Nat => do
    let t ← M.getItem (i : Int)
    let pl ← BaseSkyMap.findPatchList env M t cs'
    return (t, pl))]
  intro i s
  rw [PyS.bind_apply, PyS.bind_apply]
  rcases hg : M.getItem (i : Int) s with ⟨r, s'⟩
  cases r with
  | error e => rfl
  | ok r =>
    dsimp only
    have e : BaseSkyMap.findPatchList env M r cs = BaseSkyMap.findPatchList env M r cs' := by
      funext s
      unfold BaseSkyMap.findPatchList
      rw [PyS.bind_apply, PyS.bind_apply]
      dsimp only [PyS.get, PyS.lift]
      rw [C94_findPatchList ht hm (hs _ _ _ _ hg)]
    rw [e]

/-! ## Sizing a tract -/

/-- C94: the vertices of a tract in another order, or repeated: the same bounding box, WCS and number of patches, the same state of the
builder, or the same exception.  (The vertices themselves keep the order in which they were given.) -/
theorem C94_vertices (ht : ∀ x, x < env.tweak x) {l l' : List Sky} (hm : SameMembers l l') (hl : a.shape = .vertices l)
    (ha : a' = { a with shape := .vertices l' }) (hs : NoneClose env.tweak a.wcs (samplePoints ops a)) :
    (TractInfo.new env ops b₀ a).map (fun r => ({ r.1 with vertexCoordList := [] }, r.2)) =
      (TractInfo.new env ops b₀ a').map (fun r => ({ r.1 with vertexCoordList := [] }, r.2)) := by
  subst ha
  have hmem : SameMembers (samplePoints ops a) (samplePoints ops { a with shape := .vertices l' }) := by
    intro c
    unfold samplePoints
    rw [hl]
    dsimp only
    split
    · exact hm c
    · rw [List.mem_flatMap, List.mem_flatMap]
      constructor <;> rintro ⟨v, hv, h⟩
      · exact ⟨v, (hm v).1 hv, h⟩
      · exact ⟨v, (hm v).2 hv, h⟩
  have hmin : minimumBoundingBox env ops a = minimumBoundingBox env ops { a with shape := .vertices l' } :=
    includeAll_order ht hmem hs
  unfold TractInfo.new
  rw [← hmin, hl]
  cases minimumBoundingBox env ops a with
  | error e => rfl
  | ok mb =>
    simp only [bind, Except.bind]
    cases b₀.setupPatches mb.toBox2I with
    | error e => rfl
    | ok r => rfl

/-! ## Witnesses -/

/-- C94: the assumption is needed.  Two coordinates closer than the gap above a position, at the edge of a pixel: the patches that are listed
depend on the order. -/
theorem C94_fails_close : ∃ t b c c', TractInfo.new Ex.env Ex.ops Ex.legacy Ex.args = .ok (t, b) ∧ Ex.env.Ok ∧
    (t.findPatchList Ex.env b [c, c']).map List.length = .ok 2 ∧ (t.findPatchList Ex.env b [c', c]).map List.length = .ok 4 := by
  have hw : (TractInfo.new Ex.env Ex.ops Ex.legacy Ex.args).map (fun r =>
      ((r.1.findPatchList Ex.env r.2 [⟨33 / 2 - 1 / 1024, 30⟩, ⟨33 / 2 - 1 / 2048, 30⟩]).map List.length,
        (r.1.findPatchList Ex.env r.2 [⟨33 / 2 - 1 / 2048, 30⟩, ⟨33 / 2 - 1 / 1024, 30⟩]).map List.length)) = .ok (.ok 2, .ok 4) := by
    decide +kernel
  obtain ⟨⟨t, b⟩, h1, h2⟩ := Except.map_ok_inv hw
  simp only [Prod.mk.injEq] at h2
  exact ⟨t, b, _, _, h1, Ex.env_ok, h2.1, h2.2⟩

/-- Coordinates on whole pixels are not close. -/
example : NoneClose Ex.env.tweak Ex.wcs [⟨20, 30⟩, ⟨21, 28⟩, ⟨20, 30⟩] ∧
    SameMembers ([⟨20, 30⟩, ⟨21, 28⟩, ⟨20, 30⟩] : List (P2 ℚ)) [⟨21, 28⟩, ⟨20, 30⟩] ∧ ∀ x, x < Ex.env.tweak x := by
  refine ⟨?_, ?_, Ex.env_ok.tweak_gt⟩
  · have k : ∀ c ∈ ([⟨20, 30⟩, ⟨21, 28⟩, ⟨20, 30⟩] : List (P2 ℚ)), Ex.wcs.skyToPixel c = .pix c ∧
        ∀ c' ∈ ([⟨20, 30⟩, ⟨21, 28⟩, ⟨20, 30⟩] : List (P2 ℚ)), (c.x < c'.x → c.x + 1 / 1024 ≤ c'.x) ∧ (c.y < c'.y → c.y + 1 / 1024 ≤ c'.y) := by
      decide +kernel
    intro c hc c' hc' q q' hq hq'
    obtain ⟨e, e'⟩ := k c hc
    rw [e] at hq
    rw [(k c' hc').1] at hq'
    simp only [PixRes.pix.injEq] at hq hq'
    subst hq hq'
    exact e' c' hc'
  · intro c
    simp only [List.mem_cons, List.not_mem_nil, or_false]
    tauto

/-- A tract given by three vertices, in two orders and with a repetition. -/
example : ((TractInfo.new Ex.env Ex.ops Ex.legacy { Ex.args with shape := .vertices [⟨15, 25⟩, ⟨25, 25⟩, ⟨20, 35⟩] }).map fun r => r.1.numPatches) =
      .ok ⟨3, 4⟩ ∧
    ((TractInfo.new Ex.env Ex.ops Ex.legacy { Ex.args with shape := .vertices [⟨20, 35⟩, ⟨15, 25⟩, ⟨25, 25⟩, ⟨20, 35⟩] }).map
      fun r => r.1.numPatches) = .ok ⟨3, 4⟩ := by
  decide +kernel

end Skymap
