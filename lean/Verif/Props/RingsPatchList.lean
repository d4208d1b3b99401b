import Verif.Lemmas.Generate

/-! # C33: findTractPatchList of a rings sky map -/

set_option linter.unusedSectionVars false

namespace Skymap
namespace Rings
open BaseSkyMap
variable {A : FloatArith ℝ} {c : RingsConfig ℝ} {v : Int} {R : Rings ℝ}
variable {env env' : FloatEnv ℝ} {ops : SkyOps (SpherePoint ℝ) ℝ} {mk : SpherePoint ℝ → Wcs (SpherePoint ℝ) ℝ} {b₀ : TractBuilder}
variable {s s' : MapState (SpherePoint ℝ) ℝ} {p : SpherePoint ℝ}

/-- A tract with a list of patches. -/
abbrev Entry := TractRef (SpherePoint ℝ) ℝ × List (PatchInfo (Wcs (SpherePoint ℝ) ℝ))

/-- `keepContaining` repeats its answer. -/
theorem keep_replay {σ : Type} {M : SkyMapOps σ (SpherePoint ℝ) ℝ} {s : σ} {p : SpherePoint ℝ} {l : List Int}
    {rs : List (TractRef (SpherePoint ℝ) ℝ)} (h : List.Forall₂ (fun i r => M.getItem i s = (.ok r, s)) l rs) :
    keepContaining M p l s = (.ok (rs.filter fun r => r.info.contains p), s) := by
  induction h with
  | nil => rfl
  | cons h _ ih =>
    next i r l rs _ =>
    unfold keepContaining at ih ⊢
    obtain ⟨x, s₁, h1, h2⟩ := PyS.bind_inv ih
    rw [PyS.pure_apply] at h2
    simp only [Prod.mk.injEq, Except.ok.injEq] at h2
    obtain ⟨h2, rfl⟩ := h2
    rw [PyS.mapM_cons, PyS.bind_ok (s' := s₁) (a := (if r.info.contains p then [r] else []) :: x), PyS.pure_apply]
    · rw [List.flatten_cons, h2, List.filter_cons]
      split <;> simp
    · rw [PyS.bind_ok (s' := s₁) (a := if r.info.contains p then [r] else []), PyS.bind_ok h1]
      · rfl
      · rw [PyS.bind_ok h]; rfl

/-- `findAllTracts` returns the same tracts for ever. -/
theorem findAll_settled (hA : A.Ieee) (h : Rings.new A c v = .ok R) (h1 : 1 ≤ c.numRings) (h2 : c.numRings ≤ 2 ^ 31)
    (hP : (skyMapOps A R env ops mk).Permanent s) :
    (skyMapOps A R env ops mk).Settled (R.findAllTracts A (skyMapOps A R env ops mk) p) s := by
  intro s₁ ha l s₂ hf s₃ hb
  obtain ⟨wf, -⟩ := new_wf_rounding hA h h1 h2
  have hP1 := SkyMapOps.Permanent.mono hP ha
  obtain ⟨g1, L, rs, g2, g3, rfl⟩ := findAll_spec hA h h1 h2 hP1 hf
  unfold findAllTracts
  rw [PyS.bind_ok (s' := s₃) (a := L) (by rw [g2]; rfl), len_eq wf]
  refine keep_replay (g3.imp fun i r hi => ?_)
  exact hP1 s₂ g1 i r s₂ hi s₃ hb

/-- What is known of an entry of the list when it was appended. -/
def Good (A : FloatArith ℝ) (R : Rings ℝ) (env : FloatEnv ℝ) (ops : SkyOps (SpherePoint ℝ) ℝ)
    (mk : SpherePoint ℝ → Wcs (SpherePoint ℝ) ℝ) (env' : FloatEnv ℝ) (coordList : List (SpherePoint ℝ))
    (s s' : MapState (SpherePoint ℝ) ℝ) (t : TractRef (SpherePoint ℝ) ℝ) (e : Entry) : Prop :=
  e.1 = t ∧ ∃ i s₁, (skyMapOps A R env ops mk).After s s₁ ∧ (skyMapOps A R env ops mk).After s₁ s' ∧
    (skyMapOps A R env ops mk).getItem i s₁ = (.ok e.1, s₁) ∧
    e.1.info.findPatchList env' ((skyMapOps A R env ops mk).builder s₁) coordList = .ok e.2

/-- The inner loop, which changes nothing. -/
theorem inner_loop {M : SkyMapOps (MapState (SpherePoint ℝ) ℝ) (SpherePoint ℝ) ℝ} (coordList : List (SpherePoint ℝ))
    (ts : List (TractRef (SpherePoint ℝ) ℝ)) : ∀ (s s' : MapState (SpherePoint ℝ) ℝ) (ret l : List Entry),
    PyS.foldM (fun retList t => do
      let pl ← BaseSkyMap.findPatchList env' M t coordList
      return if !pl.isEmpty && !inRetList (t, pl) retList then retList ++ [(t, pl)] else retList) ts ret s = (.ok l, s') →
    s' = s ∧ ∃ es : List Entry, List.Forall₂ (fun t e => e.1 = t ∧ e.1.info.findPatchList env' (M.builder s) coordList = .ok e.2) ts es ∧
      l = es.foldl addOnce ret := by
  induction ts with
  | nil =>
    intro s s' ret l h
    change (Except.ok ret, s) = _ at h
    simp only [Prod.mk.injEq, Except.ok.injEq] at h
    obtain ⟨rfl, rfl⟩ := h
    exact ⟨rfl, [], .nil, rfl⟩
  | cons t ts ih =>
    intro s s' ret l h
    rw [PyS.foldM_cons] at h
    obtain ⟨x, s₁, h1, h2⟩ := PyS.bind_inv h
    obtain ⟨pl, s₂, h3, h4⟩ := PyS.bind_inv h1
    have h3' : (PyS.lift (t.info.findPatchList env' (M.builder s) coordList) : PyS _ _) s = _ := h3
    simp only [PyS.lift, Prod.mk.injEq] at h3'
    obtain ⟨hpl, rfl⟩ := h3'
    rw [PyS.pure_apply] at h4
    simp only [Prod.mk.injEq, Except.ok.injEq] at h4
    obtain ⟨rfl, rfl⟩ := h4
    obtain ⟨i1, es, i2, i3⟩ := ih _ _ _ _ h2
    exact ⟨i1, (t, pl) :: es, .cons ⟨rfl, hpl⟩ i2, i3⟩

theorem outer_loop (hA : A.Ieee) (h : Rings.new A c v = .ok R) (h1 : 1 ≤ c.numRings) (h2 : c.numRings ≤ 2 ^ 31)
    (coordList : List (SpherePoint ℝ)) (L : List (SpherePoint ℝ)) : ∀ (s s' : MapState (SpherePoint ℝ) ℝ) (ret l : List Entry),
    (skyMapOps A R env ops mk).Permanent s →
    PyS.foldM (fun retList c => do
      let ts ← R.findAllTracts A (skyMapOps A R env ops mk) c
      PyS.foldM (fun retList t => do
        let pl ← BaseSkyMap.findPatchList env' (skyMapOps A R env ops mk) t coordList
        return if !pl.isEmpty && !inRetList (t, pl) retList then retList ++ [(t, pl)] else retList) ts retList) L ret s =
      (.ok l, s') →
    (skyMapOps A R env ops mk).After s s' ∧ ∃ ess : List (List Entry),
      List.Forall₂ (fun c es => ∃ ts, R.findAllTracts A (skyMapOps A R env ops mk) c s' = (.ok ts, s') ∧
        List.Forall₂ (Good A R env ops mk env' coordList s s') ts es) L ess ∧ l = ess.flatten.foldl addOnce ret := by
  induction L with
  | nil =>
    intro s s' ret l _ h
    change (Except.ok ret, s) = _ at h
    simp only [Prod.mk.injEq, Except.ok.injEq] at h
    obtain ⟨rfl, rfl⟩ := h
    exact ⟨SkyMapOps.After.refl _, [], .nil, rfl⟩
  | cons p L ih =>
    intro s s' ret l hP hf
    rw [PyS.foldM_cons] at hf
    obtain ⟨x, s₁, h3, h4⟩ := PyS.bind_inv hf
    obtain ⟨ts, s₂, h5, h6⟩ := PyS.bind_inv h3
    obtain ⟨rfl, es, h7, h8⟩ := inner_loop coordList ts _ _ _ _ h6
    obtain ⟨k1, L', rs, k2, k3, k4⟩ := findAll_spec hA h h1 h2 hP h5
    obtain ⟨i1, ess, i2, i3⟩ := ih s₁ s' x l (SkyMapOps.Permanent.mono hP k1) h4
    refine ⟨k1.trans i1, es :: ess, .cons ⟨ts, ?_, ?_⟩ ?_, ?_⟩
    · exact findAll_settled hA h h1 h2 hP s (SkyMapOps.After.refl _) ts s₁ h5 s' i1
    · have hts : ∀ t ∈ ts, ∃ i, (skyMapOps A R env ops mk).getItem i s₁ = (.ok t, s₁) := by
        intro t ht
        rw [k4, List.mem_filter] at ht
        obtain ⟨i, -, hi⟩ := forall₂_mem k3 ht.1
        exact ⟨i, hi⟩
      clear h8 h6 h5 k4
      induction h7 with
      | nil => exact .nil
      | cons hh _ ih2 =>
        next t e ts es _ =>
        refine .cons ⟨hh.1, ?_⟩ (ih2 fun t ht => hts t (by simp [ht]))
        obtain ⟨i, hi⟩ := hts t (by simp)
        exact ⟨i, s₁, k1, i1, by rw [hh.1]; exact hi, hh.2⟩
    · refine i2.imp ?_
      rintro c es ⟨ts, g1, g2⟩
      refine ⟨ts, g1, g2.imp ?_⟩
      rintro t e ⟨a1, i, s₃, a2, a3, a4, a5⟩
      exact ⟨a1, i, s₃, k1.trans a2, a3, a4, a5⟩
    · rw [List.flatten_cons, List.foldl_append, ← h8, i3]

theorem mem_addOnce (es : List Entry) : ∀ (ret : List Entry) (e : Entry), e ∈ es.foldl addOnce ret → e ∈ ret ∨ (e ∈ es ∧ e.2 ≠ []) := by
  induction es with
  | nil => intro ret e h; exact .inl h
  | cons a es ih =>
    intro ret e h
    rw [List.foldl_cons] at h
    rcases ih _ e h with h | ⟨h, h'⟩
    · unfold addOnce at h
      split at h
      · next hc =>
        rw [List.mem_append, List.mem_singleton] at h
        rcases h with h | rfl
        · exact .inl h
        · refine .inr ⟨by simp, ?_⟩
          intro h0
          simp [h0] at hc
      · exact .inl h
    · exact .inr ⟨by simp [h], h'⟩

theorem distinct_addOnce (es : List Entry) : ∀ ret : List Entry,
    ret.Pairwise (fun a b => ¬ (a.1.oid = b.1.oid ∧ patchListEq a.2 b.2 = true)) →
    (es.foldl addOnce ret).Pairwise (fun a b => ¬ (a.1.oid = b.1.oid ∧ patchListEq a.2 b.2 = true)) := by
  induction es with
  | nil => intro ret h; exact h
  | cons a es ih =>
    intro ret h
    rw [List.foldl_cons]
    apply ih
    unfold addOnce
    split
    · next hc =>
      rw [List.pairwise_append]
      refine ⟨h, by simp, ?_⟩
      intro x hx y hy
      rw [List.mem_singleton] at hy
      subst hy
      rintro ⟨h1, h2⟩
      simp only [Bool.and_eq_true, Bool.not_eq_true'] at hc
      have : inRetList y ret = true := by
        unfold inRetList
        rw [List.any_eq_true]
        exact ⟨x, hx, by simp [h1, h2]⟩
      rw [this] at hc
      simp at hc
    · exact h

/-- C33: every entry is a tract of the sky map that contains one of the positions, with a non-empty list of patches that its
`findPatchList` returned during the call; and no entry equals another. -/
theorem C33_sound (hA : A.Ieee) (h : Rings.new A c v = .ok R) (h1 : 1 ≤ c.numRings) (h2 : c.numRings ≤ 2 ^ 31)
    (hs : (skyMapOps A R env ops mk).After (init A R env ops mk b₀) s) {coordList : List (SpherePoint ℝ)} {l : List Entry}
    (hf : R.findTractPatchList A env' (skyMapOps A R env ops mk) coordList s = (.ok l, s')) :
    (∀ e ∈ l, e.2 ≠ [] ∧ (∃ p ∈ coordList, e.1.info.contains p = true) ∧
      (skyMapOps A R env ops mk).getItem e.1.info.id s' = (.ok e.1, s') ∧
      ∃ s₁, (skyMapOps A R env ops mk).After s s₁ ∧ (skyMapOps A R env ops mk).After s₁ s' ∧
        e.1.info.findPatchList env' ((skyMapOps A R env ops mk).builder s₁) coordList = .ok e.2) ∧
    l.Pairwise fun a b => ¬ (a.1.oid = b.1.oid ∧ patchListEq a.2 b.2 = true) := by
  have hP := Search_permanent_caching (R.cachingDef A env ops mk) b₀ s hs
  obtain ⟨ha, ess, g1, rfl⟩ := outer_loop hA h h1 h2 coordList coordList s s' [] l hP hf
  refine ⟨?_, distinct_addOnce _ _ List.Pairwise.nil⟩
  intro e he
  rcases mem_addOnce _ _ e he with he | ⟨he, hne⟩
  · simp at he
  obtain ⟨es, hes, he⟩ := List.mem_flatten.mp he
  obtain ⟨p, hp, ts, g2, g3⟩ := forall₂_mem g1 hes
  obtain ⟨t, ht, rfl, i, s₁, q1, q2, q3, q4⟩ := forall₂_mem g3 he
  obtain ⟨c1, j, -, c2, c3⟩ := C31_sound hA h h1 h2 (hs.trans ha) g2 e.1 ht
  exact ⟨hne, ⟨p, hp, c1⟩, by rw [c2]; exact c3, s₁, q1, q2, q4⟩

/-- C33, when the builder no longer changes: the answer consists of exactly one entry for each tract found by `findAllTracts` for some
position and with a non-empty `findPatchList`, namely the tract and that list. -/
theorem C33_exact (hA : A.Ieee) (h : Rings.new A c v = .ok R) (h1 : 1 ≤ c.numRings) (h2 : c.numRings ≤ 2 ^ 31)
    (hs : (skyMapOps A R env ops mk).After (init A R env ops mk b₀) s) (hB : (skyMapOps A R env ops mk).StableBuilder s)
    {coordList : List (SpherePoint ℝ)} {l : List Entry}
    (hf : R.findTractPatchList A env' (skyMapOps A R env ops mk) coordList s = (.ok l, s')) :
    (l.map (·.1.info.id)).Nodup ∧
    ∀ (t : TractRef (SpherePoint ℝ) ℝ) pl, (t, pl) ∈ l ↔
      (∃ p ∈ coordList, ∃ ts, R.findAllTracts A (skyMapOps A R env ops mk) p s' = (.ok ts, s') ∧ t ∈ ts) ∧
      t.info.findPatchList env' ((skyMapOps A R env ops mk).builder s') coordList = .ok pl ∧ pl ≠ [] := by
  have hP := Search_permanent_caching (R.cachingDef A env ops mk) b₀ s hs
  obtain ⟨wf, -⟩ := new_wf_rounding hA h h1 h2
  obtain ⟨ha, ess, g1, rfl⟩ := outer_loop hA h h1 h2 coordList coordList s s' [] l hP hf
  have acc : ∀ es ∈ ess, ∀ e ∈ es, (∃ p ∈ coordList, ∃ ts, R.findAllTracts A (skyMapOps A R env ops mk) p s' = (.ok ts, s') ∧ e.1 ∈ ts) ∧
      e.1.info.findPatchList env' ((skyMapOps A R env ops mk).builder s') coordList = .ok e.2 ∧
      ∃ i, (skyMapOps A R env ops mk).getItem i s' = (.ok e.1, s') := by
    intro es hes e he
    obtain ⟨p, hp, ts, g2, g3⟩ := forall₂_mem g1 hes
    obtain ⟨t, ht, rfl, i, s₁, q1, q2, q3, q4⟩ := forall₂_mem g3 he
    refine ⟨⟨p, hp, ts, g2, ht⟩, ?_, i, hP s₁ q1 i e.1 s₁ q3 s' q2⟩
    rw [hB s₁ q1 i e.1 s₁ q3 s' q2]
    exact q4
  have uniq : ∀ e ∈ ess.flatten, ∀ e' ∈ ess.flatten, e.1.oid = e'.1.oid → e = e' := by
    intro e he e' he' ho
    obtain ⟨es, hes, he⟩ := List.mem_flatten.mp he
    obtain ⟨es', hes', he'⟩ := List.mem_flatten.mp he'
    obtain ⟨-, a2, i, a3⟩ := acc es hes e he
    obtain ⟨-, b2, j, b3⟩ := acc es' hes' e' he'
    have hr := Search_objects_caching _ b₀ s hs i j e.1 e'.1 s' ha a3 b3 ho
    obtain ⟨r, pl⟩ := e
    obtain ⟨r', pl'⟩ := e'
    dsimp only at hr a2 b2
    subst hr
    rw [a2] at b2
    simp only [Except.ok.injEq] at b2
    rw [b2]
  obtain ⟨f1, f2⟩ := foldl_addOnce ess.flatten [] (by simpa using uniq)
  simp only [List.map_nil, List.contains_nil, Bool.not_false, List.filter_true, List.nil_append] at f1
  constructor
  · have hnd : ((ess.flatten.foldl addOnce []).map (·.1.oid)).Nodup := by rw [f1]; exact nodup_eraseDups' _
    rw [List.Nodup, List.pairwise_map] at hnd ⊢
    refine hnd.imp_of_mem ?_
    intro a b ha' hb' hne he
    have hi : ∀ e ∈ ess.flatten.foldl addOnce [], (skyMapOps A R env ops mk).getItem e.1.info.id s' = (.ok e.1, s') := by
      intro e he
      rw [f2] at he
      rcases he with he | ⟨he, -⟩
      · simp at he
      obtain ⟨es, hes, he⟩ := List.mem_flatten.mp he
      obtain ⟨-, -, i, a3⟩ := acc es hes e he
      rw [(item wf (hs.trans ha) a3).2]
      exact a3
    have q1 := hi a ha'
    rw [he, hi b hb'] at q1
    simp only [Prod.mk.injEq, Except.ok.injEq, and_true] at q1
    exact hne (by rw [q1])
  · intro t pl
    rw [f2]
    constructor
    · rintro (he | ⟨he, hne⟩)
      · simp at he
      obtain ⟨es, hes, he⟩ := List.mem_flatten.mp he
      obtain ⟨a1, a2, -⟩ := acc es hes _ he
      exact ⟨a1, a2, hne⟩
    · rintro ⟨⟨p, hp, ts, q1, q2⟩, q3, q4⟩
      right
      obtain ⟨es, hes, ts', k1, k2⟩ := forall₂_mem' g1 hp
      rw [q1] at k1
      simp only [Prod.mk.injEq, Except.ok.injEq, and_true] at k1
      subst k1
      obtain ⟨e, he, rfl, i, s₁, r1, r2, r3, r4⟩ := forall₂_mem' k2 q2
      obtain ⟨-, a2, -⟩ := acc es hes e he
      rw [q3, Except.ok.injEq] at a2
      refine ⟨List.mem_flatten.mpr ⟨es, hes, ?_⟩, q4⟩
      rw [a2]
      exact he

/-- C33: then the answer is a subset of the default `BaseSkyMap.findTractPatchList`. -/
theorem C33_subset (hA : A.Ieee) (h : Rings.new A c v = .ok R) (h1 : 1 ≤ c.numRings) (h2 : c.numRings ≤ 2 ^ 31)
    (hs : (skyMapOps A R env ops mk).After (init A R env ops mk b₀) s) (hB : (skyMapOps A R env ops mk).StableBuilder s)
    {coordList : List (SpherePoint ℝ)} {l l' : List Entry} {s'' : MapState (SpherePoint ℝ) ℝ}
    (hf : R.findTractPatchList A env' (skyMapOps A R env ops mk) coordList s = (.ok l, s'))
    (hf' : BaseSkyMap.findTractPatchList env' (skyMapOps A R env ops mk) coordList s' = (.ok l', s'')) : ∀ e ∈ l, e ∈ l' := by
  have hP := Search_permanent_caching (R.cachingDef A env ops mk) b₀ s hs
  obtain ⟨wf, -⟩ := new_wf_rounding hA h h1 h2
  have ha := (outer_loop hA h h1 h2 coordList coordList s s' [] l hP hf).1
  obtain ⟨-, ex⟩ := C33_exact hA h h1 h2 hs hB hf
  obtain ⟨so, -⟩ := C33_sound hA h h1 h2 hs hf
  obtain ⟨es, e1, e2, ha2, e3⟩ := findTractPatchList_general env' coordList hf'
  rintro ⟨t, pl⟩ he
  obtain ⟨-, q2, q3⟩ := (ex t pl).mp he
  obtain ⟨-, -, q4, -⟩ := so _ he
  dsimp only at q4
  obtain ⟨⟨r1, r2⟩, -⟩ := item wf (hs.trans ha) q4
  obtain ⟨k, hk⟩ := Int.eq_ofNat_of_zero_le r1
  have hk' : k < (skyMapOps A R env ops mk).len := by
    have := len_eq (A := A) (env := env) (ops := ops) (mk := mk) wf
    omega
  obtain ⟨r, pl', s₀, s₁, g1, g2, g3, g4, g5⟩ := e3 k hk'
  have hfinal := (SkyMapOps.Permanent.mono hP ha) s' (SkyMapOps.After.refl _) _ _ _ q4 s₀ g2
  rw [hk, g3] at hfinal
  simp only [Prod.mk.injEq, Except.ok.injEq] at hfinal
  obtain ⟨rfl, rfl⟩ := hfinal
  have hb := hB s' ha _ _ _ q4 s₁ g2
  rw [hb, q2, Except.ok.injEq] at g5
  rw [e2, List.mem_filter]
  refine ⟨?_, by simpa using q3⟩
  rw [g5]
  exact List.mem_of_getElem? g1

/-- The hypothesis of `C33_exact` on the builder: if the projection maps the sky around every tract centre to the same pixels, all
tracts have the same number of patches. -/
theorem stable_of_same_pixels {px : Nat → P2 ℝ}
    (hx : 0 < b₀.patchInnerDimensions.x) (hy : 0 < b₀.patchInnerDimensions.y)
    (hw : ∀ ctr (i : Nat), (mk ctr).skyToPixel (ops.offset ctr ((i : ℝ) * 90) (A.mul (1 / 2) R.ringSize + A.deg2rad R.config.tractOverlap)) =
      .pix (px i))
    (hs : (skyMapOps A R env ops mk).After (init A R env ops mk b₀) s) : (skyMapOps A R env ops mk).StableBuilder s := by
  refine Search_stable_uniform _ b₀ s hx hy ?_ hs
  have key : ∀ (i : Int) (r : TractRef (SpherePoint ℝ) ℝ) s', CachingSkyMap.getItem (R.cachingDef A env ops mk) i (init A R env ops mk b₀) =
      (.ok r, s') → ∃ mb bbox b, includeAll env.tweak ⟨fun q => .pix (px q), fun _ => 0⟩ (List.range 4) .empty = .ok mb ∧
        b₀.setupPatches mb.toBox2I = .ok (bbox, r.info.numPatches, b) := by
    intro i r s' hg
    obtain ⟨k, rfl, hk, b, hf, -⟩ := fresh_of_getItem (SkyMapOps.After.refl _) hg
    unfold CachingSkyMap.fresh at hf
    split at hf
    · cases hf
    · next a ha =>
      obtain ⟨mb, bbox, n, k1, k2, k3⟩ := TractInfo.new_inv hf
      refine ⟨mb, bbox, b, ?_, by rw [k3]; exact k2⟩
      obtain ⟨ctr, -, ha⟩ := bindOk ha
      obtain ⟨⟨x1, x2, x3, x4⟩, -, ha⟩ := bindOk ha
      simp only [pure, Except.pure, Except.ok.injEq] at ha
      subst ha
      have := hw ctr
      simp only [minimumBoundingBox, samplePoints] at k1
      rw [← k1]
      generalize List.range 4 = L
      generalize (Box2D.empty : Box2D ℝ) = B
      change includeAll env.tweak _ L B = includeAll env.tweak (mk ctr) _ B
      induction L generalizing B with
      | nil => rfl
      | cons i L ih =>
        simp only [List.map_cons, includeAll]
        congr 1
        · exact congrArg (B.inclRes env.tweak) (hw ctr i).symm
        · funext b'
          exact ih b'
  intro i j r r' s s' h1 h2
  obtain ⟨mb, bbox, b, a1, a2⟩ := key i r s h1
  obtain ⟨mb', bbox', b', c1, c2⟩ := key j r' s' h2
  rw [a1, Except.ok.injEq] at c1
  subst c1
  rw [a2] at c2
  simp only [Except.ok.injEq, Prod.mk.injEq] at c2
  exact c2.2.1

/-- The hypotheses of `C33_exact` are met by a map of 120 rings with square tracts. -/
example : ∃ (R : Rings ℝ) (env : FloatEnv ℝ) (ops : SkyOps (SpherePoint ℝ) ℝ) (mk : SpherePoint ℝ → Wcs (SpherePoint ℝ) ℝ),
    Rings.new FloatArith.exact ⟨120, 0, 1 / 60⟩ 1 = .ok R ∧
    (skyMapOps FloatArith.exact R env ops mk).StableBuilder (init FloatArith.exact R env ops mk Ex.legacy) ∧
    ∃ l s', R.findAllTracts FloatArith.exact (skyMapOps FloatArith.exact R env ops mk) ⟨1, 1⟩
      (init FloatArith.exact R env ops mk Ex.legacy) = (.ok l, s') := by
  obtain ⟨R, hR⟩ := new_ok ⟨120, 0, 1 / 60⟩ (.inr rfl)
  refine ⟨R, ⟨id, fun x => x + 1, ⟨0, 0⟩⟩, ⟨fun c b r => ⟨c.lon + b / 1000 * r, c.lat + r⟩, fun a b => |a.lon - b.lon|⟩,
    fun ctr => ⟨fun c => .pix ⟨100 * (c.lon - ctr.lon), 100 * (c.lat - ctr.lat)⟩, fun q => ⟨q.x / 100, q.y / 100⟩⟩, hR, ?_, ?_⟩
  · refine stable_of_same_pixels (px := fun i : Nat => ⟨100 * ((i : ℝ) * 90 / 1000 * (FloatArith.exact.mul (1 / 2) R.ringSize +
      FloatArith.exact.deg2rad R.config.tractOverlap)), 100 * (FloatArith.exact.mul (1 / 2) R.ringSize +
      FloatArith.exact.deg2rad R.config.tractOverlap)⟩) (by decide) (by decide) ?_ (SkyMapOps.After.refl _)
    intro ctr i
    dsimp only
    congr 2 <;> ring
  · exact findAllTracts_returns hR (by norm_num) (by norm_num) (by decide) (by decide) (fun _ _ _ => ⟨_, rfl⟩)
      (SkyMapOps.After.refl _) _

end Rings
end Skymap
