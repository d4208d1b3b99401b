import Verif.Props.Register

/-! # C49, C50: what a registration of the existing kinds of sky maps writes -/

set_option linter.unusedSectionVars false
set_option linter.unusedSimpArgs false
set_option linter.unusedVariables false

namespace Skymap
open BaseSkyMap

variable {σ Sky K : Type} [Field K] [LinearOrder K] [FloorRing K]

/-! ## All sky maps are proper -/

namespace CachingSkyMap
variable {m : CachingDef Sky K} {b₀ : TractBuilder} {s : MapState Sky K}

/-- After a history, either nothing was generated or the builder is that of a tract in the cache. -/
theorem builder_cached (h : (skyMapOps m).After (CachingSkyMap.init m b₀) s) :
    s.nextOid = 0 ∨ ∃ (k : Nat) (r : TractRef Sky K), k < m.numTracts ∧ s.cache[k]? = some (some r) ∧
      fresh m b₀ k = .ok (r.info, s.builder) := by
  have : Inv m b₀ s ∧ (s.nextOid = 0 ∨ ∃ (k : Nat) (r : TractRef Sky K), k < m.numTracts ∧
      s.cache[k]? = some (some r) ∧ fresh m b₀ k = .ok (r.info, s.builder)) := by
    refine h.ind (P := fun s => Inv m b₀ s ∧ (s.nextOid = 0 ∨ ∃ (k : Nat) (r : TractRef Sky K), k < m.numTracts ∧
      s.cache[k]? = some (some r) ∧ fresh m b₀ k = .ok (r.info, s.builder))) ⟨Inv.init m b₀, Or.inl rfl⟩ ?_
    rintro s1 j ⟨hi, hc⟩
    refine ⟨hi.getItem j, ?_⟩
    rw [skyMapOps_getItem]
    rcases getItem_spec hi j with ⟨-, e⟩ | ⟨k, rfl, hk, ⟨r', -, e⟩ | ⟨-, er, -, e⟩ | ⟨hc', t, b, hf, e⟩⟩
    · rw [e]; exact hc
    · rw [e]; exact hc
    · rw [e]; exact hc
    · rw [e]
      exact Or.inr ⟨k, ⟨s1.nextOid, t⟩, hk, stored_cache_self s1 t b (by rw [hi.len]; exact hk), hf⟩
  exact this.2

/-- Caching sky maps, after any history. -/
theorem caching_proper (hid : ∀ i a, m.tractArgs i = .ok a → a.id = i) (hx : 0 < b₀.patchInnerDimensions.x)
    (hy : 0 < b₀.patchInnerDimensions.y) (hb : 0 ≤ b₀.patchBorder)
    (h : (skyMapOps m).After (CachingSkyMap.init m b₀) s) : (skyMapOps m).Proper s where
  permanent := permanent_of_reachable h
  ids s₁ h1 i r s₂ _ hg := (C18_permanent hid (h.trans h1) _ r hg).2.1
  builder s₁ h1 i r s₂ hg := by
    have h2 := (h.trans h1).trans (SkyMapOps.After.step' (M := skyMapOps m) hg)
    have I := (Inv.init m b₀).after h2
    obtain ⟨k', -, -, hc⟩ := cached_after_ok ((Inv.init m b₀).after (h.trans h1)) hg
    rcases builder_cached h2 with h0 | ⟨k, r', hk, hc', hf⟩
    · have := (I.info _ _ hc).1
      omega
    · have B := fresh_built hx hy hf
      exact ⟨k, r', hk, getItem_cached I hc', B.ready, by change 0 ≤ s₂.builder.patchBorder; rw [B.border]; exact hb⟩

end CachingSkyMap

namespace EagerSkyMap

/-- What `buildAll` gives. -/
theorem buildAll_ok {env : FloatEnv K} {ops : SkyOps Sky K} {l : List (TractArgs Sky K)} {n : Nat} {b₀ b : TractBuilder}
    {ts : List (TractRef Sky K)} (h : buildAll env ops l n b₀ = .ok (ts, b)) (hx : 0 < b₀.patchInnerDimensions.x)
    (hy : 0 < b₀.patchInnerDimensions.y) :
    ts.length = l.length ∧ (∀ (k : Nat) t, ts[k]? = some t → ∃ a, l[k]? = some a ∧ t.info.id = a.id ∧
        ∃ b' b'', TractInfo.new env ops b' a = .ok (t.info, b'') ∧ t.info.Built b₀ b'') ∧
      ∀ last, ts.getLast? = some last → last.info.Built b₀ b := by
  induction l generalizing n b₀ ts with
  | nil =>
    simp only [EagerSkyMap.buildAll, Except.ok.injEq, Prod.mk.injEq] at h
    obtain ⟨rfl, rfl⟩ := h
    simp
  | cons a l ih =>
    unfold EagerSkyMap.buildAll at h
    cases h1 : TractInfo.new env ops b₀ a with
    | error e => rw [h1] at h; simp [bind, Except.bind] at h
    | ok p =>
      obtain ⟨t, b'⟩ := p
      rw [h1] at h
      simp only [bind, Except.bind] at h
      have B := TractInfo.new_built h1 hx hy
      cases h2 : EagerSkyMap.buildAll env ops l (n + 1) b' with
      | error e => rw [h2] at h; simp at h
      | ok p =>
        obtain ⟨ts', b''⟩ := p
        rw [h2] at h
        simp only [pure, Except.pure, Except.ok.injEq, Prod.mk.injEq] at h
        obtain ⟨rfl, rfl⟩ := h
        obtain ⟨q1, q2, q3⟩ := ih h2 (by rw [B.dims]; exact hx) (by rw [B.dims]; exact hy)
        have back : ∀ (t : TractInfo Sky K) (b : TractBuilder), t.Built b' b → t.Built b₀ b := fun t b this =>
          ⟨this.ready, this.dims.trans B.dims, this.border.trans B.border, this.kind.trans B.kind, this.box, this.st⟩
        refine ⟨by simp [q1], ?_, ?_⟩
        · intro k t' hk
          cases k with
          | zero =>
            simp only [List.getElem?_cons_zero, Option.some.injEq] at hk
            subst hk
            obtain ⟨_, _, _, _, _, e⟩ := TractInfo.new_inv h1
            exact ⟨a, rfl, by rw [e], b₀, b', h1, B⟩
          | succ k =>
            simp only [List.getElem?_cons_succ] at hk
            obtain ⟨a', g1, g2, b1, b2, g3, g4⟩ := q2 k t' hk
            exact ⟨a', by simpa using g1, g2, b1, b2, g3, back _ _ g4⟩
        · intro last hl
          cases ts' with
          | nil =>
            cases l with
            | nil =>
              simp only [EagerSkyMap.buildAll, Except.ok.injEq, Prod.mk.injEq] at h2
              obtain ⟨-, rfl⟩ := h2
              simp only [List.getLast?_singleton, Option.some.injEq] at hl
              subst hl
              exact B
            | cons a' l' => simp at q1
          | cons x xs =>
            rw [List.getLast?_cons_cons] at hl
            exact back _ _ (q3 last hl)

theorem after_eq {ts : List (TractRef Sky K)} {b b' : TractBuilder} (h : (skyMapOps ts).After b b') : b' = b :=
  h.ind (P := fun b' => b' = b) rfl (fun s i hs => hs)

/-- Sky maps that build all tracts at once. -/
theorem eager_proper {env : FloatEnv K} {ops : SkyOps Sky K} {l : List (TractArgs Sky K)} {n : Nat}
    {ts : List (TractRef Sky K)} {b₀ b : TractBuilder} (h : buildAll env ops l n b₀ = .ok (ts, b))
    (hid : ∀ (i : Nat) a, l[i]? = some a → a.id = i) (hx : 0 < b₀.patchInnerDimensions.x)
    (hy : 0 < b₀.patchInnerDimensions.y) (hb : 0 ≤ b₀.patchBorder) : (skyMapOps ts).Proper b where
  permanent := by
    intro s₁ h1 i r s₂ hg s₃ h3
    simp only [skyMapOps, PyS.lift, Prod.mk.injEq] at hg ⊢
    exact ⟨hg.1, trivial⟩
  ids := by
    intro s₁ h1 i r s₂ hi hg
    simp only [skyMapOps, PyS.lift, Prod.mk.injEq] at hg
    have hi' : i < ts.length := hi
    have e := CachingSkyMap.pyGetItem_nat (List.getElem?_eq_getElem hi')
    rw [e, Except.ok.injEq] at hg
    obtain ⟨a, g1, g2, -⟩ := (buildAll_ok h hx hy).2.1 i r (by rw [← hg.1]; exact List.getElem?_eq_getElem hi')
    rw [g2]
    exact hid i a g1
  builder := by
    intro s₁ h1 i r s₂ hg
    have e1 := after_eq h1
    simp only [skyMapOps, PyS.lift, Prod.mk.injEq] at hg
    obtain ⟨hg, rfl⟩ := hg
    subst e1
    have hne : ts ≠ [] := by
      rintro rfl
      simp [pyGetItem] at hg
    have hl : 0 < ts.length := List.length_pos_iff.2 hne
    have hlast : ts.getLast? = some (ts[ts.length - 1]) := by
      rw [List.getLast?_eq_getElem?, List.getElem?_eq_getElem (by omega)]
    have B := (buildAll_ok h hx hy).2.2 _ hlast
    refine ⟨ts.length - 1, ts[ts.length - 1], ?_, ?_, B.ready, by change 0 ≤ s₁.patchBorder; rw [B.border]; exact hb⟩
    · change ts.length - 1 < ts.length
      omega
    · change (pyGetItem ts ((ts.length - 1 : Nat) : Int), s₁) = _
      rw [CachingSkyMap.pyGetItem_nat (List.getElem?_eq_getElem (by omega))]

end EagerSkyMap

/-! ## C49 -/

theorem countP_key {α β : Type} [DecidableEq β] {f : α → β} {l : List α} (h : (l.map f).Nodup) {a : α} (ha : a ∈ l) :
    l.countP (fun x => decide (f x = f a)) = 1 := by
  have e : l.countP (fun x => decide (f x = f a)) = (l.map f).count (f a) := by
    rw [List.count, List.countP_map]
    congr 1
  rw [e]
  exact List.count_eq_one_of_mem h (List.mem_map_of_mem ha)

theorem tracts_nodup {M : SkyMapOps σ Sky K} {ts : List (TractRef Sky K)}
    (hid : ∀ (k : Nat) t, ts[k]? = some t → t.info.id = (k : Int)) : (ts.map fun t => t.info.id).Nodup := by
  rw [List.nodup_iff_injective_get]
  intro a b h
  simp only [List.get_eq_getElem, List.getElem_map] at h
  have h1 := hid a.1 ts[a.1] (List.getElem?_eq_getElem (by have := a.2; simpa using this))
  have h2 := hid b.1 ts[b.1] (List.getElem?_eq_getElem (by have := b.2; simpa using this))
  rw [h1, h2] at h
  exact Fin.ext (by exact_mod_cast h)

/-- C49: after the first registration of a sky map whose tracts all have the same number of patches, the rows with its name are:
exactly one tract row per tract, and for each tract and each of its patches exactly one patch row; the latter has as `patch` the
patch's sequential index - both the number `nx * y + x` and what `getSequentialPatchIndex` returns -, as `cell_x`, `cell_y` the
patch's index, and as region its outer polygon; the sky map itself is stored once. -/
theorem C49_exactly_once (H : Bytes → Bytes) (fault : Nat → Option PyErr) (M : SkyMapOps σ Sky K) (name : String)
    (w w' : World σ Sky) (hp : M.Proper w.map) (hs : w.reg.Sound) (h : register H fault M name w = (.ok (), w'))
    (hnew : ∀ x ∈ w.reg.skymaps, x.skymap ≠ name)
    (hu : ∀ ts, M.Tracts w'.map ts → ∀ t ∈ ts, ∀ t' ∈ ts, t.info.numPatches = t'.info.numPatches) :
    ∃ ts, M.Tracts w'.map ts ∧ (∀ (k : Nat) t, ts[k]? = some t → t.info.id = (k : Int)) ∧
      (∀ x ∈ w'.reg.tracts, x.skymap = name → ∃ t ∈ ts, x = ⟨name, t.info.id, t.info.getOuterSkyPolygon⟩) ∧
      (∀ t ∈ ts, w'.reg.tracts.countP (fun x => decide ((x.skymap, x.tract) = (name, t.info.id))) = 1) ∧
      (∀ p ∈ w'.reg.patches, p.skymap = name → ∃ t ∈ ts, p.tract = t.info.id ∧ InRange t.info.numPatches ⟨p.cellX, p.cellY⟩ ∧
        p.patch = t.info.numPatches.x * p.cellY + p.cellX ∧
        ∃ q, t.info.getPatchInfo (M.builder w'.map) (.index2D ⟨p.cellX, p.cellY⟩) = .ok q ∧
          t.info.getSequentialPatchIndex (M.builder w'.map) q = .ok p.patch ∧
          p.region = q.getOuterSkyPolygon (some t.info.wcs)) ∧
      (∀ t ∈ ts, ∀ i, InRange t.info.numPatches i →
        w'.reg.patches.countP (fun p => decide ((p.skymap, p.tract, p.cellX, p.cellY) = (name, t.info.id, i.x, i.y))) = 1) ∧
      w'.reg.datasets.countP (fun x => decide (x.skymap = name)) = 1 := by
  obtain ⟨ts, rec, tb, ht, htb, e1, e2, e3, e4, -, e5, -, e6, e7, e8, e9, e10, e11, e12⟩ :=
    C49_records H fault M name w w' hp h hnew
  have hs' : w'.reg.Sound := by
    have := register_insertions insertions_sound H fault M name w hs
    rw [h] at this
    exact this
  have hnb : ∀ t ∈ ts, t.info.numPatches = tb.info.numPatches := fun t h => hu ts ht t h tb htb
  have hbord : 0 ≤ (M.builder w'.map).patchBorder := by
    have hlt : 0 < M.len := by
      rw [← ht.1]; exact List.length_pos_of_mem htb
    obtain ⟨t0, h0⟩ : ∃ t0, ts[0]? = some t0 := ⟨_, List.getElem?_eq_getElem (by rw [ht.1]; exact hlt)⟩
    have ha := acc_register (M := M) H fault name w
    rw [h] at ha
    obtain ⟨_, _, _, _, _, hb⟩ := hp.builder _ ha _ _ _ (ht.2 0 t0 h0)
    exact hb
  have old : ∀ t ∈ w.reg.tracts, t.skymap ≠ name := fun t ht e => by
    obtain ⟨x, hx, e'⟩ := hs.tractRefs t ht
    exact hnew x hx (e'.trans e)
  have oldp : ∀ p ∈ w.reg.patches, p.skymap ≠ name := fun p hp e => by
    obtain ⟨x, hx, e', -⟩ := hs.patchRefs p hp
    exact old x hx (e'.trans e)
  refine ⟨ts, ht, e10, ?_, ?_, ?_, ?_, ?_⟩
  · intro x hx e
    rw [e7] at hx
    rcases List.mem_append.1 hx with hx | hx
    · exact absurd e (old x hx)
    · obtain ⟨t, ht, rfl⟩ := List.mem_map.1 hx
      exact ⟨t, ht, rfl⟩
  · intro t htm
    refine countP_key (f := fun x : TractRec Sky => (x.skymap, x.tract)) hs'.tractKeys
      (a := ⟨name, t.info.id, t.info.getOuterSkyPolygon⟩) ?_
    rw [e7]
    exact List.mem_append_right _ (List.mem_map.2 ⟨t, htm, rfl⟩)
  · intro p hp e
    rw [e8] at hp
    rcases List.mem_append.1 hp with hp | hp
    · exact absurd e (oldp p hp)
    · obtain ⟨t, htm, hp⟩ := List.mem_flatMap.1 hp
      obtain ⟨i, hi, rfl⟩ := List.mem_map.1 hp
      have hi' := mem_patchGrid.1 hi
      refine ⟨t, htm, rfl, hi', by rw [hnb t htm], (M.builder w'.map).patchVal tb.info.numPatches i t.info.wcs, ?_, ?_, ?_⟩
      · exact e11.getPatchInfo_ok hbord (e9 t htm i hi') _
      · change (M.builder w'.map).getSequentialPatchIndex _ = _
        unfold TractBuilder.getSequentialPatchIndex
        rw [TractBuilder.patchVal_index]
        exact seqIndex_ready e11 i
      · rfl
  · intro t htm i hi
    rw [e8, List.countP_append]
    have h0 : w.reg.patches.countP
        (fun p => decide ((p.skymap, p.tract, p.cellX, p.cellY) = (name, t.info.id, i.x, i.y))) = 0 := by
      rw [List.countP_eq_zero]
      intro p hp
      simp only [Prod.mk.injEq, decide_eq_true_eq, not_and]
      intro e
      exact absurd e (oldp p hp)
    rw [h0, Nat.zero_add]
    refine countP_key (f := fun p : PatchRec Sky => (p.skymap, p.tract, p.cellX, p.cellY))
      (a := ⟨name, t.info.id, tb.info.numPatches.x * i.y + i.x, i.x, i.y,
        ((M.builder w'.map).patchVal tb.info.numPatches i t.info.wcs).getOuterSkyPolygon (some t.info.wcs)⟩) ?_ ?_
    · rw [List.map_flatMap, List.nodup_flatMap]
      constructor
      · intro t' _
        unfold patchRecs
        rw [List.map_map]
        refine (patchGrid_nodup _).map ?_
        rintro ⟨x, y⟩ ⟨x', y'⟩ hh
        simp only [Function.comp, Prod.mk.injEq, true_and] at hh
        rw [hh.1, hh.2]
      · have hnd := tracts_nodup (M := M) e10
        rw [List.Nodup, List.pairwise_map] at hnd
        refine hnd.imp fun {a b} hab x h1 h2 => ?_
        simp only [List.mem_map, patchRecs] at h1 h2
        obtain ⟨_, ⟨_, _, rfl⟩, rfl⟩ := h1
        obtain ⟨_, ⟨_, _, rfl⟩, h3⟩ := h2
        simp only [Prod.mk.injEq] at h3
        exact hab h3.2.1.symm
    · exact List.mem_flatMap.2 ⟨t, htm, List.mem_map.2 ⟨i, mem_patchGrid.2 hi, rfl⟩⟩
  · refine countP_key (f := fun x : DatasetRec => x.skymap) hs'.datasetKeys (a := ⟨name, w.hashed.pickle⟩) ?_
    rw [e12]
    simp


/-- The rows of name `name` are for tracts below `k`. -/
structure Registry.Below (r : Registry Sky) (name : String) (k : Int) : Prop where
  skymap : ∃ x ∈ r.skymaps, x.skymap = name
  tracts : ∀ x ∈ r.tracts, x.skymap = name → x.tract < k
  patches : ∀ p ∈ r.patches, p.skymap = name → p.tract < k

theorem patchRecs_keys {name : String} {t : TractInfo Sky K} {b : TractBuilder} {nb : Index2D}
    (hin : ∀ i, InRange t.numPatches i → InRange nb i) : ((patchRecs name t b nb).map Butler.patchKey).Nodup := by
  unfold patchRecs
  rw [List.map_map]
  refine List.Nodup.map_on ?_ (patchGrid_nodup _)
  intro i hi j hj e
  simp only [Function.comp, Butler.patchKey, Prod.mk.injEq, true_and] at e
  obtain ⟨a1, a2, a3, a4⟩ := hin i (mem_patchGrid.1 hi)
  obtain ⟨b1, b2, b3, b4⟩ := hin j (mem_patchGrid.1 hj)
  have e' : i.x + nb.x * i.y = j.x + nb.x * j.y := by omega
  obtain ⟨s1, s2⟩ := split_patch (t := i.y) a1 a2
  obtain ⟨s3, s4⟩ := split_patch (t := j.y) b1 b2
  have ex : i.x = j.x := by rw [← s2, ← s4, e']
  have ey : i.y = j.y := by rw [← s1, ← s3, e']
  cases i; cases j
  simp only at ex ey
  rw [ex, ey]

theorem registerTract_total {fault : Nat → Option PyErr} (hf : ∀ n, fault n = none) {M : SkyMapOps σ Sky K} {name : String}
    {t : TractRef Sky K} {w : World σ Sky} {nb : Index2D} (hb : (M.builder w.map).Ready nb)
    (hb0 : 0 ≤ (M.builder w.map).patchBorder) (hin : ∀ i, InRange t.info.numPatches i → InRange nb i)
    (hr : w.reg.Below name t.info.id) :
    ∃ w', registerTract fault M name t w = (.ok (), w') ∧ w'.map = w.map ∧ w'.reg.Below name (t.info.id + 1) := by
  have e1 : (Butler.insertTract fault ⟨name, t.info.id, t.info.getOuterSkyPolygon⟩ : PyS (World σ Sky) Unit) w =
      (.ok (), { w with calls := w.calls + 1
                        reg := { w.reg with tracts := w.reg.tracts ++ [⟨name, t.info.id, t.info.getOuterSkyPolygon⟩] } }) := by
    unfold Butler.insertTract
    apply call_nofault hf
    rw [if_neg, if_neg]
    · obtain ⟨x, hx, e⟩ := hr.skymap
      simp only [Bool.not_eq_true', Bool.not_eq_false, List.any_eq_true]
      exact ⟨x, hx, by simp [e]⟩
    · simp only [List.any_eq_true, Bool.and_eq_true, beq_iff_eq, decide_eq_true_eq, not_exists, not_and]
      intro x hx e
      have := hr.tracts x hx e
      omega
  unfold registerTract
  have eget : ∀ v : World σ Sky, (PyS.get : PyS (World σ Sky) _) v = (.ok v, v) := fun _ => rfl
  rw [PyS.bind_ok e1, PyS.bind_ok (eget _)]
  dsimp only
  rw [PyS.bind_ok (a := patchRecs name t.info (M.builder w.map) nb) (s' := _)
    (by unfold PyS.lift; rw [patchRecords_total hb hb0 hin])]
  refine ⟨_, call_nofault hf (by
    rw [if_neg, if_neg]
    · simp only [Bool.not_eq_true', Bool.not_eq_false, List.all_eq_true, List.any_eq_true]
      intro p hp
      unfold patchRecs at hp
      obtain ⟨i, -, rfl⟩ := List.mem_map.1 hp
      exact ⟨⟨name, t.info.id, t.info.getOuterSkyPolygon⟩, by simp, by simp⟩
    · simp only [Bool.or_eq_true, not_or, Bool.not_eq_true', decide_eq_false_iff_not, not_not]
      refine ⟨?_, patchRecs_keys hin⟩
      simp only [List.any_eq_true, not_exists, not_and, beq_iff_eq]
      intro p hp x hx e
      unfold patchRecs at hp
      obtain ⟨i, -, rfl⟩ := List.mem_map.1 hp
      simp only [Butler.patchKey, Prod.mk.injEq] at e
      have := hr.patches x hx e.1
      omega), rfl, ?_⟩
  refine ⟨hr.skymap, fun x hx e => ?_, fun p hp e => ?_⟩
  · rcases List.mem_append.1 hx with hx | hx
    · have := hr.tracts x hx e; omega
    · rw [List.mem_singleton.1 hx]; dsimp only; omega
  · rcases List.mem_append.1 hp with hp | hp
    · have := hr.patches p hp e; omega
    · unfold patchRecs at hp
      obtain ⟨i, -, rfl⟩ := List.mem_map.1 hp
      dsimp only; omega

theorem tractLoop_total {fault : Nat → Option PyErr} (hf : ∀ n, fault n = none) {M : SkyMapOps σ Sky K} {name : String}
    {s : σ} {ts : List (TractRef Sky K)} (ht : M.Tracts s ts) (hid : ∀ (k : Nat) t, ts[k]? = some t → t.info.id = (k : Int))
    {nb : Index2D} (hb : (M.builder s).Ready nb) (hb0 : 0 ≤ (M.builder s).patchBorder)
    (hin : ∀ t ∈ ts, ∀ i, InRange t.info.numPatches i → InRange nb i) {w : World σ Sky} (hw : w.map = s)
    (hr : w.reg.Below name 0) :
    ∃ u w', forTracts (worldOps M) (fun _ t => registerTract fault M name t) w = (.ok u, w') := by
  have key : ∀ (n k : Nat) (w : World σ Sky), k + n = M.len → w.map = s → w.reg.Below name k →
      ∃ u w', PyS.mapM (fun i : Nat => (worldOps M).getItem (i : Int) >>= fun t => registerTract fault M name t)
        (List.range' k n) w = (.ok u, w') := by
    intro n
    induction n with
    | zero => intro k w _ _ _; exact ⟨[], w, rfl⟩
    | succ n ih =>
      intro k w hk hw hr
      have hlt : k < ts.length := by have := ht.1; omega
      have hg := ht.2 k ts[k] (List.getElem?_eq_getElem hlt)
      have hg' : (worldOps M).getItem (k : Int) w = (.ok ts[k], w) := by
        change onMap (M.getItem (k : Int)) w = _
        unfold onMap
        rw [hw, hg]
        simp only [← hw]
      have hidk := hid k ts[k] (List.getElem?_eq_getElem hlt)
      obtain ⟨w1, h1, h2, h3⟩ := registerTract_total (t := ts[k]) (w := w) hf (by rw [hw]; exact hb) (by rw [hw]; exact hb0)
        (hin _ (List.getElem_mem hlt)) (by rw [hidk]; exact hr)
      obtain ⟨u, w', h4⟩ := ih (k + 1) w1 (by omega) (h2.trans hw) (by rw [hidk] at h3; exact_mod_cast h3)
      rw [List.range'_succ, PyS.mapM_cons]
      rw [PyS.bind_ok (a := ()) (s' := w1), PyS.bind_ok h4]
      · exact ⟨_, _, rfl⟩
      · rw [PyS.bind_ok hg']; exact h1
  have := key M.len 0 w (by omega) hw (by exact_mod_cast hr)
  unfold forTracts
  rw [List.range_eq_range']
  exact this

theorem contents_flags (fault : Nat → Option PyErr) (M : SkyMapOps σ Sky K) (name : String) (w : World σ Sky) :
    (forTracts (worldOps M) (fun _ t => registerTract fault M name t) w).2.reg.skymaps = w.reg.skymaps ∧
    (forTracts (worldOps M) (fun _ t => registerTract fault M name t) w).2.reg.datasets = w.reg.datasets ∧
    (forTracts (worldOps M) (fun _ t => registerTract fault M name t) w).2.reg.hasRun = w.reg.hasRun ∧
    (forTracts (worldOps M) (fun _ t => registerTract fault M name t) w).2.reg.hasDatasetType = w.reg.hasDatasetType := by
  let P : Registry Sky → Registry Sky → Prop := fun r r' => r'.skymaps = r.skymaps ∧ r'.datasets = r.datasets ∧
    r'.hasRun = r.hasRun ∧ r'.hasDatasetType = r.hasDatasetType
  have hr : ∀ r, P r r := fun _ => ⟨rfl, rfl, rfl, rfl⟩
  have ht : ∀ r r' r'', P r r' → P r' r'' → P r r'' := fun _ _ _ a b =>
    ⟨b.1.trans a.1, b.2.1.trans a.2.1, b.2.2.1.trans a.2.2.1, b.2.2.2.trans a.2.2.2⟩
  refine (pres_mapM (P := P) hr ht (fun i => pres_bind hr ht (pres_onMap hr _) fun t => ?_) _) w
  unfold registerTract
  refine pres_bind hr ht (pres_call hr fun r a r' hf => ?_) fun _ => pres_bind hr ht (pres_get hr) fun w =>
      pres_bind hr ht (pres_lift hr _) fun recs => pres_call hr fun r a r' hf => ?_
  · split at hf
    · simp at hf
    · split at hf
      · simp at hf
      · simp only [Except.ok.injEq, Prod.mk.injEq, true_and] at hf
        rw [← hf]; exact ⟨rfl, rfl, rfl, rfl⟩
  · split at hf
    · simp at hf
    · split at hf
      · simp at hf
      · simp only [Except.ok.injEq, Prod.mk.injEq, true_and] at hf
        rw [← hf]; exact ⟨rfl, rfl, rfl, rfl⟩

/-- C49: with a butler that does not fail and a consistent registry in which neither the name nor the hash is taken, a sky map all
of whose tracts can be generated and have the same number of patches is registered successfully. -/
theorem C49_succeeds (H : Bytes → Bytes) (fault : Nat → Option PyErr) (hf : ∀ n, fault n = none) (M : SkyMapOps σ Sky K)
    (name : String) (w : World σ Sky) (hp : M.Proper w.map) (hs : w.reg.Sound) (hlen : 0 < M.len)
    (hl : ∃ l, (BaseSkyMap.iter M w.map).1 = .ok l) (b : Bytes) (hb : (w.hashed.getSha1 H).1 = .ok b)
    (hnew : ∀ x ∈ w.reg.skymaps, x.skymap ≠ name ∧ x.hash ≠ b)
    (hu : ∀ s ts, M.After w.map s → M.Tracts s ts → ∀ t ∈ ts, ∀ t' ∈ ts, t.info.numPatches = t'.info.numPatches) :
    (register H fault M name w).1 = .ok () := by
  obtain ⟨rec, w₁, h1, e1, e2, e3⟩ := record_total H M name w hlen hl b hb
  obtain ⟨ts, d1, d2, -⟩ := C48_record_determined H M name w w₁ rec hp.permanent h1
  have hlt : 0 < ts.length := by rw [d2.1]; exact hlen
  obtain ⟨j, tb, hj, hgj, hready, hbord⟩ := hp.builder w₁.map d1 0 ts[0] w₁.map (d2.2 0 _ (List.getElem?_eq_getElem hlt))
  have htb : tb ∈ ts := by
    have hl : j < ts.length := by rw [d2.1]; exact hj
    have := d2.2 j ts[j] (List.getElem?_eq_getElem hl)
    rw [hgj] at this
    simp only [Prod.mk.injEq, Except.ok.injEq, and_true] at this
    rw [this]; exact List.getElem_mem hl
  have old : ∀ t ∈ w.reg.tracts, t.skymap ≠ name := fun t ht e => by
    obtain ⟨x, hx, e'⟩ := hs.tractRefs t ht
    exact (hnew x hx).1 (e'.trans e)
  have oldp : ∀ p ∈ w.reg.patches, p.skymap ≠ name := fun p hp e => by
    obtain ⟨x, hx, e', -⟩ := hs.patchRefs p hp
    exact old x hx (e'.trans e)
  have oldd : ∀ d ∈ w.reg.datasets, d.skymap ≠ name := fun d hd e => by
    obtain ⟨x, hx, e'⟩ := hs.datasetRefs d hd
    exact (hnew x hx).1 (e'.trans e)
  unfold register
  rw [PyS.bind_ok h1]
  unfold Butler.registerRun
  rw [PyS.bind_ok (call_nofault hf rfl)]
  unfold Butler.registerDatasetType
  rw [PyS.bind_ok (call_nofault hf rfl)]
  have key : ∀ v : World σ Sky, v.map = w₁.map → v.reg = { w.reg with hasRun := true, hasDatasetType := true } →
      ∃ v', (do
        let inserted ← Butler.syncSkymap fault rec
        registerContents fault M name inserted : PyS (World σ Sky) Unit) v = (.ok (), v') := by
    intro v hv1 hv2
    have hsync : Butler.syncSkymap fault rec v =
        (.ok true, { v with calls := v.calls + 1, reg := { v.reg with skymaps := v.reg.skymaps ++ [rec] } }) := by
      unfold Butler.syncSkymap
      apply call_nofault hf
      rw [if_neg, if_neg]
      · rw [hv2]
        simp only [List.any_eq_true, Bool.or_eq_true, beq_iff_eq, not_exists, not_and, not_or, e1, e2]
        exact fun x hx => hnew x hx
      · rw [hv2]
        exact fun hm => (hnew rec hm).1 e1
    rw [PyS.bind_ok hsync]
    have hrc : registerContents fault M name true =
      (forTracts (worldOps M) (fun _ t => registerTract fault M name t) >>= fun _ => Butler.put fault name) := rfl
    rw [hrc]
    obtain ⟨u, w', hloop⟩ := tractLoop_total (name := name) hf (w := { v with calls := v.calls + 1, reg := { v.reg with skymaps := v.reg.skymaps ++ [rec] } }) d2
      (fun k t hk => hp.ids w₁.map d1 k t w₁.map (by
        have := (List.getElem?_eq_some_iff.1 hk).1
        rw [d2.1] at this; exact this) (d2.2 k t hk)) hready hbord
      (fun t ht i hi => by rw [← hu w₁.map ts d1 d2 t ht tb htb]; exact hi) hv1
      ⟨⟨rec, by simp, e1⟩, fun x hx e => absurd e (old x (by rw [hv2] at hx; exact hx)),
        fun x hx e => absurd e (oldp x (by rw [hv2] at hx; exact hx))⟩
    rw [PyS.bind_ok hloop]
    have hfl := contents_flags fault M name { v with calls := v.calls + 1, reg := { v.reg with skymaps := v.reg.skymaps ++ [rec] } }
    rw [hloop] at hfl
    obtain ⟨f1, f2, f3, f4⟩ := hfl
    dsimp only at f1 f2 f3 f4
    refine ⟨_, call_nofault hf (by
      rw [if_neg, if_neg]
      · rw [f1, f3, f4, hv2]
        simp [e1]
      · rw [f2, hv2]
        simp only [List.any_eq_true, beq_iff_eq, not_exists, not_and]
        exact fun x hx => oldd x hx)⟩
  obtain ⟨v', hv'⟩ := key { w₁ with calls := w₁.calls + 1 + 1, reg := { w₁.reg with hasRun := true, hasDatasetType := true } }
    rfl (by dsimp only; rw [e3])
  rw [transaction_nofault hf hv']


/-! ## C50 -/

/-- One registration of any sky map of the kinds that exist (see `caching_proper`, `eager_proper`), after any accesses to it, by
any butler, successful or not. -/
def Registry.ProperStep (r r' : Registry Sky) : Prop :=
  ∃ (σ K : Type) (_ : Field K) (_ : LinearOrder K) (_ : FloorRing K) (H : Bytes → Bytes) (fault : Nat → Option PyErr)
    (M : SkyMapOps σ Sky K) (name : String) (w : World σ Sky), M.Proper w.map ∧ w.reg = r ∧ (register H fault M name w).2.reg = r'

/-- Any sequence of such registrations. -/
def Registry.ProperHistory (r r' : Registry Sky) : Prop := Relation.ReflTransGen Registry.ProperStep r r'

theorem Registry.ProperHistory.history {r r' : Registry Sky} (h : Registry.ProperHistory r r') : Registry.History r r' := by
  refine Relation.ReflTransGen.mono (p := Registry.Step) ?_ _ _ h
  rintro a b ⟨σ, K, i1, i2, i3, H, fault, M, name, w, -, h1, h2⟩
  exact ⟨σ, K, i1, i2, i3, H, fault, M, name, w, h1, h2⟩

/-- What the packer reads of a skymap row. -/
def SkymapRec.dims (r : SkymapRec) : SkyMapRecord := ⟨r.tractMax, r.patchNxMax, r.patchNyMax⟩

/-- The data ID of a patch row, with a band. -/
def PatchRec.dataId (p : PatchRec Sky) (band : Option String) : DataId := ⟨p.skymap, p.tract, p.patch, band⟩

/-- All patch rows are in the range given by the skymap row of their sky map. -/
def Registry.InBounds (r : Registry Sky) : Prop :=
  ∀ p ∈ r.patches, ∃ x ∈ r.skymaps, x.skymap = p.skymap ∧ 0 ≤ p.tract ∧ p.tract < x.tractMax ∧
    0 ≤ p.patch ∧ p.patch < x.patchNxMax * x.patchNyMax

theorem inBounds_step {r r' : Registry Sky} (hs : r.Sound) (hb : r.InBounds) (h : Registry.ProperStep r r') : r'.InBounds := by
  obtain ⟨σ, K, i1, i2, i3, H, fault, M, name, w, hp, rfl, rfl⟩ := h
  rcases hx : register H fault M name w with ⟨x, w'⟩
  have hsame : ∀ r : Registry Sky, r.rows = w.reg.rows → r.InBounds := by
    intro r hr
    simp only [Registry.rows, Prod.mk.injEq] at hr
    unfold Registry.InBounds
    rw [hr.1, hr.2.2.1]
    exact hb
  cases x with
  | error e => exact hsame _ (register_err hx)
  | ok u =>
    obtain ⟨rec, w₁, h1, ⟨-, h2⟩ | ⟨h2, h3⟩⟩ := register_sync hx
    · exact hsame _ h2
    · obtain ⟨_, _, _, _, _, _, _, _, _, hrec, -⟩ := skymapRecord_ok h1
      have hname : rec.skymap = name := by rw [hrec]
      obtain ⟨ts, rec', tb, ht, htb, e1, e2, e3, e4, -, e5, -, e6, e7, e8, e9, e10, e11, e12⟩ :=
        C49_records H fault M name w w' hp hx fun x hx => by rw [← hname]; exact (h2 x hx).1
      intro p hp
      change p ∈ w'.reg.patches at hp
      change ∃ x ∈ w'.reg.skymaps, _
      rw [e8] at hp
      rw [e6]
      rcases List.mem_append.1 hp with hp | hp
      · obtain ⟨x, hx, e⟩ := hb p hp
        exact ⟨x, List.mem_append_left _ hx, e⟩
      · obtain ⟨t, htm, hp⟩ := List.mem_flatMap.1 hp
        obtain ⟨i, hi, rfl⟩ := List.mem_map.1 hp
        obtain ⟨k, hk⟩ := List.getElem?_of_mem htm
        obtain ⟨a1, a2, a3, a4⟩ := e9 t htm i (mem_patchGrid.1 hi)
        have hkl : k < M.len := by rw [← ht.1]; exact (List.getElem?_eq_some_iff.1 hk).1
        have hnx := e4 tb htb
        have hny := e5 tb htb
        refine ⟨rec', by simp, e1, ?_, ?_, ?_, ?_⟩
        · dsimp only; rw [e10 k t hk]; omega
        · dsimp only; rw [e10 k t hk, e3]; omega
        · dsimp only
          have : 0 ≤ tb.info.numPatches.x * i.y := Int.mul_nonneg (by omega) a3
          omega
        · dsimp only
          calc tb.info.numPatches.x * i.y + i.x < tb.info.numPatches.x * i.y + tb.info.numPatches.x := by omega
            _ = tb.info.numPatches.x * (i.y + 1) := by ring
            _ ≤ tb.info.numPatches.x * tb.info.numPatches.y := Int.mul_le_mul_of_nonneg_left (by omega) (by omega)
            _ ≤ rec'.patchNxMax * rec'.patchNyMax := Int.mul_le_mul hnx hny (by omega) (by omega)

/-- C50: in a registry that was filled by any sequence of registrations, every patch row is in the range given by the one skymap
row of its sky map.  (Tracts may have different numbers of patches.) -/
theorem C50_in_bounds (r : Registry Sky) (h : Registry.ProperHistory {} r) :
    r.Sound ∧ r.InBounds := by
  unfold Registry.ProperHistory at h
  induction h with
  | refl => exact ⟨Registry.sound_empty, by intro p hp; simp at hp⟩
  | tail h1 h2 ih =>
    refine ⟨C48_sound _ _ ih.1 ?_, inBounds_step ih.1 ih.2 h2⟩
    exact Registry.ProperHistory.history (Relation.ReflTransGen.single h2)

/-- A band that the default mapping of the packer has. -/
def IsDefaultBand (b : String) : Prop := some b ∈ supportedFilters

theorem defaultBand_get {b : String} (h : IsDefaultBand b) : ∃ v, defaultBands.get (some b) = some v ∧ v < 28 := by
  have : ∀ x ∈ supportedFilters, ∃ v, defaultBands.get x = some v ∧ v < 28 := by
    have hh : supportedFilters.all (fun x => match defaultBands.get x with | some v => decide (v < 28) | none => false) = true := by
      decide
    intro x hx
    have := List.all_eq_true.1 hh x hx
    revert this
    cases defaultBands.get x with
    | none => simp
    | some v => intro h; exact ⟨v, rfl, by simpa using h⟩
  exact this _ h

/-- C50: in such a registry, for every patch row `p` and the skymap row `x` of its sky map: the packers made from `x` - without
bands by the default configuration, with bands by default construction - pack the data ID of `p`, without a band or with any of
the default bands, and unpack the result to the same data ID. -/
theorem C50_packs (r : Registry Sky) (h : Registry.ProperHistory {} r) (p : PatchRec Sky) (hp : p ∈ r.patches) (x : SkymapRec)
    (hx : x ∈ r.skymaps) (hn : x.skymap = p.skymap) :
    (∃ pk k, Packer.fromConfig ⟨x.skymap, some x.dims⟩ {} = .ok pk ∧ pk.pack (p.dataId none) = .ok k ∧
      pk.unpack k = .ok (p.dataId none)) ∧
    (∀ b, IsDefaultBand b → ∃ pk k, Packer.new ⟨x.skymap, some x.dims⟩ = .ok pk ∧ pk.pack (p.dataId (some b)) = .ok k ∧
      pk.unpack k = .ok (p.dataId (some b))) := by
  obtain ⟨hs, hb⟩ := C50_in_bounds r h
  obtain ⟨y, hy, e0, e1, e2, e3, e4⟩ := hb p hp
  have : y = x := List.inj_on_of_nodup_map hs.names hy hx (e0.trans hn.symm)
  subst this
  obtain ⟨d1, d2, -⟩ := C45_defaults y.skymap y.dims
  constructor
  · have hpk := (pack_iff ⟨⟨y.skymap, some y.dims⟩, false, defaultBands, 0, y.dims.tract_max,
      y.dims.patch_nx_max * y.dims.patch_ny_max⟩ (p.dataId none) (p.patch + y.patchNxMax * y.patchNyMax * p.tract)).2
      ⟨e0.symm, e4, e2, .inl ⟨rfl, rfl⟩⟩
    have hc : (⟨⟨y.skymap, some y.dims⟩, false, defaultBands, 0, y.dims.tract_max,
      y.dims.patch_nx_max * y.dims.patch_ny_max⟩ : Packer).Consistent := by simp [Packer.Consistent]
    exact ⟨_, _, d2, hpk, C42_positional_partial _ hc C42_default.1 (p.dataId none) rfl e1 e3 _ hpk⟩
  · intro b hbd
    obtain ⟨v, hv, hv28⟩ := defaultBand_get hbd
    have hpk := (pack_iff ⟨⟨y.skymap, some y.dims⟩, true, defaultBands, 28, y.dims.tract_max,
      y.dims.patch_nx_max * y.dims.patch_ny_max⟩ (p.dataId (some b)) _).2
      ⟨e0.symm, e4, e2, .inr ⟨show (28 : Int) ≠ 0 by decide, b, v, rfl, hv, hv28, rfl⟩⟩
    have hc : (⟨⟨y.skymap, some y.dims⟩, true, defaultBands, 28, y.dims.tract_max,
      y.dims.patch_nx_max * y.dims.patch_ny_max⟩ : Packer).Consistent := by simp [Packer.Consistent]
    exact ⟨_, _, d1, hpk, C42_positional_partial _ hc C42_default.1 (p.dataId (some b)) rfl e1 e3 _ hpk⟩

/-- C50: ... and different patch rows of a sky map are packed to different integers. -/
theorem C50_distinct (r : Registry Sky) (h : Registry.ProperHistory {} r) (p p' : PatchRec Sky) (hp : p ∈ r.patches)
    (hp' : p' ∈ r.patches) (hn : p.skymap = p'.skymap) (x : SkymapRec) (hx : x ∈ r.skymaps) (hxn : x.skymap = p.skymap)
    (pk : Packer) (hpk : Packer.fromConfig ⟨x.skymap, some x.dims⟩ {} = .ok pk) (k : Int)
    (h1 : pk.pack (p.dataId none) = .ok k) (h2 : pk.pack (p'.dataId none) = .ok k) : p = p' := by
  obtain ⟨⟨pk1, k1, a1, a2, a3⟩, -⟩ := C50_packs r h p hp x hx hxn
  obtain ⟨⟨pk2, k2, b1, b2, b3⟩, -⟩ := C50_packs r h p' hp' x hx (hxn.trans hn)
  rw [hpk, Except.ok.injEq] at a1 b1
  subst a1 b1
  rw [h1, Except.ok.injEq] at a2
  rw [h2, Except.ok.injEq] at b2
  subst a2 b2
  rw [a3, Except.ok.injEq] at b3
  simp only [PatchRec.dataId, DataId.mk.injEq] at b3
  exact List.inj_on_of_nodup_map (C50_in_bounds r h).1.patchKeys hp hp' (by
    simp only [Prod.mk.injEq]; exact ⟨b3.1, b3.2.1, b3.2.2.1⟩)


/-! ## Examples, and what happens with unequal tracts -/

namespace Ex

/-- A `DiscreteSkyMap`, its tracts not generated yet, and an empty registry. -/
def world (m : CachingDef (P2 ℚ) ℚ) (reg : Registry (P2 ℚ) := {}) : World (MapState (P2 ℚ) ℚ) (P2 ℚ) :=
  ⟨start m, ⟨.rings 120 0, hashConfig, .int 1, none⟩, reg, 0⟩

/-- A patch row without its region. -/
structure Row where
  tract : Int
  patch : Int
  cellX : Int
  cellY : Int
  deriving DecidableEq, Repr

/-- What is looked at after a registration: tract numbers, the number of patch rows, the first four patch rows. -/
structure Rows where
  tracts : List Int
  numPatches : Nat
  patches : List Row
  deriving DecidableEq, Repr

/-- The rows after a registration, or the exception. -/
def rows (m : CachingDef (P2 ℚ) ℚ) : PyM Rows :=
  match register id (fun _ => none) (CachingSkyMap.skyMapOps m) "m" (world m) with
  | (.ok (), w) => .ok ⟨w.reg.tracts.map (·.tract), w.reg.patches.length,
      (w.reg.patches.map fun p => ⟨p.tract, p.patch, p.cellX, p.cellY⟩).take 4⟩
  | (.error e, _) => .error e

theorem equalMap_proper (l : List Int) : (CachingSkyMap.skyMapOps equalMap).Proper (visit equalMap l) :=
  CachingSkyMap.caching_proper (fun i a h => C21_ids _ _ _ _ i a h) (by decide) (by decide) (by decide) ⟨l, rfl⟩

/-- Without equal numbers of patches, registration is wrong or impossible.  Radii 5 and 11: tract 0, which has 3 by 4 patches, is
registered with the patch numbers of a tract of 6 by 8 patches, so that patch (0, 1) has the number 6 instead of 3.  Radii 11 and
5: registration raises `IndexError`. -/
theorem C49_fails_unequal_radii :
    rows unequalMap = .ok ⟨[0, 1], 60, [⟨0, 0, 0, 0⟩, ⟨0, 1, 1, 0⟩, ⟨0, 2, 2, 0⟩, ⟨0, 6, 0, 1⟩]⟩ ∧
    rows largeFirstMap = .error .IndexError := by
  decide +kernel

/-- With equal radii it is as it should be. -/
example : rows equalMap = .ok ⟨[0, 1, 2], 36, [⟨0, 0, 0, 0⟩, ⟨0, 1, 1, 0⟩, ⟨0, 2, 2, 0⟩, ⟨0, 3, 0, 1⟩]⟩ := by
  decide +kernel

end Ex

/-- Uniform tracts, in the form needed for registration. -/
theorem uniform_tracts {m : CachingDef Sky K} {b₀ : TractBuilder} (hu : m.Uniform b₀) {s : MapState Sky K}
    (h : (CachingSkyMap.skyMapOps m).After (CachingSkyMap.init m b₀) s) (ts : List (TractRef Sky K))
    (ht : (CachingSkyMap.skyMapOps m).Tracts s ts) :
    ∀ t ∈ ts, ∀ t' ∈ ts, t.info.numPatches = t'.info.numPatches := by
  have key : ∀ t ∈ ts, ∃ k s', CachingSkyMap.getItem m k (CachingSkyMap.init m b₀) = (.ok ⟨0, t.info⟩, s') := by
    intro t htm
    obtain ⟨k, hk⟩ := List.getElem?_of_mem htm
    obtain ⟨k', e, -, b, -, -, h3⟩ := fresh_of_getItem h (ht.2 k t hk)
    exact ⟨k, _, Prod.ext h3 rfl⟩
  intro t h1 t' h2
  obtain ⟨k, s1, e1⟩ := key t h1
  obtain ⟨k', s2, e2⟩ := key t' h2
  exact hu k k' ⟨0, t.info⟩ ⟨0, t'.info⟩ _ _ e1 e2

/-- The hypotheses of `C49_succeeds`, `C49_exactly_once`, `C49_records`, `C48_idempotent` and `C50_packs` are met by a sky map with
three tracts, of which some may have been accessed before. -/
example (l : List Int) : (CachingSkyMap.skyMapOps Ex.equalMap).Proper (Ex.visit Ex.equalMap l) ∧
    ∀ s ts, (CachingSkyMap.skyMapOps Ex.equalMap).After (Ex.visit Ex.equalMap l) s →
      (CachingSkyMap.skyMapOps Ex.equalMap).Tracts s ts → ∀ t ∈ ts, ∀ t' ∈ ts, t.info.numPatches = t'.info.numPatches :=
  ⟨Ex.equalMap_proper l, fun s ts h ht => uniform_tracts Ex.equal_uniform
    (SkyMapOps.After.trans (M := CachingSkyMap.skyMapOps Ex.equalMap) ⟨l, rfl⟩ h) ts ht⟩

/-- It can be registered in an empty registry: the remaining hypotheses of `C49_succeeds`. -/
example : (Ex.world Ex.equalMap).reg.Sound ∧ (∃ l, (BaseSkyMap.iter (CachingSkyMap.skyMapOps Ex.equalMap)
      (Ex.world Ex.equalMap).map).1 = .ok l) ∧ ∃ b, ((Ex.world Ex.equalMap).hashed.getSha1 id).1 = .ok b := by
  refine ⟨Registry.sound_empty, ?_, _, rfl⟩
  have h : ((BaseSkyMap.iter (CachingSkyMap.skyMapOps Ex.equalMap) (Ex.world Ex.equalMap).map).1.map List.length) = .ok 3 := by
    decide +kernel
  obtain ⟨l, h1, -⟩ := Except.map_ok_inv h
  exact ⟨l, h1⟩

/-- A non-empty registry with a registered sky map: `C50_packs` is not vacuous. -/
example : ∃ r : Registry (P2 ℚ), Registry.ProperHistory {} r ∧ r.patches.length = 36 := by
  refine ⟨_, Relation.ReflTransGen.single ⟨_, ℚ, inferInstance, inferInstance, inferInstance, id, fun _ => none, CachingSkyMap.skyMapOps Ex.equalMap, "m",
    Ex.world Ex.equalMap, Ex.equalMap_proper [], rfl, rfl⟩, ?_⟩
  decide +kernel

/-- Registering another sky map under the same name conflicts (`C48_conflict`); a failing butler leaves nothing (`C47_atomic`). -/
example : (match register id (fun _ => none) (CachingSkyMap.skyMapOps Ex.equalMap) "m" (Ex.world Ex.equalMap) with
      | (_, w) => (register id (fun _ => none) (CachingSkyMap.skyMapOps Ex.unequalMap) "m"
        { Ex.world Ex.unequalMap w.reg with hashed := ⟨.rings 121 0, Ex.hashConfig, .int 1, none⟩ }).1) =
      .error .ConflictingDefinitionError ∧
    (match register id (fun n => if n = 8 then some .RuntimeError else none) (CachingSkyMap.skyMapOps Ex.equalMap) "m"
        (Ex.world Ex.equalMap) with
      | (x, w) => (x, w.reg.skymaps.length, w.reg.tracts.length)) = (.error .RuntimeError, 0, 0) := by
  decide +kernel

end Skymap
