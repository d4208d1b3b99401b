import Verif.Model.Log
import Verif.Props.Search
import Verif.Spec.ExampleMap

/-! # C73: what `logSkyMapInfo` writes -/

set_option linter.unusedSectionVars false

namespace Skymap

variable {Sky K σ : Type} [Field K] [LinearOrder K] [FloorRing K]

/-- Specification: what the log says about a tract: its id, the corners of its outer polygon on the sky, its numbers of patches. -/
def LogSpec.line (posStr : Sky → String) (t : TractInfo Sky K) : String :=
  s!"tract {t.id} has corners {", ".intercalate (t.getOuterSkyPolygon.map posStr)} (RA, Dec deg) and {t.numPatches.x} x {t.numPatches.y} patches"

/-- Specification: the messages for a sky map of `n` tracts, of which those in the list were constructed. -/
def LogSpec.lines (posStr : Sky → String) (n : Nat) (ts : List (TractInfo Sky K)) : List String :=
  s!"sky map has {n} tracts" :: ts.map (LogSpec.line posStr)

open BaseSkyMap

theorem tractMessage_eq (posStr : Sky → String) (t : TractInfo Sky K) : tractMessage posStr t = LogSpec.line posStr t := by
  have : pixelPosList (Box2D.ofBox2I t.getBBox : Box2D K) = (Box2D.ofBox2I t.getBBox : Box2D K).getCorners := by
    generalize (Box2D.ofBox2I t.getBBox : Box2D K) = b
    cases b <;> rfl
  unfold tractMessage LogSpec.line TractInfo.getOuterSkyPolygon makeSkyPolygonFromBBox
  rw [this]
  simp [toString, String.append_assoc]

variable {M : SkyMapOps σ Sky K}

/-- The loop over the tracts `j`, ..., `j + n - 1`. -/
theorem log_loop (posStr : Sky → String) (out : Nat → PyM (TractInfo Sky K)) (n j : Nat) (s : σ) (l : List String)
    (hS : ∀ i s₁, M.After s s₁ → (M.getItem (i : Nat) s₁).1.map TractRef.info = out i) :
    ∃ (ts : List (TractInfo Sky K)) (s' : σ), M.After s s' ∧ ts.length ≤ n ∧ (∀ i t, ts[i]? = some t → out (j + i) = .ok t) ∧
      ((ts.length = n ∧ ∃ us, PyS.mapM (fun i : Nat => (PyS.onMap (M.getItem (i : Int)) >>= fun t => logInfo (tractMessage posStr t.info)))
          (List.range' j n) (s, l) = (.ok us, s', l ++ ts.map (LogSpec.line posStr))) ∨
       (ts.length < n ∧ ∃ e, out (j + ts.length) = .error e ∧
        PyS.mapM (fun i : Nat => (PyS.onMap (M.getItem (i : Int)) >>= fun t => logInfo (tractMessage posStr t.info)))
          (List.range' j n) (s, l) = (.error e, s', l ++ ts.map (LogSpec.line posStr)))) := by
  induction n generalizing j s l with
  | zero => exact ⟨[], s, SkyMapOps.After.refl _, by simp, by simp, .inl ⟨rfl, [], by simp [List.range', PyS.mapM, PyS.pure]⟩⟩
  | succ n ih =>
    have h0 := hS j s (SkyMapOps.After.refl _)
    rcases hg : M.getItem (j : Int) s with ⟨x, s₁⟩
    rw [hg] at h0
    have ha : M.After s s₁ := SkyMapOps.After.step' hg
    have hon : PyS.onMap (M.getItem (j : Int)) (s, l) = (x, s₁, l) := by simp [PyS.onMap, hg]
    rw [List.range'_succ, PyS.mapM_cons]
    cases x with
    | error e =>
      refine ⟨[], s₁, ha, by simp, by simp, .inr ⟨by simp, e, ?_, ?_⟩⟩
      · simpa [Except.map] using h0.symm
      · rw [PyS.bind_err (s' := (s₁, l)) (e := e)]
        · simp
        · rw [PyS.bind_err hon]
    | ok r =>
      obtain ⟨ts, s', a1, a2, a3, a4⟩ := ih (j + 1) s₁ (l ++ [tractMessage posStr r.info]) fun i s₂ h => hS i s₂ (ha.trans h)
      have hb : (PyS.onMap (M.getItem (j : Int)) >>= fun t => logInfo (tractMessage posStr t.info)) (s, l) =
          (.ok (), s₁, l ++ [tractMessage posStr r.info]) := by
        rw [PyS.bind_ok hon]; rfl
      have hl : l ++ [tractMessage posStr r.info] ++ ts.map (LogSpec.line posStr) = l ++ (r.info :: ts).map (LogSpec.line posStr) := by
        rw [tractMessage_eq]; simp
      refine ⟨r.info :: ts, s', ha.trans a1, by simpa using a2, ?_, ?_⟩
      · intro i t hi
        cases i with
        | zero =>
          simp only [List.getElem?_cons_zero, Option.some.injEq] at hi
          subst hi
          simpa [Except.map] using h0.symm
        | succ i =>
          rw [List.getElem?_cons_succ] at hi
          rw [show j + (i + 1) = j + 1 + i by omega]
          exact a3 i t hi
      · rw [hl] at a4
        rcases a4 with ⟨b1, us, b2⟩ | ⟨b1, e, b2, b3⟩
        · refine .inl ⟨by simp [b1], () :: us, ?_⟩
          rw [PyS.bind_ok hb, PyS.bind_ok b2]; rfl
        · refine .inr ⟨by simpa using b1, e, ?_, ?_⟩
          · rw [← b2]; congr 1; simp; omega
          · rw [PyS.bind_ok hb, PyS.bind_err b3]

/-- For any sky map whose tracts do not depend on what was accessed before. -/
theorem log_general (posStr : Sky → String) (out : Nat → PyM (TractInfo Sky K)) (s : σ) (l : List String)
    (hS : ∀ i s₁, M.After s s₁ → (M.getItem (i : Nat) s₁).1.map TractRef.info = out i) :
    ∃ (ts : List (TractInfo Sky K)) (s' : σ) (res : PyM Unit), M.After s s' ∧
      logSkyMapInfo posStr M (s, l) = (res, s', l ++ LogSpec.lines posStr M.len ts) ∧
      ts.length ≤ M.len ∧ (∀ i t, ts[i]? = some t → out i = .ok t) ∧
      ((ts.length = M.len ∧ res = .ok ()) ∨ (ts.length < M.len ∧ ∃ e, res = .error e ∧ out ts.length = .error e)) := by
  obtain ⟨ts, s', a1, a2, a3, a4⟩ := log_loop posStr out M.len 0 s (l ++ ["sky map has " ++ toString M.len ++ " tracts"]) hS
  have h0 : (logInfo ("sky map has " ++ toString M.len ++ " tracts") : PyS (σ × List String) Unit) (s, l) =
      (.ok (), s, l ++ ["sky map has " ++ toString M.len ++ " tracts"]) := rfl
  have hl : l ++ ["sky map has " ++ toString M.len ++ " tracts"] ++ ts.map (LogSpec.line posStr) = l ++ LogSpec.lines posStr M.len ts := by
    simp [LogSpec.lines, toString, String.append_assoc]
  rw [hl] at a4
  simp only [Nat.zero_add] at a3 a4
  rw [← List.range_eq_range'] at a4
  rcases a4 with ⟨b1, us, b2⟩ | ⟨b1, e, b2, b3⟩
  · refine ⟨ts, s', .ok (), a1, ?_, a2, a3, .inl ⟨b1, rfl⟩⟩
    unfold logSkyMapInfo
    rw [PyS.bind_ok h0, PyS.bind_ok b2]; rfl
  · refine ⟨ts, s', .error e, a1, ?_, a2, a3, .inr ⟨b1, e, rfl, b2⟩⟩
    unfold logSkyMapInfo
    rw [PyS.bind_ok h0, PyS.bind_err b3]

/-- C73, lazily built sky maps, after any history: the log receives the number of tracts and then, in the order of the indices, one
message for each tract of a new sky map up to the first that cannot be constructed; its exception, if any, is raised.  The sky map is
changed only by the accesses to its tracts. -/
theorem C73_log_caching (m : CachingDef Sky K) (b₀ : TractBuilder) {s : MapState Sky K} (posStr : Sky → String) (l : List String)
    (h : (CachingSkyMap.skyMapOps m).After (CachingSkyMap.init m b₀) s) :
    ∃ (ts : List (TractInfo Sky K)) (s' : MapState Sky K) (res : PyM Unit), (CachingSkyMap.skyMapOps m).After s s' ∧
      logSkyMapInfo posStr (CachingSkyMap.skyMapOps m) (s, l) = (res, s', l ++ LogSpec.lines posStr m.numTracts ts) ∧
      ts.length ≤ m.numTracts ∧
      (∀ (i : Nat) t, ts[i]? = some t → (CachingSkyMap.getItem m i (CachingSkyMap.init m b₀)).1.map TractRef.info = .ok t) ∧
      ((ts.length = m.numTracts ∧ res = .ok ()) ∨ (ts.length < m.numTracts ∧ ∃ e, res = .error e ∧
        (CachingSkyMap.getItem m ts.length (CachingSkyMap.init m b₀)).1.map TractRef.info = .error e)) :=
  log_general (M := CachingSkyMap.skyMapOps m) posStr (fun i => (CachingSkyMap.getItem m i (CachingSkyMap.init m b₀)).1.map TractRef.info)
    s l fun i _ h1 => C19_history_independent (h.trans h1) i

/-- C73: the messages and the outcome do not depend on the history of the sky map. -/
theorem C73_history (m : CachingDef Sky K) (b₀ : TractBuilder) {s s₁ : MapState Sky K} (posStr : Sky → String) (l : List String)
    (h : (CachingSkyMap.skyMapOps m).After (CachingSkyMap.init m b₀) s)
    (h1 : (CachingSkyMap.skyMapOps m).After (CachingSkyMap.init m b₀) s₁) :
    (logSkyMapInfo posStr (CachingSkyMap.skyMapOps m) (s, l)).1 = (logSkyMapInfo posStr (CachingSkyMap.skyMapOps m) (s₁, l)).1 ∧
    (logSkyMapInfo posStr (CachingSkyMap.skyMapOps m) (s, l)).2.2 = (logSkyMapInfo posStr (CachingSkyMap.skyMapOps m) (s₁, l)).2.2 := by
  obtain ⟨ts, s', res, -, e1, a1, a2, a3⟩ := C73_log_caching m b₀ posStr l h
  obtain ⟨ts', s'', res', -, e2, b1, b2, b3⟩ := C73_log_caching m b₀ posStr l h1
  rw [e1, e2]
  have key : ∀ {u v : List (TractInfo Sky K)} {e : PyErr}, u.length < v.length →
      (CachingSkyMap.getItem m u.length (CachingSkyMap.init m b₀)).1.map TractRef.info = .error e →
      (∀ (i : Nat) t, v[i]? = some t → (CachingSkyMap.getItem m i (CachingSkyMap.init m b₀)).1.map TractRef.info = .ok t) → False := by
    intro u v e huv hu hv
    have := hv u.length v[u.length] (List.getElem?_eq_getElem huv)
    rw [hu] at this
    cases this
  have hlen : ts.length = ts'.length := by
    rcases lt_trichotomy ts.length ts'.length with hlt | he | hlt
    · rcases a3 with ⟨c1, -⟩ | ⟨c1, e, -, c3⟩
      · omega
      · exact (key hlt c3 b2).elim
    · exact he
    · rcases b3 with ⟨c1, -⟩ | ⟨c1, e, -, c3⟩
      · omega
      · exact (key hlt c3 a2).elim
  have hts : ts = ts' := by
    apply List.ext_getElem? fun i => ?_
    by_cases hi : i < ts.length
    · have x1 := a2 i _ (List.getElem?_eq_getElem hi)
      have x2 := b2 i _ (List.getElem?_eq_getElem (hlen ▸ hi))
      rw [x1, Except.ok.injEq] at x2
      rw [List.getElem?_eq_getElem hi, List.getElem?_eq_getElem (hlen ▸ hi), x2]
    · rw [List.getElem?_eq_none (by omega), List.getElem?_eq_none (by omega)]
  subst hts
  refine ⟨?_, rfl⟩
  rcases a3 with ⟨c1, c2⟩ | ⟨c1, e, c2, c3⟩ <;> rcases b3 with ⟨d1, d2⟩ | ⟨d1, e', d2, d3⟩
  · rw [c2, d2]
  · omega
  · omega
  · rw [c2, d2]
    rw [c3, Except.error.injEq] at d3
    rw [d3]

/-- C73, sky maps whose constructor builds all tracts: one message for each tract, and nothing changes. -/
theorem C73_log_eager (ts : List (TractRef Sky K)) (b : TractBuilder) (posStr : Sky → String) (l : List String) :
    logSkyMapInfo posStr (EagerSkyMap.skyMapOps ts) (b, l) =
      (.ok (), b, l ++ LogSpec.lines posStr ts.length (ts.map TractRef.info)) := by
  have hget : ∀ (i : Nat) (b : TractBuilder) (hi : i < ts.length), ((EagerSkyMap.skyMapOps ts).getItem i b).1.map TractRef.info =
      .ok (ts[i]'hi).info := by
    intro i b hi
    simp only [EagerSkyMap.skyMapOps, PyS.lift]
    rw [CachingSkyMap.pyGetItem_nat (List.getElem?_eq_getElem hi)]
    rfl
  obtain ⟨us, s', res, a0, a1, a2, a3, a4⟩ := log_general (M := EagerSkyMap.skyMapOps ts) posStr
    (fun i => ((EagerSkyMap.skyMapOps ts).getItem i b).1.map TractRef.info) b l (fun i s₁ _ => rfl)
  have hs := eager_state ts a0
  subst hs
  rw [a1]
  have hl : (EagerSkyMap.skyMapOps ts).len = ts.length := rfl
  rcases a4 with ⟨c1, rfl⟩ | ⟨c1, e, -, c3⟩
  · have : us = ts.map TractRef.info := by
      apply List.ext_getElem? fun i => ?_
      by_cases hi : i < ts.length
      · have hu : i < us.length := by rw [c1]; exact hi
        have x := a3 i _ (List.getElem?_eq_getElem hu)
        rw [hget i s' hi, Except.ok.injEq] at x
        rw [List.getElem?_eq_getElem hu, ← x]
        simp [hi]
      · rw [List.getElem?_eq_none (by rw [c1, hl]; omega), List.getElem?_eq_none (by simpa using hi)]
    rw [this, hl]
  · rw [hget us.length s' (by rw [← hl]; exact c1)] at c3
    cases c3

/-! ## Examples -/

/-- The messages for a sky map of two tracts, of which the second was accessed before, are three: one for each tract after the first. -/
example (posStr : P2 ℚ → String) : ∃ (t t' : TractInfo (P2 ℚ) ℚ) (s' : MapState (P2 ℚ) ℚ),
    logSkyMapInfo posStr (CachingSkyMap.skyMapOps Ex.unequalMap) (Ex.visit Ex.unequalMap [1], ["before"]) =
    (.ok (), s', ["before"] ++ LogSpec.lines posStr 2 [t, t']) ∧ (t.id, t.numPatches, t.bbox) = (0, ⟨3, 4⟩, ⟨⟨0, 0⟩, ⟨12, 12⟩⟩) ∧
      (t'.id, t'.numPatches, t'.bbox) = (1, ⟨6, 8⟩, ⟨⟨0, 0⟩, ⟨24, 24⟩⟩) := by
  obtain ⟨ts, s', res, -, e1, a1, a2, a3⟩ := C73_log_caching Ex.unequalMap Ex.legacy posStr ["before"] (s := Ex.visit Ex.unequalMap [1]) ⟨[1], rfl⟩
  have hn : Ex.unequalMap.numTracts = 2 := rfl
  have k0 : ((CachingSkyMap.getItem Ex.unequalMap ((0 : Nat) : Int) (CachingSkyMap.init Ex.unequalMap Ex.legacy)).1.map TractRef.info).map
      (fun t => (t.id, t.numPatches, t.bbox)) = .ok (0, ⟨3, 4⟩, ⟨⟨0, 0⟩, ⟨12, 12⟩⟩) := by decide +kernel
  have k1 : ((CachingSkyMap.getItem Ex.unequalMap ((1 : Nat) : Int) (CachingSkyMap.init Ex.unequalMap Ex.legacy)).1.map TractRef.info).map
      (fun t => (t.id, t.numPatches, t.bbox)) = .ok (1, ⟨6, 8⟩, ⟨⟨0, 0⟩, ⟨24, 24⟩⟩) := by decide +kernel
  rw [hn] at e1 a1 a3
  have hl : ts.length = 2 ∧ res = .ok () := by
    rcases a3 with h | ⟨h, e, -, c⟩
    · exact h
    · rcases (by omega : ts.length = 0 ∨ ts.length = 1) with h0 | h0 <;> rw [h0] at c
      · rw [c] at k0; cases k0
      · rw [c] at k1; cases k1
  obtain ⟨hl, rfl⟩ := hl
  obtain ⟨t, t', rfl⟩ := List.length_eq_two.1 hl
  rw [a2 0 t rfl] at k0
  rw [a2 1 t' rfl] at k1
  exact ⟨t, t', s', e1, Except.ok.inj k0, Except.ok.inj k1⟩

end Skymap
