import Verif.Props.AllMaps
import Verif.Lemmas.GenerateRounding

/-! # C71: exactly when equal sky maps have the same tracts -/

namespace Skymap
namespace Rings
open FloatArith (exact)
variable {c : RingsConfig ℝ} {R R' : Rings ℝ}

/-- With one ring the two versions number the tracts in the same way. -/
theorem one_ring_args {A : FloatArith ℝ} (h : Rings.new A c 0 = .ok R) (h' : Rings.new A c 1 = .ok R') (hN : c.numRings = 1) {i : Int}
    (hi : 0 ≤ i ∧ i < R.numTracts) : R.center A i = R'.center A i ∧ R.getRaDecRange A i = R'.getRaDecRange A i := by
  obtain ⟨e1, e2, e3, e4, e5⟩ := versions h h'
  obtain ⟨f1, hv, -, -, f5, -⟩ := new_attr h
  obtain ⟨f1', hv', -⟩ := new_attr h'
  have hlen : R.ringNums.length = 1 := by rw [f5, List.length_map, List.length_range, hN]
  obtain ⟨a, ha⟩ := List.length_eq_one_iff.mp hlen
  have ha' : R'.ringNums = [a] := by rw [← e2]; exact ha
  have hnum : R.numTracts = a + 2 := by unfold numTracts; rw [ha]; simp
  have hnum' : R'.numTracts = a + 2 := by rw [← e5]; exact hnum
  have hidx : R.getRingIndices i = R'.getRingIndices i := by
    unfold getRingIndices
    rw [hnum, hnum', ha, ha', e1, hv, hv']
    by_cases h0 : i = 0
    · rw [if_pos h0, if_pos h0]
    rw [if_neg h0, if_neg h0]
    by_cases h1 : i = a + 2 - 1
    · rw [if_pos h1, if_pos h1]
    rw [if_neg h1, if_neg h1, if_neg (show ¬ (i < 0 ∨ i ≥ a + 2) by omega),
      if_neg (show ¬ (i < 0 ∨ i ≥ a + 2) by omega), if_pos rfl, if_neg (by decide)]
    unfold ringLoop
    rw [if_neg (by simp; omega), if_neg (by simp; omega)]
  unfold center getRaDecRange
  rw [hidx, e1, e2, e3, e4]
  exact ⟨rfl, rfl⟩

/-- The position of a tract of a ring, if it has one. -/
theorem center_coord {A : FloatArith ℝ} {i t n : Int} {k : Nat} {p : SpherePoint ℝ} (hi : R.getRingIndices i = .ok ((k : Int), t)) (h1 : (k : Int) ≠ -1)
    (h2 : (k : Int) ≠ R.config.numRings) (hn : R.ringNums[k]? = some n) (hc : R.center A i = .ok p) :
    p.lon = A.wrap (A.wrap (A.add (A.div (A.mul (A.mul 2 A.pi) t) n) R.raStart)) ∧
      p.lat = A.sub (A.mul R.ringSize (((k : Int) : ℝ) + 1)) (A.mul (1 / 2) A.pi) := by
  unfold center at hc
  rw [hi] at hc
  simp only [bind, Except.bind] at hc
  rw [if_neg h1, if_neg h2, CachingSkyMap.pyGetItem_nat hn] at hc
  dsimp only at hc
  unfold FloatArith.point at hc
  split at hc
  · cases hc
  · obtain rfl := Except.ok.inj hc
    exact ⟨rfl, rfl⟩

end Rings

namespace AllMaps
variable {H : Bytes → Bytes} {L : SkyLib} {cls₁ cls₂ cls : MapClass} {config₁ config₂ config : SkyMapConfig Dbl}
variable {version₁ version₂ : Version} {o₁ o₂ o₁' o₂' : SkyMapObj (SpherePoint ℝ) ℝ}

theorem SameTracts.symm (h : o₁.SameTracts o₂) : o₂.SameTracts o₁ := ⟨h.1.symm, fun i => (h.2 i).symm⟩

theorem SameTracts.trans {o₃ : SkyMapObj (SpherePoint ℝ) ℝ} (h : o₁.SameTracts o₂) (h' : o₂.SameTracts o₃) : o₁.SameTracts o₃ :=
  ⟨h.1.trans h'.1, fun i => (h.2 i).trans (h'.2 i)⟩

/-- Rings maps of one ring have the same tracts in both versions. -/
theorem one_ring_same {s : Dbl}
    (h₁ : SkyMapObj.new L.impl (.rings 1 s) config (.int 0) = .ok o₁) (h₂ : SkyMapObj.new L.impl (.rings 1 s) config (.int 1) = .ok o₂) :
    o₁.SameTracts o₂ := by
  obtain ⟨R, b, hR, hb, t₁⟩ := new_rings_any (by norm_num) h₁
  obtain ⟨R', b', hR', hb', t₂⟩ := new_rings_any (by norm_num) h₂
  obtain ⟨e1, e2, e3, e4, e5⟩ := Rings.versions hR hR'
  rw [hb] at hb'
  obtain rfl := Except.ok.inj hb'
  unfold SkyMapObj.SameTracts SkyMapObj.len SkyMapObj.getItem
  rw [t₁, t₂]
  dsimp only
  have hn : R.numTracts.toNat = R'.numTracts.toNat := by rw [e5]
  refine ⟨hn, fun i => ?_⟩
  generalize hm : R.cachingDef L.arith L.env L.ops (L.wcs { config with frozen := true }) = m
  generalize hm' : R'.cachingDef L.arith L.env L.ops (L.wcs { config with frozen := true }) = m'
  have hnum : m.numTracts = m'.numTracts := by rw [← hm, ← hm']; exact hn
  have hnumI : (m.numTracts : Int) = R.numTracts.toNat := by rw [← hm]; rfl
  by_cases hi : 0 ≤ i ∧ i < m.numTracts
  · have hargs : m.tractArgs i = m'.tractArgs i := by
      obtain ⟨c1, c2⟩ := Rings.one_ring_args hR hR' rfl (i := i) ⟨hi.1, by omega⟩
      rw [← hm, ← hm']
      unfold Rings.cachingDef
      dsimp only
      rw [c1, c2, e1, e3]
    have henv : m.env = m'.env := by rw [← hm, ← hm']; rfl
    have hops : m.ops = m'.ops := by rw [← hm, ← hm']; rfl
    unfold CachingSkyMap.getItem CachingSkyMap.generateTract CachingSkyMap.init
    rw [hargs, henv, hops, hnum]
  · rw [CachingSkyMap.getItem_out (CachingSkyMap.Inv.init m b) hi,
      CachingSkyMap.getItem_out (CachingSkyMap.Inv.init m' b) (by rw [← hnum]; exact hi)]

/-- Only 0 and 1 are versions of a rings map. -/
theorem rings_version {n : Int} {s : Dbl} {v : Version} (h : SkyMapObj.new L.impl (.rings n s) config v = .ok o₁) :
    1 ≤ n ∧ (v = .int 0 ∨ v = .int 1) := by
  unfold SkyMapObj.new at h
  split at h
  · simp at h
  · split at h
    · simp at h
    all_goals
      rename_i hx
      simp only [SkyLib.impl, SkyLib.tracts, SkyMapObj.versionOf, MapClass.isCaching, if_true] at hx
      split at hx
      · simp at hx
      split at hx
      · simp at hx
      rename_i w
      unfold Rings.new at hx
      split at hx
      · simp [Except.map] at hx
      exact ⟨by omega, by by_cases hw : w = 0 <;> simp_all⟩

/-- Rings maps of two rings or more, with the same configuration, of different versions do not have the same tracts, if the tracts of
one of them can be built. -/
theorem rings_differ (hA : L.arith = FloatArith.exact) {n : Int} {s : Dbl} (hn : 2 ≤ n)
    (h₁ : SkyMapObj.new L.impl (.rings n s) config (.int 0) = .ok o₁) (h₂ : SkyMapObj.new L.impl (.rings n s) config (.int 1) = .ok o₂)
    (hm : ∃ b, sha1Message (.rings n s) config = .ok b)
    (hb : ∀ i : Int, 0 ≤ i → i < o₂.len → ∃ r, (o₂.getItem i).1 = .ok r) : ¬ o₁.SameTracts o₂ := by
  intro hs
  obtain ⟨-, -, j, j0, j1, d⟩ := C39_fails_rings (fun x => x) L hA hn h₁ h₂ hm
  obtain ⟨r₂, g₂⟩ := hb j j0 j1
  have := hs.2 j
  rw [g₂] at this
  cases g₁ : (o₁.getItem j).1 with
  | error e => rw [g₁] at this; simp [Except.map] at this
  | ok r₁ =>
    rw [g₁] at this
    simp only [Except.map, Except.ok.injEq] at this
    exact d j r₁ r₂ _ _ (Prod.ext g₁ rfl) (Prod.ext g₂ rfl) (by rw [this])

/-- A rings map can be made in both versions, if in one. -/
theorem rings_other {n : Int} {s : Dbl} {v : Version} (h : SkyMapObj.new L.impl (.rings n s) config v = .ok o₁) {w : Int}
    (hw : w = 0 ∨ w = 1) : ∃ o, SkyMapObj.new L.impl (.rings n s) config (.int w) = .ok o := by
  obtain ⟨hn, hv⟩ := rings_version h
  have hx : ∀ (c : SkyMapConfig Dbl) (w : Int), w = 0 ∨ w = 1 → ∃ m,
      L.impl.tracts (.rings n s) c (SkyMapObj.versionOf (.rings n s) (.int w)) = .ok (.inl m) := by
    intro c w hw
    simp only [SkyLib.impl, SkyLib.tracts, SkyMapObj.versionOf, MapClass.isCaching, if_true]
    rw [if_neg (by omega)]
    unfold Rings.new
    rw [if_neg (by omega)]
    exact ⟨_, rfl⟩
  unfold SkyMapObj.new at h ⊢
  split at h
  · simp at h
  · rename_i b c hb
    obtain ⟨m, hm⟩ := hx c w hw
    rw [hm]
    exact ⟨_, rfl⟩

/-- The proof of C71, for an arithmetic in which rings maps of different versions and two rings or more differ. -/
theorem same_tracts_iff (H : Bytes → Bytes) (L : SkyLib) (hd : ∀ n s, cls₁ = .rings n s → 2 ≤ n → ∀ o₁ o₂,
      SkyMapObj.new L.impl (.rings n s) config₁ (.int 0) = .ok o₁ → SkyMapObj.new L.impl (.rings n s) config₁ (.int 1) = .ok o₂ →
      (∃ b, sha1Message (.rings n s) config₁ = .ok b) → (∀ i : Int, 0 ≤ i → i < o₂.len → ∃ r, (o₂.getItem i).1 = .ok r) → ¬ o₁.SameTracts o₂)
    (h₁ : SkyMapObj.new L.impl cls₁ config₁ version₁ = .ok o₁) (h₂ : SkyMapObj.new L.impl cls₂ config₂ version₂ = .ok o₂)
    (hh₁ : MapHistory H o₁ o₁') (hh₂ : MapHistory H o₂ o₂')
    (hb : ∀ i : Int, 0 ≤ i → i < o₁.len → ∃ r, (o₁.getItem i).1 = .ok r)
    (heq : (HashedMap.eq H (o₁'.hashed, o₂'.hashed)).1 = .ok true) :
    (o₁'.SameTracts o₂' ↔ ∀ n s, cls₁ = .rings n s → 2 ≤ n → version₁ = version₂) ∨ ∃ a b : Bytes, a ≠ b ∧ H a = H b := by
  rw [C41_equality_never_changes H L.impl _ _ _ _ _ _ _ _ _ _ h₁ h₂ hh₁ hh₂] at heq
  rcases C38_same_of_equal H _ _ (new_spec h₁).2.1 (new_spec h₂).2.1 (new_cacheOk h₁ H) (new_cacheOk h₂ H) heq with hs | hc
  swap
  · exact .inr hc
  left
  have a := history_same h₁ hh₁
  have b := history_same h₂ hh₂
  have hiff : o₁'.SameTracts o₂' ↔ o₁.SameTracts o₂ :=
    ⟨fun h => SameTracts.trans (SameTracts.symm a) (SameTracts.trans h b),
      fun h => SameTracts.trans a (SameTracts.trans h (SameTracts.symm b))⟩
  rw [hiff]
  have of_tracts : ∀ {x y : SkyMapObj (SpherePoint ℝ) ℝ}, x.tracts = y.tracts → x.SameTracts y := by
    intro x y e
    unfold SkyMapObj.SameTracts SkyMapObj.len SkyMapObj.getItem
    rw [e]
    refine ⟨rfl, fun i => ?_⟩
    cases y.tracts <;> rfl
  by_cases hr : ∃ n s, cls₁ = .rings n s ∧ version₁ ≠ version₂
  swap
  · have hv : ∀ n s, cls₁ = .rings n s → version₁ = version₂ := fun n s h => by
      by_contra hc
      exact hr ⟨n, s, h, hc⟩
    exact ⟨fun _ n s h _ => hv n s h, fun _ => of_tracts (new_same h₁ h₂ hs fun ⟨n, s, h⟩ => hv n s h)⟩
  obtain ⟨n, s, rfl, hne⟩ := hr
  -- a third map, with the configuration of the first and the version of the second
  have hcls : cls₂ = .rings n s := by
    have := hs.1
    rw [(new_spec h₁).1, (new_spec h₂).1] at this
    exact this.symm
  subst hcls
  obtain ⟨hn, hv₁⟩ := rings_version h₁
  obtain ⟨-, hv₂⟩ := rings_version h₂
  obtain ⟨o₃, h₃⟩ : ∃ o, SkyMapObj.new L.impl (.rings n s) config₁ version₂ = .ok o := by
    rcases hv₂ with rfl | rfl
    · exact rings_other h₁ (.inl rfl)
    · exact rings_other h₁ (.inr rfl)
  have hs₃ : o₃.hashed.Same o₂.hashed := by
    rw [(new_spec h₁).1] at hs
    rw [(new_spec h₃).1]
    obtain ⟨s1, s2, s3, s4, s5, s6, s7, s8⟩ := hs
    exact ⟨s1, s2, s3, s4, s5, s6, s7, s8⟩
  have e₃ := of_tracts (new_same h₃ h₂ hs₃ fun _ => rfl)
  have hm : ∃ b, sha1Message (.rings n s) config₁ = .ok b := by
    rw [eq_val (new_cacheOk h₁ H) (new_cacheOk h₂ H), (new_spec h₁).1] at heq
    change (do
      let a ← sha1Message (.rings n s) config₁
      let b ← sha1Message o₂.hashed.cls o₂.hashed.config
      return H a == H b) = _ at heq
    cases hx : sha1Message (.rings n s) config₁ with
    | error e => rw [hx] at heq; simp [bind, Except.bind] at heq
    | ok m => exact ⟨m, rfl⟩
  have hiff2 : o₁.SameTracts o₂ ↔ o₁.SameTracts o₃ :=
    ⟨fun h => SameTracts.trans h (SameTracts.symm e₃), fun h => SameTracts.trans h e₃⟩
  rw [hiff2]
  by_cases hn2 : 2 ≤ n
  · refine iff_of_false ?_ fun h => hne (h n s rfl hn2)
    rcases hv₁ with rfl | rfl <;> rcases hv₂ with rfl | rfl
    · exact absurd rfl hne
    · intro hst
      refine hd n s rfl hn2 _ _ h₁ h₃ hm (fun i i0 i1 => ?_) hst
      obtain ⟨r, hr⟩ := hb i i0 (by rw [hst.1]; exact i1)
      have := hst.2 i
      rw [hr] at this
      cases g : (o₃.getItem i).1 with
      | error e => rw [g] at this; simp [Except.map] at this
      | ok r' => exact ⟨r', rfl⟩
    · exact fun hst => hd n s rfl hn2 _ _ h₃ h₁ hm hb (SameTracts.symm hst)
    · exact absurd rfl hne
  · obtain rfl : n = 1 := by omega
    refine iff_of_true ?_ fun n' s' h h2 => ?_
    · rcases hv₁ with rfl | rfl <;> rcases hv₂ with rfl | rfl
      · exact absurd rfl hne
      · exact one_ring_same h₁ h₃
      · exact SameTracts.symm (one_ring_same h₃ h₁)
      · exact absurd rfl hne
    · exact absurd (MapClass.rings.inj h).1 (by omega)

/-- C71: two sky maps of the classes of /repo that compare equal, at any point of their lives, and whose tracts can be built, have the
same tracts exactly if they are not rings maps with two rings or more and of different versions; or else SHA-1 has a collision
(exact arithmetic). -/
theorem C71_same_tracts_iff (H : Bytes → Bytes) (L : SkyLib) (hA : L.arith = FloatArith.exact)
    (h₁ : SkyMapObj.new L.impl cls₁ config₁ version₁ = .ok o₁) (h₂ : SkyMapObj.new L.impl cls₂ config₂ version₂ = .ok o₂)
    (hh₁ : MapHistory H o₁ o₁') (hh₂ : MapHistory H o₂ o₂')
    (hb : ∀ i : Int, 0 ≤ i → i < o₁.len → ∃ r, (o₁.getItem i).1 = .ok r)
    (heq : (HashedMap.eq H (o₁'.hashed, o₂'.hashed)).1 = .ok true) :
    (o₁'.SameTracts o₂' ↔ ∀ n s, cls₁ = .rings n s → 2 ≤ n → version₁ = version₂) ∨ ∃ a b : Bytes, a ≠ b ∧ H a = H b :=
  same_tracts_iff H L (fun _ _ _ hn _ _ g₁ g₂ hm hb => rings_differ hA hn g₁ g₂ hm hb) h₁ h₂ hh₁ hh₂ hb heq

/-- Rounded arithmetic: rings maps of two rings or more of different versions do not have the same tracts, since the first tract after
the first ring of version 1 belongs to the first ring in version 0. -/
theorem rings_differ_rounding (hA : L.arith.Ieee) (hh : L.arith.HalfPi) {n : Int} {s : Dbl} (hn : 2 ≤ n) (hn2 : n ≤ 2 ^ 31)
    (hr : |L.val s| ≤ 360)
    (h₁ : SkyMapObj.new L.impl (.rings n s) config (.int 0) = .ok o₁) (h₂ : SkyMapObj.new L.impl (.rings n s) config (.int 1) = .ok o₂)
    (hb : ∀ i : Int, 0 ≤ i → i < o₂.len → ∃ r, (o₂.getItem i).1 = .ok r) : ¬ o₁.SameTracts o₂ := by
  intro hs
  obtain ⟨R, b, hR, -, t₁⟩ := new_rings_any (by omega) h₁
  obtain ⟨R', b', hR', -, t₂⟩ := new_rings_any (by omega) h₂
  obtain ⟨v1, v2, v3, v4, v5⟩ := Rings.versions hR hR'
  have hN : 2 ≤ n.toNat := by omega
  have hN2 : n.toNat ≤ 2 ^ 31 := by omega
  obtain ⟨wf, -⟩ := Rings.new_wf_rounding hA hR (by dsimp only; omega) hN2
  obtain ⟨wf', -⟩ := Rings.new_wf_rounding hA hR' (by dsimp only; omega) hN2
  obtain ⟨f1, hv, -⟩ := Rings.new_attr hR
  obtain ⟨f1', hv', -⟩ := Rings.new_attr hR'
  have hl2 : o₂.len = R'.numTracts.toNat := by unfold SkyMapObj.len; rw [t₂]; rfl
  have hlen := wf.length
  rw [f1] at hlen
  dsimp only at hlen
  obtain ⟨n0, h0⟩ : ∃ x, R.ringNums[0]? = some x := ⟨_, List.getElem?_eq_getElem (show 0 < R.ringNums.length by omega)⟩
  obtain ⟨n1, h1⟩ : ∃ x, R.ringNums[1]? = some x := ⟨_, List.getElem?_eq_getElem (show 1 < R.ringNums.length by omega)⟩
  have p0 := wf.pos _ (List.mem_of_getElem? h0)
  have p1 := wf.pos _ (List.mem_of_getElem? h1)
  have r0 := wf.block_range h0 (u := 0) (le_refl _) p0
  have r1 := wf.block_range h1 (u := 0) (le_refl _) p1
  have s1 := Rings.sum_take_succ h0
  simp only [List.take_zero, List.sum_nil, zero_add, add_zero] at s1 r0 r1
  rw [s1] at r1
  have h0' : R'.ringNums[0]? = some n0 := by rw [← v2]; exact h0
  have h1' : R'.ringNums[1]? = some n1 := by rw [← v2]; exact h1
  -- the ring and the number in the ring
  have i0 : R.getRingIndices (1 + n0) = .ok (0, n0) := by
    have := wf.getRingIndices_ring0 hv h0 p0 (le_refl _) (by simp; omega)
    simpa using this
  have i1 : R'.getRingIndices (1 + n0) = .ok (1, 0) := by
    have := wf'.getRingIndices_ring hv' h1' (le_refl _) p1
    rw [← v2, s1] at this
    simpa using this
  have i2 : R'.getRingIndices 1 = .ok (0, 0) := by
    have := wf'.getRingIndices_ring hv' h0' (le_refl _) p0
    simpa using this
  obtain ⟨r₂, g₂⟩ := hb (1 + n0) (by omega) (by rw [hl2]; omega)
  have hs2 := hs.2 (1 + n0)
  rw [g₂] at hs2
  cases g₁ : (o₁.getItem (1 + n0)).1 with
  | error e => rw [g₁] at hs2; simp [Except.map] at hs2
  | ok r₁ =>
    rw [g₁] at hs2
    simp only [Except.map, Except.ok.injEq] at hs2
    obtain ⟨-, -, c1⟩ := rings_item_center t₁ (Prod.ext g₁ rfl : o₁.getItem (1 + n0) = (.ok r₁, (o₁.getItem (1 + n0)).2))
    obtain ⟨-, -, c2⟩ := rings_item_center t₂ (Prod.ext g₂ rfl : o₂.getItem (1 + n0) = (.ok r₂, (o₂.getItem (1 + n0)).2))
    rw [← hs2] at c2
    obtain ⟨p, c3, -⟩ := Rings.C28_rounding hA hh hR' (by dsimp only; omega) hN2 hr (i := 1) (by omega)
    suffices hp : p = r₁.info.ctrCoord by
      have := Rings.C28_rounding_distinct hA hh hR' (by dsimp only; omega) hN2 hr (i := 1) (j := 1 + n0) (by omega) (by omega) (by rw [c3, c2, hp])
      omega
    have hz : ∀ x m : ℝ, L.arith.div (L.arith.mul x ((0 : Int) : ℝ)) m = 0 := by
      intro x m
      simp [FloatArith.div, FloatArith.mul, hA.zero]
    obtain ⟨-, l1⟩ := Rings.center_coord i0 (by omega) (by rw [f1]; dsimp only; omega) h0 c1
    obtain ⟨m2, l2⟩ := Rings.center_coord (k := 1) i1 (by omega) (by rw [f1']; dsimp only; omega) h1' c2
    obtain ⟨m3, l3⟩ := Rings.center_coord i2 (by omega) (by rw [f1']; dsimp only; omega) h0' c3
    obtain ⟨plon, plat⟩ := p
    rw [hz] at m2 m3
    rw [v3] at l1
    dsimp only at m3 l3
    rw [m3, l3, ← m2, ← l1]

/-- C71, with the arithmetic of doubles: the same, for rings maps of at most 2^31 rings that start within a turn. -/
theorem C71_rounding (H : Bytes → Bytes) (L : SkyLib) (hA : L.arith.Ieee) (hh : L.arith.HalfPi)
    (hc : ∀ n s, cls₁ = .rings n s → n ≤ 2 ^ 31 ∧ |L.val s| ≤ 360)
    (h₁ : SkyMapObj.new L.impl cls₁ config₁ version₁ = .ok o₁) (h₂ : SkyMapObj.new L.impl cls₂ config₂ version₂ = .ok o₂)
    (hh₁ : MapHistory H o₁ o₁') (hh₂ : MapHistory H o₂ o₂')
    (hb : ∀ i : Int, 0 ≤ i → i < o₁.len → ∃ r, (o₁.getItem i).1 = .ok r)
    (heq : (HashedMap.eq H (o₁'.hashed, o₂'.hashed)).1 = .ok true) :
    (o₁'.SameTracts o₂' ↔ ∀ n s, cls₁ = .rings n s → 2 ≤ n → version₁ = version₂) ∨ ∃ a b : Bytes, a ≠ b ∧ H a = H b :=
  same_tracts_iff H L (fun n s hcl hn _ _ g₁ g₂ _ hb => rings_differ_rounding hA hh hn (hc n s hcl).1 (hc n s hcl).2 g₁ g₂ hb)
    h₁ h₂ hh₁ hh₂ hb heq

/-! ## The hypotheses can be met -/

/-- All tracts of the rings maps of version 1 can be built. -/
theorem Ex.rings_build {n : Int} {s : Dbl} {o : SkyMapObj (SpherePoint ℝ) ℝ} (hn : 1 ≤ n)
    (h : SkyMapObj.new Ex.lib.impl (.rings n s) Ex.hashConfig (.int 1) = .ok o) (j : Int) (j0 : 0 ≤ j) (j1 : j < o.len) :
    ∃ r, (o.getItem j).1 = .ok r := by
  obtain ⟨R, b, hR, hb, t⟩ := new_rings (L := Ex.lib) rfl hn h
  have hb' : b.patchInnerDimensions = ⟨3000, 3000⟩ := by
    have : (Except.ok b : PyM TractBuilder).map TractBuilder.patchInnerDimensions = .ok ⟨3000, 3000⟩ := by
      rw [← hb]; decide +kernel
    simpa [Except.map] using this
  have hl : o.len = R.numTracts.toNat := by unfold SkyMapObj.len; rw [t]; rfl
  have hj : 0 ≤ j ∧ j < R.numTracts := ⟨j0, by omega⟩
  obtain ⟨r, s', hg⟩ := Rings.generate (env := Ex.lib.env) (ops := Ex.lib.ops) (mk := Ex.lib.wcs { Ex.hashConfig with frozen := true })
    (b₀ := b) hR (by rw [hb']; decide) (by rw [hb']; decide) (fun _ _ _ => ⟨_, rfl⟩) (i := j) hj (.refl _)
  unfold SkyMapObj.getItem
  rw [t]
  change CachingSkyMap.getItem _ j _ = _ at hg
  exact ⟨r, congrArg Prod.fst hg⟩

/-- One ring, and 120 rings, in both versions: the maps are constructed, compare equal, and their tracts can be built; with one ring
they have the same tracts, with 120 they do not. -/
theorem Ex.rings_equal (H : Bytes → Bytes) {n : Int} (hn : n = 1 ∨ n = 120) :
    ∃ o₁ o₂, SkyMapObj.new Ex.lib.impl (.rings n 0) Ex.hashConfig (.int 1) = .ok o₁ ∧
    SkyMapObj.new Ex.lib.impl (.rings n 0) Ex.hashConfig (.int 0) = .ok o₂ ∧
    (HashedMap.eq H (o₁.hashed, o₂.hashed)).1 = .ok true ∧ (∀ i : Int, 0 ≤ i → i < o₁.len → ∃ r, (o₁.getItem i).1 = .ok r) := by
  have h₁ : ∃ o, SkyMapObj.new Ex.lib.impl (.rings n 0) Ex.hashConfig (.int 1) = .ok o := by rcases hn with rfl | rfl <;> exact ⟨_, rfl⟩
  have h₂ : ∃ o, SkyMapObj.new Ex.lib.impl (.rings n 0) Ex.hashConfig (.int 0) = .ok o := by rcases hn with rfl | rfl <;> exact ⟨_, rfl⟩
  obtain ⟨o₁, h₁⟩ := h₁
  obtain ⟨o₂, h₂⟩ := h₂
  refine ⟨o₁, o₂, h₁, h₂, ?_, Ex.rings_build (by omega) h₁⟩
  rw [eq_val (new_cacheOk h₁ H) (new_cacheOk h₂ H), (new_spec h₁).1, (new_spec h₂).1]
  have : ∃ b, sha1Message (.rings n 0) Ex.hashConfig = .ok b := by rcases hn with rfl | rfl <;> exact ⟨_, rfl⟩
  obtain ⟨b, hb⟩ := this
  change (do
      let a ← sha1Message (.rings n 0) Ex.hashConfig
      let b ← sha1Message (.rings n 0) Ex.hashConfig
      return H a == H b) = _
  rw [hb]
  simp [bind, Except.bind, pure, Except.pure]

example (H : Bytes → Bytes) : ∃ o₁ o₂ : SkyMapObj (SpherePoint ℝ) ℝ, o₁.SameTracts o₂ ∧ o₁.hashed.version ≠ o₂.hashed.version := by
  obtain ⟨o₁, o₂, h₁, h₂, heq, hb⟩ := Ex.rings_equal H (.inl rfl)
  refine ⟨o₁, o₂, SameTracts.symm (one_ring_same h₂ h₁), ?_⟩
  rw [(new_spec h₁).1, (new_spec h₂).1]
  decide

/-- The same library with the arithmetic of doubles. -/
noncomputable def Ex.doubleLib : SkyLib := { Ex.lib with arith := FloatArith.double }

/-- C71 with doubles is not vacuous: 120 rings, versions 0 and 1. -/
example (H : Bytes → Bytes) (hc : ∀ a b, H a = H b → a = b) : ∃ o₁ o₂, SkyMapObj.new Ex.doubleLib.impl (.rings 120 0) Ex.hashConfig (.int 1) = .ok o₁ ∧
    SkyMapObj.new Ex.doubleLib.impl (.rings 120 0) Ex.hashConfig (.int 0) = .ok o₂ ∧
    (HashedMap.eq H (o₁.hashed, o₂.hashed)).1 = .ok true ∧ ¬ o₁.SameTracts o₂ := by
  obtain ⟨o₁, h₁⟩ : ∃ o, SkyMapObj.new Ex.doubleLib.impl (.rings 120 0) Ex.hashConfig (.int 1) = .ok o := ⟨_, rfl⟩
  obtain ⟨o₂, h₂⟩ : ∃ o, SkyMapObj.new Ex.doubleLib.impl (.rings 120 0) Ex.hashConfig (.int 0) = .ok o := ⟨_, rfl⟩
  have hv : Ex.doubleLib.val 0 = 0 := by simp [Ex.doubleLib, Ex.lib]
  have heq : (HashedMap.eq H (o₁.hashed, o₂.hashed)).1 = .ok true := by
    rw [eq_val (new_cacheOk h₁ H) (new_cacheOk h₂ H), (new_spec h₁).1, (new_spec h₂).1]
    obtain ⟨b, hb⟩ : ∃ b, sha1Message (.rings 120 0) Ex.hashConfig = .ok b := ⟨_, rfl⟩
    change (do
      let a ← sha1Message (.rings 120 0) Ex.hashConfig
      let b ← sha1Message (.rings 120 0) Ex.hashConfig
      return H a == H b) = _
    rw [hb]
    simp [bind, Except.bind, pure, Except.pure]
  have hb : ∀ j : Int, 0 ≤ j → j < o₁.len → ∃ r, (o₁.getItem j).1 = .ok r := by
    intro j j0 j1
    obtain ⟨R, b, hR, hb, t⟩ := new_rings_any (L := Ex.doubleLib) (by norm_num) h₁
    have hb' : b.patchInnerDimensions = ⟨3000, 3000⟩ := by
      have : (Except.ok b : PyM TractBuilder).map TractBuilder.patchInnerDimensions = .ok ⟨3000, 3000⟩ := by
        rw [← hb]; decide +kernel
      simpa [Except.map] using this
    have hl : o₁.len = R.numTracts.toNat := by unfold SkyMapObj.len; rw [t]; rfl
    obtain ⟨r, s', hg⟩ := Rings.generate_rounding (env := Ex.doubleLib.env) (ops := Ex.doubleLib.ops)
      (mk := Ex.doubleLib.wcs { Ex.hashConfig with frozen := true })
      (b₀ := b) FloatArith.double_ieee FloatArith.double_halfPi hR (by decide) (by decide) (by rw [hv]; norm_num)
      (by rw [hb']; decide) (by rw [hb']; decide) (fun _ _ => ⟨_, rfl⟩) (i := j) ⟨j0, by omega⟩ (.refl _)
    unfold SkyMapObj.getItem
    rw [t]
    change CachingSkyMap.getItem _ j _ = _ at hg
    exact ⟨r, congrArg Prod.fst hg⟩
  refine ⟨o₁, o₂, h₁, h₂, heq, fun hs => ?_⟩
  rcases C71_rounding H Ex.doubleLib FloatArith.double_ieee FloatArith.double_halfPi
    (fun n s h => by
      obtain ⟨rfl, rfl⟩ := MapClass.rings.inj h
      rw [hv]; norm_num) h₁ h₂ ⟨[], rfl⟩ ⟨[], rfl⟩ hb heq with hi | ⟨a, b, hne, he⟩
  · have := hi.1 hs 120 0 rfl (by norm_num)
    simp at this
  · exact hne (hc a b he)

end AllMaps
end Skymap
