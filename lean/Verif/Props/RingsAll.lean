import Verif.Lemmas.RingReach
import Verif.Lemmas.ExplicitReach
import Verif.Props.RingsCover
import Verif.Props.RingsPatchList
import Verif.Props.Uniform

/-!
# C72: when findAllTracts of a rings sky map returns every tract that contains the position

`findAllTracts` looks at the rings next to that of the position and, in each of them, at three tracts (C31).  That finds every tract if the
tracts are not much larger than the rings are high, and misses one near the poles if they are.
-/

namespace Skymap
open Real

/-- The half size `T` on the plane of the projection that a tract may have so that `findAllTracts` is complete, where `s` is the height of a
ring (radians): 0.579 of the height, seen on the tangent plane. -/
def SmallReach : Projection → ℝ → ℝ → Prop
  | .TAN, s, T => T ≤ tan (579 / 1000 * s)
  | .STG, s, T => T ≤ tan (579 / 1000 * s) * (1 - T ^ 2 / 2)
  | .CEA, _, _ => False

/-- A square on the plane of the projection is within one on the tangent plane. -/
theorem SmallReach.gnomonic {P : Projection} {s T : ℝ} (h : SmallReach P s T) (T0 : 0 < T) (ht : 0 < tan (579 / 1000 * s))
    {ctr p : SpherePoint ℝ} {q : P2 ℝ} (hq : P.toPlane ctr p = some q) (qx : |q.x| ≤ T) (qy : |q.y| ≤ T) :
    0 < cosSep ctr p ∧ |eastOf ctr p| ≤ tan (579 / 1000 * s) * cosSep ctr p ∧ |northOf ctr p| ≤ tan (579 / 1000 * s) * cosSep ctr p := by
  have sq := local_sq ctr p
  cases P with
  | CEA => exact h.elim
  | TAN =>
    simp only [SmallReach] at h
    unfold Projection.toPlane at hq
    dsimp only at hq
    split at hq
    · next hZ =>
      cases hq
      dsimp only at qx qy
      rw [abs_div, abs_of_pos hZ, div_le_iff₀ hZ] at qx qy
      refine ⟨hZ, qx.trans ?_, qy.trans ?_⟩ <;> gcongr
    · cases hq
  | STG =>
    simp only [SmallReach] at h
    unfold Projection.toPlane at hq
    dsimp only at hq
    split at hq
    · next hZ =>
      cases hq
      dsimp only at qx qy
      set Z := cosSep ctr p
      have hZ1 : 0 < 1 + Z := by linarith
      rw [abs_div, abs_of_pos hZ1, div_le_iff₀ hZ1, abs_mul, abs_of_pos (by norm_num : (0 : ℝ) < 2)] at qx qy
      have hT2 : 0 < 1 - T ^ 2 / 2 := by
        by_contra hc
        have := mul_nonpos_of_nonneg_of_nonpos ht.le (not_lt.mp hc)
        linarith
      have e1 : (2 * eastOf ctr p) ^ 2 ≤ (T * (1 + Z)) ^ 2 := by
        rw [← sq_abs, abs_mul, abs_of_pos (by norm_num : (0 : ℝ) < 2)]; gcongr
      have e2 : (2 * northOf ctr p) ^ 2 ≤ (T * (1 + Z)) ^ 2 := by
        rw [← sq_abs, abs_mul, abs_of_pos (by norm_num : (0 : ℝ) < 2)]; gcongr
      have e3 : 4 * (1 - Z) * (1 + Z) ≤ 2 * T ^ 2 * (1 + Z) * (1 + Z) := by nlinarith
      have e4 : 4 * (1 - Z) ≤ 2 * T ^ 2 * (1 + Z) := le_of_mul_le_mul_right e3 hZ1
      have e5 : (1 - T ^ 2 / 2) * (1 + Z) ≤ 2 * Z := by nlinarith
      have e6 : 0 < (1 - T ^ 2 / 2) * (1 + Z) := mul_pos hT2 hZ1
      have e7 : T * (1 + Z) ≤ tan (579 / 1000 * s) * (2 * Z) := by
        calc T * (1 + Z) ≤ tan (579 / 1000 * s) * (1 - T ^ 2 / 2) * (1 + Z) := by gcongr
          _ = tan (579 / 1000 * s) * ((1 - T ^ 2 / 2) * (1 + Z)) := by ring
          _ ≤ _ := by gcongr
      refine ⟨by linarith, by linarith, by linarith⟩
    · cases hq

/-- Every angle is within half a turn, up to full turns. -/
theorem half_turn (δ : ℝ) : ∃ (x : ℝ) (m : Int), δ = x + m * (2 * π) ∧ |x| ≤ π := by
  have hpi := pi_pos
  refine ⟨δ - round (δ / (2 * π)) * (2 * π), round (δ / (2 * π)), by ring, ?_⟩
  have a1 := abs_sub_round (δ / (2 * π))
  have e : δ - round (δ / (2 * π)) * (2 * π) = (δ / (2 * π) - round (δ / (2 * π))) * (2 * π) := by field_simp
  rw [e, abs_mul, abs_of_pos (by positivity : 0 < 2 * π)]
  calc _ ≤ 1 / 2 * (2 * π) := by gcongr
    _ = π := by ring

namespace Rings
open FloatArith (exact)
variable {A : FloatArith ℝ} {c : RingsConfig ℝ} {R : Rings ℝ} {v : Int}
variable {env : FloatEnv ℝ} {mk : SpherePoint ℝ → Wcs (SpherePoint ℝ) ℝ} {b₀ : TractBuilder}
variable {s s' : MapState (SpherePoint ℝ) ℝ} {l : List (TractRef (SpherePoint ℝ) ℝ)}

/-- The distance of the centres of a ring from the nearer pole, and the number of tracts. -/
theorem ring_pole (h : Rings.new exact c v = .ok R) {k : Nat} {n : Int} (hk : R.ringNums[k]? = some n) :
    ∃ γ, γ ≤ π / 2 ∧ cos (R.ringSize * (k + 1) - π / 2) = sin γ ∧ |sin (R.ringSize * (k + 1) - π / 2)| = cos γ ∧
      (n : ℝ) ≤ 2 * π * sin (γ + R.ringSize / 2) / R.ringSize + 1 ∧
      (γ = R.ringSize ∧ (n : ℝ) ≤ 10 ∨ 2 * R.ringSize ≤ γ) := by
  have hpi := pi_pos
  obtain ⟨wf, -⟩ := new_wf h
  obtain ⟨h1, -, -, h4, h5, -⟩ := new_exact h
  have hkN : k < c.numRings := by have := wf.lt_numRings hk; rwa [h1] at this
  rw [h5, List.getElem?_map, List.getElem?_range hkN, Option.map_some, Option.some.injEq, ← h4] at hk
  obtain ⟨d, hd, -, -, hcount, -⟩ := ringCount_eq c.numRings k hkN R.ringSize h4
  obtain ⟨s0, s1, -, -⟩ := ring_dec c.numRings k hkN R.ringSize h4
  rw [hk] at hcount
  have hkN' : (k : ℝ) + 1 ≤ c.numRings := by exact_mod_cast hkN
  have hk0 : (0 : ℝ) ≤ k := by positivity
  set S := R.ringSize
  -- the distance
  obtain ⟨γ, g0, g1, g2, g3, g4, g5⟩ : ∃ γ, 0 < γ ∧ γ ≤ π / 2 ∧ cos (S * (k + 1) - π / 2) = sin γ ∧
      |sin (S * (k + 1) - π / 2)| = cos γ ∧ d = min |γ - S / 2 - π / 2| |γ + S / 2 - π / 2| ∧ (γ = S ∨ 2 * S ≤ γ) := by
    rcases le_total (S * (k + 1)) (π / 2) with hle | hle
    · refine ⟨S * (k + 1), by positivity, hle, cos_sub_pi_div_two _, ?_, ?_, ?_⟩
      · have : 0 < S * (k + 1) := by positivity
        rw [sin_sub_pi_div_two, abs_neg, abs_of_nonneg (cos_nonneg_of_mem_Icc ⟨by linarith, hle⟩)]
      · rw [hd]; congr 2 <;> ring
      · rcases Nat.eq_zero_or_pos k with rfl | hk'
        · left; simp
        · right
          have : (1 : ℝ) ≤ k := by exact_mod_cast hk'
          nlinarith
    · refine ⟨π - S * (k + 1), by nlinarith, by linarith, by rw [cos_sub_pi_div_two, sin_pi_sub], ?_, ?_, ?_⟩
      · rw [sin_sub_pi_div_two, cos_pi_sub, abs_of_nonneg]
        rw [← cos_pi_sub]
        exact cos_nonneg_of_mem_Icc ⟨by nlinarith, by linarith⟩
      · rw [hd, min_comm]
        congr 1
        · rw [← abs_neg]; congr 1; ring
        · rw [← abs_neg]; congr 1; ring
      · rcases Nat.lt_or_ge (k + 1) c.numRings with hk' | hk'
        · right
          have : (k : ℝ) + 2 ≤ c.numRings := by exact_mod_cast hk'
          nlinarith
        · left
          have : (c.numRings : ℝ) = k + 1 := by exact_mod_cast (by omega : c.numRings = k + 1)
          rw [← s1, this]; ring
  have hdc : cos d = sin (γ + S / 2) := by
    have : |γ + S / 2 - π / 2| ≤ |γ - S / 2 - π / 2| := by
      rw [abs_of_nonpos (by linarith : γ - S / 2 - π / 2 ≤ 0), abs_le]
      constructor <;> linarith
    rw [g4, min_eq_right this, cos_abs, cos_sub_pi_div_two]
  rw [hdc] at hcount
  have hn : (n : ℝ) ≤ 2 * π * sin (γ + S / 2) / S + 1 := by
    rw [hcount]; push_cast
    have := Int.floor_le (2 * π * sin (γ + S / 2) / S)
    linarith
  refine ⟨γ, g1, g2, g3, hn, ?_⟩
  rcases g5 with rfl | g5
  · left
    refine ⟨rfl, ?_⟩
    have hs := sin_le (x := S + S / 2) (by linarith)
    have hpi2 := pi_lt_d2
    have : ⌊2 * π * sin (S + S / 2) / S⌋ < 10 := by
      rw [Int.floor_lt, div_lt_iff₀ g0]
      push_cast
      have : 2 * π * sin (S + S / 2) ≤ 2 * π * (S + S / 2) := by gcongr
      nlinarith
    have : n ≤ 10 := by omega
    exact_mod_cast this
  · exact .inr g5

/-- A position in the square of half size tan (0.579 s) around the centre of a tract of a ring: the tract is adjacent. -/
theorem near_of_square (h : Rings.new exact c 1 = .ok R) (hN : 2 ≤ c.numRings) {p ctr : SpherePoint ℝ} (hlat : |p.lat| ≤ π / 2)
    {i : Int} (hi : 0 ≤ i ∧ i < R.numTracts) (hctr : R.center exact i = .ok ctr) (hZ : 0 < cosSep ctr p)
    (hE : |eastOf ctr p| ≤ tan (579 / 1000 * R.ringSize) * cosSep ctr p)
    (hNo : |northOf ctr p| ≤ tan (579 / 1000 * R.ringSize) * cosSep ctr p) : R.Near exact p i := by
  have hpi := pi_pos
  obtain ⟨wf, w3⟩ := new_wf h
  obtain ⟨h1, hv, -⟩ := new_exact h
  obtain ⟨s0, s1⟩ := size_pos h
  have hN' : (2 : ℝ) ≤ c.numRings := by exact_mod_cast hN
  have s3 : R.ringSize ≤ π / 3 := by nlinarith
  rcases wf.index_cases hi with rfl | rfl | ⟨k, n, u, hk, h3, h4, rfl⟩
  · exact .inl rfl
  · exact .inr (.inl rfl)
  right; right
  have hidx := wf.getRingIndices_ring hv hk h3 h4
  rw [center_ring h hidx hk] at hctr
  cases hctr
  obtain ⟨γ, g1, g2, g3, g4, g5⟩ := ring_pole h hk
  have hn : (0 : ℝ) < n := by exact_mod_cast (by omega : 0 < n)
  have hk2 : (k : ℝ) + 1 ≤ c.numRings := by
    have := wf.lt_numRings hk; rw [h1] at this; exact_mod_cast this
  have hk0 : (0 : ℝ) ≤ k := by positivity
  set S := R.ringSize with hS
  set ctr : SpherePoint ℝ := ⟨wrapAngle π (2 * π * u / n + R.raStart), S * (k + 1) - π / 2⟩ with hcd
  have hcl : |ctr.lat| ≤ π / 2 := by
    rw [hcd]; dsimp only
    rw [abs_le]
    have : 0 < S * (k + 1) := by positivity
    constructor <;> nlinarith
  have hγ : S ≤ γ := by rcases g5 with ⟨e, -⟩ | e <;> linarith
  have ht0 : 0 ≤ tan (579 / 1000 * S) := tan_nonneg_of_nonneg_of_le_pi_div_two (by linarith) (by linarith)
  have lat := reach_lat s0 s3 ht0 le_rfl hcl hlat hZ hE hNo
  -- the difference in longitude
  obtain ⟨x, m, hx, hxπ⟩ := half_turn (p.lon - ctr.lon)
  obtain ⟨cx, hlon⟩ := reach_lon (ctr := ctr) (h := 579 / 1000 * S) (γ := γ) (x := x) (by linarith) (by linarith) g1 g2 g3 hlat
    ⟨by rw [hx, cos_add_int_mul_two_pi], by rw [hx, sin_add_int_mul_two_pi]⟩ hZ hE hNo
  have hxn := reach_spacing s0 s3 g1 hn g4 g5 hxπ cx hlon
  refine ⟨k, n, _, u, hidx, hk, ?_, ra_exact wf hk p.lon, ?_⟩
  · rw [hcd] at lat
    dsimp only at lat
    rw [abs_lt] at lat
    rcases dec_cases h p.lat with ⟨e, q⟩ | ⟨e, q⟩ | ⟨k', -, e, q1, q2⟩
    · rw [e]
      have : (k : ℝ) < 1 := by by_contra hc; nlinarith
      have : k < 1 := by exact_mod_cast this
      rw [abs_le]; omega
    · rw [e]
      have : (c.numRings : ℝ) < k + 2 := by by_contra hc; nlinarith
      have : c.numRings < k + 2 := by exact_mod_cast this
      have : k + 1 ≤ c.numRings := by exact_mod_cast hk2
      rw [abs_le]; omega
    · rw [e]
      have a1 : (k : ℝ) < k' + 2 := by by_contra hc; nlinarith
      have a2 : (k' : ℝ) < k + 2 := by by_contra hc; nlinarith
      have a1 : k < k' + 2 := by exact_mod_cast a1
      have a2 : k' < k + 2 := by exact_mod_cast a2
      rw [abs_le]; omega
  · obtain ⟨m', hw⟩ := wrapAngle_eq π (2 * π * u / n + R.raStart)
    have e : (p.lon - R.raStart) * n / (2 * π) + 1 / 2 = x * n / (2 * π) + 1 / 2 + ((u + (m - m') * n : Int) : ℝ) := by
      have : p.lon = x + m * (2 * π) + (2 * π * u / n + R.raStart - m' * (2 * π)) := by
        rw [← hw]
        change p.lon = x + m * (2 * π) + ctr.lon
        linarith
      rw [this]; push_cast; field_simp; ring
    rw [e, Int.floor_add_intCast]
    have y1 : |x * n / (2 * π)| < 3 / 2 := by
      rw [abs_div, abs_mul, abs_of_pos hn, abs_of_pos (by positivity : 0 < 2 * π), div_lt_iff₀ (by positivity)]
      rw [lt_div_iff₀ hn] at hxn
      linarith
    rw [abs_lt] at y1
    have z1 : -1 ≤ ⌊x * n / (2 * π) + 1 / 2⌋ := by rw [Int.le_floor]; push_cast; linarith
    have z2 : ⌊x * n / (2 * π) + 1 / 2⌋ < 2 := by rw [Int.floor_lt]; push_cast; linarith
    have hu : u % n = u := Int.emod_eq_of_lt h3 h4
    generalize ⌊x * n / (2 * π) + 1 / 2⌋ = w at *
    have key : (w + (u + (m - m') * n)) % n = (w + u) % n := by
      rw [← add_assoc, Int.add_mul_emod_self_right]
    rw [key]
    rcases (by omega : w = -1 ∨ w = 0 ∨ w = 1) with rfl | rfl | rfl
    · right; left
      rw [Int.emod_add_emod]
      rw [show -1 + u + 1 = u by ring, hu]
    · left; rw [zero_add, hu]
    · right; right
      rw [Int.emod_sub_emod, show 1 + u - 1 = u by ring, hu]

variable {scale : ℝ} {f : WcsFactory} {flipX : Bool} {other : P2 ℝ → SpherePoint ℝ → CdMatrix → String → Wcs (SpherePoint ℝ) ℝ}
variable {code : String} {P : Projection}

/-- C72: a rings sky map of version 1 with two rings or more, without rotation, whose tracts are at most `kx` by `ky` patches large.  If half
that size is at most 0.579 of the height of a ring, `findAllTracts`, called after any history, returns exactly the tracts of the sky map that
contain the position. -/
theorem C72_complete (h : Rings.new exact c 1 = .ok R) (hN : 2 ≤ c.numRings) (hN2 : c.numRings ≤ 2 ^ 31) (he : env.Ok)
    (hx : 0 < b₀.patchInnerDimensions.x) (hy : 0 < b₀.patchInnerDimensions.y)
    (hf : WcsFactory.new scale code 0 flipX = .ok f) (hsc : 0 < scale) (hP : Projection.ofCode code = some P)
    (hov : 0 ≤ c.tractOverlap) {ρ : ℝ} (hρ : ρ = (90 / ((c.numRings : ℝ) + 1) + c.tractOverlap) * (π / 180)) (hlim : ρ < P.limit) {kx ky : Int}
    (hkx : 2 * (P.radius ρ / scale) + 3 ≤ kx * b₀.patchInnerDimensions.x) (hky : 2 * (P.radius ρ / scale) + 3 ≤ ky * b₀.patchInnerDimensions.y)
    {T : ℝ} (hTx : scale * (kx * b₀.patchInnerDimensions.x + 3) / 2 ≤ T) (hTy : scale * (ky * b₀.patchInnerDimensions.y + 3) / 2 ≤ T)
    (hT : SmallReach P (π / (c.numRings + 1)) T) {M : SkyMapOps (MapState (SpherePoint ℝ) ℝ) (SpherePoint ℝ) ℝ}
    (hM : M = skyMapOps exact R env sphereOps (f.makeWcs other ⟨0, 0⟩))
    (hs : M.After (init exact R env sphereOps (f.makeWcs other ⟨0, 0⟩) b₀) s) {p : SpherePoint ℝ} (hlat : |p.lat| ≤ π / 2)
    (hfa : R.findAllTracts exact M p s = (.ok l, s')) (r : TractRef (SpherePoint ℝ) ℝ) :
    r ∈ l ↔ (∃ i s'', M.getItem i s' = (.ok r, s'')) ∧ r.info.contains p = true := by
  subst hM
  have hpi := pi_pos
  obtain ⟨wf, w3⟩ := new_wf h
  obtain ⟨h1, hv, -, hS, -⟩ := new_exact h
  obtain ⟨s0, s1⟩ := size_pos h
  have hN' : (2 : ℝ) ≤ c.numRings := by exact_mod_cast hN
  have s3 : R.ringSize ≤ π / 3 := by nlinarith
  have hI := FloatArith.exact_ieee
  obtain ⟨ha, L, rs, hL, k2, hl⟩ := findAll_spec hI h (by omega) hN2 (Search_permanent_caching _ b₀ s hs) hfa
  constructor
  · intro hr
    obtain ⟨hc, i, -, -, hi⟩ := C31_sound hI h (by omega) hN2 hs hfa r hr
    exact ⟨⟨i, s', hi⟩, hc⟩
  · rintro ⟨⟨i, s'', hi⟩, hc⟩
    have hir := (item wf (hs.trans ha) hi).1
    obtain ⟨ctr, inner, b, hctr, hnew⟩ := built_of_getItem (hs.trans ha) hi
    have er : exact.mul (1 / 2) R.ringSize + exact.deg2rad R.config.tractOverlap = ρ := by
      rw [hρ, h1, hS]
      change 1 / 2 * (π / ((c.numRings : ℝ) + 1)) + c.tractOverlap * (π / 180) = _
      field_simp; ring
    have ρ0 : 0 ≤ ρ := by rw [hρ]; positivity
    obtain ⟨q, hq, qx, qy⟩ := explicit_reach (other := other) he hnew hx hy hf hsc hP rfl rfl (by dsimp only; rw [er]; exact ρ0)
      (by dsimp only; rw [er]; exact hlim) (k := kx) (l := ky) (by dsimp only; rw [er]; exact hkx) (by dsimp only; rw [er]; exact hky) hc
    rw [← hS] at hT
    have ht : 0 < tan (579 / 1000 * R.ringSize) := tan_pos_of_pos_of_lt_pi_div_two (by linarith) (by linarith)
    have T0 : 0 < T := by
      refine lt_of_lt_of_le ?_ hTx
      have : 0 ≤ P.radius ρ / scale := div_nonneg (P.radius_nonneg ρ0 hlim) hsc.le
      have : 0 < (kx : ℝ) * b₀.patchInnerDimensions.x := by linarith
      positivity
    obtain ⟨hZ, hE, hNo⟩ := hT.gnomonic T0 ht hq (qx.trans hTx) (qy.trans hTy)
    have near := near_of_square h hN hlat hir hctr hZ hE hNo
    rw [← near_iff hI h (by omega) hN2 hL] at near
    obtain ⟨r', m', g'⟩ := forall₂_mem' k2 near
    rw [hi] at g'
    simp only [Prod.mk.injEq, Except.ok.injEq] at g'
    rw [hl, List.mem_filter, g'.1]
    exact ⟨m', by rw [← g'.1]; exact hc⟩

/-- C72: under the same conditions, with a patch border that is not negative and tracts that double precision can count, the answer of
`findTractPatchList`, called after any history, has exactly one entry for each tract of the sky map that contains at least one of the
positions, namely the tract with the answer of its own `findPatchList`, which is not empty. -/
theorem C72_patch_list (h : Rings.new exact c 1 = .ok R) (hN : 2 ≤ c.numRings) (hN2 : c.numRings ≤ 2 ^ 31) (he : env.Ok)
    (hx : 0 < b₀.patchInnerDimensions.x) (hy : 0 < b₀.patchInnerDimensions.y) (hbord : 0 ≤ b₀.patchBorder)
    (hf : WcsFactory.new scale code 0 flipX = .ok f) (hsc : 0 < scale) (hP : Projection.ofCode code = some P)
    (hov : 0 ≤ c.tractOverlap) {ρ : ℝ} (hρ : ρ = (90 / ((c.numRings : ℝ) + 1) + c.tractOverlap) * (π / 180)) (hlim : ρ < P.limit) {kx ky : Int}
    (hkx : 2 * (P.radius ρ / scale) + 3 ≤ kx * b₀.patchInnerDimensions.x) (hky : 2 * (P.radius ρ / scale) + 3 ≤ ky * b₀.patchInnerDimensions.y)
    {T : ℝ} (hTx : scale * (kx * b₀.patchInnerDimensions.x + 3) / 2 ≤ T) (hTy : scale * (ky * b₀.patchInnerDimensions.y + 3) / 2 ≤ T)
    (hT : SmallReach P (π / (c.numRings + 1)) T)
    (sx : 2 * (P.radius ρ / scale) + b₀.patchInnerDimensions.x + 3 ≤ 2 ^ 53) (sy : 2 * (P.radius ρ / scale) + b₀.patchInnerDimensions.y + 3 ≤ 2 ^ 53)
    {M : SkyMapOps (MapState (SpherePoint ℝ) ℝ) (SpherePoint ℝ) ℝ}
    (hM : M = skyMapOps exact R env sphereOps (f.makeWcs other ⟨0, 0⟩))
    (hs : M.After (init exact R env sphereOps (f.makeWcs other ⟨0, 0⟩) b₀) s) {ps : List (SpherePoint ℝ)} (hlat : ∀ p ∈ ps, |p.lat| ≤ π / 2)
    {es : List Entry} (hft : R.findTractPatchList exact env M ps s = (.ok es, s')) :
    (es.map (·.1.info.id)).Nodup ∧
    (∀ r : TractRef (SpherePoint ℝ) ℝ, (∃ pl, (r, pl) ∈ es) ↔
      (∃ i s'', M.getItem i s' = (.ok r, s'')) ∧ ∃ p ∈ ps, r.info.contains p = true) ∧
    ∀ e ∈ es, e.1.info.findPatchList env s'.builder ps = .ok e.2 ∧ e.2 ≠ [] := by
  have hI := FloatArith.exact_ieee
  have hpi := pi_pos
  obtain ⟨h1, hv, -, hS, -⟩ := new_exact h
  have hz : P ≠ .CEA := by rintro rfl; exact hT
  have hun := CachingSkyMap.uniform_of (same_pixels (other := other) exact R env hf hP hz) b₀
  have hB : M.StableBuilder s := by
    rw [hM] at hs ⊢
    exact Search_stable_uniform _ b₀ s hx hy hun hs
  obtain ⟨nd, ex⟩ := C33_exact hI h (by omega) hN2 (hM ▸ hs) (hM ▸ hB) (hM ▸ hft)
  have hPm := Search_permanent_caching (R.cachingDef exact env sphereOps (f.makeWcs other ⟨0, 0⟩)) b₀ s (by rw [hM] at hs; exact hs)
  obtain ⟨ha, ess, g1, -⟩ := outer_loop hI h (by omega) hN2 ps ps s s' [] es hPm (hM ▸ hft)
  have ρ0 : 0 ≤ ρ := by rw [hρ]; positivity
  have hall : ∀ p ∈ ps, ∀ l, R.findAllTracts exact M p s' = (.ok l, s') → ∀ r : TractRef (SpherePoint ℝ) ℝ,
      r ∈ l ↔ (∃ i s'', M.getItem i s' = (.ok r, s'')) ∧ r.info.contains p = true := by
    intro p hp l hl r
    refine C72_complete (other := other) h hN hN2 he hx hy hf hsc hP hov hρ hlim hkx hky hTx hTy hT hM (s := s') ?_ (hlat p hp) hl r
    rw [hM] at hs ⊢
    exact hs.trans ha
  refine ⟨nd, ?_, ?_⟩
  · intro r
    constructor
    · rintro ⟨pl, hpl⟩
      obtain ⟨⟨p, hp, ts, a1, a2⟩, -⟩ := (ex r pl).1 hpl
      rw [← hM] at a1
      obtain ⟨b1, b2⟩ := (hall p hp ts a1 r).1 a2
      exact ⟨b1, p, hp, b2⟩
    · rintro ⟨hi, p, hp, hc⟩
      obtain ⟨es', hes, ts, k1, k2⟩ := forall₂_mem' g1 hp
      have hr := (hall p hp ts (by rw [hM]; exact k1) r).2 ⟨hi, hc⟩
      obtain ⟨i, s'', hi⟩ := hi
      subst hM
      -- the tract as built, with the shared builder as it is for ever
      have hi' : (skyMapOps exact R env sphereOps (f.makeWcs other ⟨0, 0⟩)).getItem i s' = (.ok r, s') := by
        obtain ⟨e, he', q0, j, s₁, q1, q2, q3, q4⟩ := forall₂_mem' k2 hr
        obtain ⟨wf, -⟩ := new_wf h
        have e1 := hPm s₁ q1 j e.1 s₁ q3 s' q2
        have e2 := (item wf (hs.trans ha) e1).2
        have e3 := (item wf (hs.trans ha) hi).2
        rw [← e3, ← q0, e2]
        exact e1
      obtain ⟨k, a, -, hka, hn⟩ := CachingSkyMap.as_built hx hy hun (hs.trans ha) hi' (SkyMapOps.After.refl s')
      simp only [cachingDef] at hka
      obtain ⟨q, -, hka⟩ := bindOk hka
      obtain ⟨g, -, hka⟩ := bindOk hka
      simp only [pure, Except.pure, Except.ok.injEq] at hka
      subst hka
      have er : ρ = exact.mul (1 / 2) R.ringSize + exact.deg2rad R.config.tractOverlap := by
        rw [hρ, h1, hS]
        change _ = 1 / 2 * (π / ((c.numRings : ℝ) + 1)) + c.tractOverlap * (π / 180)
        field_simp; ring
      obtain ⟨d1, d2⟩ := explicit_dim (other := other) he hn hx hy hf hsc hP rfl rfl er ρ0 hlim sx sy hc
      obtain ⟨pi, hpi⟩ := (C11_contains_iff_findPatch he hn hx hy hbord d1 d2 p).1 hc
      obtain ⟨pl, hpl, hm⟩ := C11_findPatch_in_list he hn hx hy hbord d1 d2 p pi hpi ps hp
      refine ⟨pl, (ex r pl).2 ⟨⟨p, hp, ts, k1, hr⟩, hpl, ?_⟩⟩
      rintro rfl
      simp at hm
  · rintro ⟨r, pl⟩ he'
    obtain ⟨-, q2, q3⟩ := (ex r pl).1 he'
    exact ⟨q2, q3⟩

/-- `findAllTracts` always answers, after any history. -/
theorem C72_total (h : Rings.new exact c 1 = .ok R) (hN : 1 ≤ c.numRings) (hN2 : c.numRings ≤ 2 ^ 31)
    (hx : 0 < b₀.patchInnerDimensions.x) (hy : 0 < b₀.patchInnerDimensions.y)
    (hf : WcsFactory.new scale code 0 flipX = .ok f) (hsc : 0 < scale) (hP : Projection.ofCode code = some P)
    (hov : 0 ≤ c.tractOverlap) {ρ : ℝ} (hρ : ρ = (90 / ((c.numRings : ℝ) + 1) + c.tractOverlap) * (π / 180)) (hlim : ρ < P.limit)
    {M : SkyMapOps (MapState (SpherePoint ℝ) ℝ) (SpherePoint ℝ) ℝ}
    (hM : M = skyMapOps exact R env sphereOps (f.makeWcs other ⟨0, 0⟩))
    (hs : M.After (init exact R env sphereOps (f.makeWcs other ⟨0, 0⟩) b₀) s) (p : SpherePoint ℝ) :
    ∃ l s', R.findAllTracts exact M p s = (.ok l, s') := by
  subst hM
  obtain ⟨h1, hv, -, hS, -⟩ := new_exact h
  refine C31_total FloatArith.exact_ieee h (by omega) hN2 fun i hi s₁ hs₁ => generate_at h hx hy ?_ hi (hs.trans hs₁)
  intro ctr b
  have er : exact.mul (1 / 2) R.ringSize + exact.deg2rad R.config.tractOverlap = ρ := by
    rw [hρ, h1, hS]
    change 1 / 2 * (π / ((c.numRings : ℝ) + 1)) + c.tractOverlap * (π / 180) = _
    field_simp; ring
  rw [er]
  exact ⟨_, WcsFactory.C56_bearing (other := other) hf hsc.ne' hP ⟨0, 0⟩ ctr b (by rw [hρ]; positivity) hlim⟩

theorem tan_half {y : ℝ} (h : cos (y / 2) ≠ 0) : tan (y / 2) * (1 + cos y) = sin y := by
  have e1 : cos y = 2 * cos (y / 2) ^ 2 - 1 := by rw [← cos_two_mul]; congr 1; ring
  have e2 : sin y = 2 * sin (y / 2) * cos (y / 2) := by rw [← sin_two_mul]; congr 1; ring
  rw [tan_eq_sin_div_cos, e1, e2]
  generalize cos (y / 2) = a at *
  field_simp
  ring

/-- The position that `findAllTracts` overlooks: as seen from the south pole, 54 degrees from the meridian of the centre. -/
theorem gap_position {S h : ℝ} (s0 : 0 < S) (s1 : S ≤ π / 12) (hh : h = 3 / 5 * S) :
    ∃ γ, 0 < γ ∧ γ < π / 2 ∧ ∀ ctr p : SpherePoint ℝ, ctr.lat = S - π / 2 → p.lat = γ - π / 2 →
      cos (p.lon - ctr.lon) = cos (3 * π / 10) → sin (p.lon - ctr.lon) = sin (3 * π / 10) →
      0 < cosSep ctr p ∧ cosSep ctr p ≤ cos h ∧ |eastOf ctr p| ≤ tan h * cosSep ctr p ∧ |northOf ctr p| ≤ tan h * cosSep ctr p := by
  have hpi := pi_pos
  have hpi2 := pi_lt_d2
  have cx : 0 < cos (3 * π / 10) := cos_pos_of_mem_Ioo ⟨by linarith, by linarith⟩
  have cd : 0 < cos (S - h) := cos_pos_of_mem_Ioo ⟨by linarith, by linarith⟩
  have ch : 0 < cos h := cos_pos_of_mem_Ioo ⟨by linarith, by linarith⟩
  have td : 0 < tan (S - h) := tan_pos_of_pos_of_lt_pi_div_two (by linarith) (by linarith)
  set γ := arctan (tan (S - h) / cos (3 * π / 10)) with hγ
  have tγ : tan γ = tan (S - h) / cos (3 * π / 10) := tan_arctan _
  have cγ : 0 < cos γ := cos_arctan_pos _
  refine ⟨γ, arctan_pos.2 (by positivity), arctan_lt_pi_div_two _, ?_⟩
  intro ctr p hc hp h1 h2
  -- the two components of the direction in the plane of the meridian
  obtain ⟨m, m0, mc, ms⟩ : ∃ m, 0 < m ∧ cos γ = m * cos (S - h) ∧ sin γ * cos (3 * π / 10) = m * sin (S - h) := by
    refine ⟨cos γ / cos (S - h), by positivity, by field_simp, ?_⟩
    have : sin γ = tan γ * cos γ := (tan_mul_cos cγ.ne').symm
    rw [this, tγ, tan_eq_sin_div_cos]
    field_simp
  have eZ : cosSep ctr p = m * cos h := by
    unfold cosSep
    rw [show ctr.lon - p.lon = -(p.lon - ctr.lon) by ring, cos_neg, h1, hc, hp, sin_sub_pi_div_two, sin_sub_pi_div_two, cos_sub_pi_div_two,
      cos_sub_pi_div_two, mul_assoc, ms, mc]
    have : cos h = cos S * cos (S - h) + sin S * sin (S - h) := by rw [← cos_sub]; congr 1; ring
    rw [this]; ring
  have eN : northOf ctr p = -(m * sin h) := by
    unfold northOf
    rw [h1, hc, hp, sin_sub_pi_div_two, sin_sub_pi_div_two, cos_sub_pi_div_two, cos_sub_pi_div_two, mul_assoc, ms, mc]
    have : sin h = sin S * cos (S - h) - cos S * sin (S - h) := by rw [← sin_sub]; congr 1; ring
    rw [this]; ring
  have eE : eastOf ctr p * cos (3 * π / 10) = m * sin (S - h) * sin (3 * π / 10) := by
    unfold eastOf
    rw [h2, hp, cos_sub_pi_div_two]
    linear_combination sin (3 * π / 10) * ms
  have sh : 0 < sin h := sin_pos_of_pos_of_lt_pi (by linarith) (by linarith)
  have sd : 0 < sin (S - h) := sin_pos_of_pos_of_lt_pi (by linarith) (by linarith)
  have sx : 0 < sin (3 * π / 10) := sin_pos_of_pos_of_lt_pi (by linarith) (by linarith)
  have th : tan h * (m * cos h) = m * sin h := by
    have := tan_mul_cos ch.ne'
    linear_combination m * this
  have m1 : m ≤ 1 := by
    have sq := local_sq ctr p
    rw [eZ, eN] at sq
    have := sin_sq_add_cos_sq h
    have e : m ^ 2 = 1 - eastOf ctr p ^ 2 := by linear_combination sq - m ^ 2 * this
    by_contra hcon
    nlinarith [sq_nonneg (eastOf ctr p)]
  refine ⟨by rw [eZ]; positivity, by rw [eZ]; exact mul_le_of_le_one_left ch.le m1, ?_, ?_⟩
  · rw [eZ, th]
    have e0 : 0 ≤ eastOf ctr p := by
      by_contra hcon
      have := mul_neg_of_neg_of_pos (not_le.1 hcon) cx
      have : 0 < m * sin (S - h) * sin (3 * π / 10) := by positivity
      linarith
    rw [abs_of_nonneg e0]
    refine le_of_mul_le_mul_right ?_ cx
    rw [eE]
    have t54 : sin (3 * π / 10) ≤ 1.377 * cos (3 * π / 10) := by
      have e1 : sin (3 * π / 10) = cos (π / 5) := by rw [← cos_pi_div_two_sub]; ring_nf
      have e2 : cos (3 * π / 10) = sin (π / 5) := by rw [← cos_pi_div_two_sub]; ring_nf
      rw [e1, e2]
      have s0 : 0 < sin (π / 5) := sin_pos_of_pos_of_lt_pi (by positivity) (by linarith)
      have sq := sin_sq_add_cos_sq (π / 5)
      rw [cos_pi_div_five] at *
      have h5 := Real.sq_sqrt (show (0 : ℝ) ≤ 5 by norm_num)
      have h6 : 2.236 < √5 := by rw [lt_sqrt (by norm_num)]; norm_num
      have h7 : √5 < 2.2361 := by rw [sqrt_lt' (by norm_num)]; norm_num
      by_contra hc
      nlinarith
    have k1 : sin (S - h) ≤ S - h := sin_le (by linarith)
    have k2 := sin_gt_sub_cube (x := h) (by linarith)
    have k3 : h ^ 3 ≤ 0.16 ^ 2 * h := by
      have : h ≤ 0.16 := by linarith
      nlinarith [mul_nonneg (by linarith : 0 ≤ h) (mul_nonneg (by linarith : 0 ≤ 0.16 - h) (by linarith : 0 ≤ 0.16 + h))]
    have k4 : sin (S - h) * 1.377 ≤ sin h := by linarith
    calc m * sin (S - h) * sin (3 * π / 10) ≤ m * sin (S - h) * (1.377 * cos (3 * π / 10)) := by gcongr
      _ = m * cos (3 * π / 10) * (sin (S - h) * 1.377) := by ring
      _ ≤ m * cos (3 * π / 10) * sin h := by gcongr
      _ = _ := by ring
  · rw [eZ, eN, th, abs_neg, abs_of_pos (by positivity)]

/-- C72 has its limit: with eleven rings or more and an overlap of a tenth of the height of a ring or more, there is a position in tract 1
(of the ring next to the south pole) for which `findAllTracts`, called after any history, does not return tract 1. -/
theorem C72_gap (h : Rings.new exact c 1 = .ok R) (hN : 11 ≤ c.numRings) (hN2 : c.numRings ≤ 2 ^ 31) (he : env.Ok)
    (hx : 0 < b₀.patchInnerDimensions.x) (hy : 0 < b₀.patchInnerDimensions.y)
    (hf : WcsFactory.new scale code 0 flipX = .ok f) (hsc : 0 < scale) (hP : Projection.ofCode code = some P) (hz : P ≠ .CEA)
    (hov : 18 / ((c.numRings : ℝ) + 1) ≤ c.tractOverlap) (hlim : (90 / ((c.numRings : ℝ) + 1) + c.tractOverlap) * (π / 180) < P.limit)
    {M : SkyMapOps (MapState (SpherePoint ℝ) ℝ) (SpherePoint ℝ) ℝ}
    (hM : M = skyMapOps exact R env sphereOps (f.makeWcs other ⟨0, 0⟩)) :
    ∃ p : SpherePoint ℝ, (0 ≤ p.lon ∧ p.lon < 2 * π) ∧ |p.lat| ≤ π / 2 ∧
      ∀ s, M.After (init exact R env sphereOps (f.makeWcs other ⟨0, 0⟩) b₀) s →
        (∃ r s', M.getItem 1 s = (.ok r, s') ∧ r.info.contains p = true) ∧
        ∃ l s', R.findAllTracts exact M p s = (.ok l, s') ∧ ∀ r ∈ l, r.info.id ≠ 1 := by
  subst hM
  have hpi := pi_pos
  have hpi2 := pi_lt_d2
  have hpi3 := pi_gt_d2
  obtain ⟨wf, w3⟩ := new_wf h
  obtain ⟨h1, hv, -, hS, h5, -⟩ := new_exact h
  obtain ⟨s0, s1⟩ := size_pos h
  have hI := FloatArith.exact_ieee
  have hN' : (11 : ℝ) ≤ c.numRings := by exact_mod_cast hN
  have s12 : R.ringSize ≤ π / 12 := by nlinarith
  -- ten tracts in the first ring
  have hk : R.ringNums[0]? = some 10 := by
    have hg : R.ringNums[0]? = some (ringCount exact R.ringSize 0) := by
      rw [h5, List.getElem?_map, List.getElem?_range (by omega), Option.map_some, hS]
    rw [hg, Option.some.injEq]
    obtain ⟨d, hd, -, -, hcount, -⟩ := ringCount_eq c.numRings 0 (by omega) R.ringSize hS
    rw [hcount]
    have hdc : cos d = sin (3 / 2 * R.ringSize) := by
      have e : d = π / 2 - 3 / 2 * R.ringSize := by
        rw [hd]
        push_cast
        rw [min_eq_right, abs_of_nonpos (by linarith)]
        · ring
        · rw [abs_of_nonpos (by linarith), abs_of_nonpos (by linarith)]; linarith
      rw [e, cos_pi_div_two_sub]
    rw [hdc]
    have k1 := sin_gt_sub_cube (x := 3 / 2 * R.ringSize) (by linarith)
    have k2 := sin_lt (x := 3 / 2 * R.ringSize) (by linarith)
    set S := R.ringSize
    have k3 : S ^ 2 ≤ 0.2625 ^ 2 := by gcongr; linarith
    have k4 : S ^ 3 ≤ 0.2625 ^ 2 * S := by rw [show S ^ 3 = S ^ 2 * S by ring]; gcongr
    have k5 : 1.46 * S ≤ sin (3 / 2 * S) := by
      have : (3 / 2 * S) ^ 3 = 27 / 8 * S ^ 3 := by ring
      linarith
    have : ⌊2 * π * sin (3 / 2 * S) / S⌋ = 9 := by
      rw [Int.floor_eq_iff]
      push_cast
      rw [le_div_iff₀ s0, div_lt_iff₀ s0]
      constructor
      · have : 2 * 3.14 * (1.46 * S) ≤ 2 * π * sin (3 / 2 * S) := by gcongr
        linarith
      · have : 2 * π * sin (3 / 2 * S) ≤ 2 * 3.15 * (3 / 2 * S) := by gcongr; linarith
        linarith
    rw [this]; norm_num
  have hN3 := wf.numTracts_ge
  have hidx : R.getRingIndices 1 = .ok (((0 : Nat) : Int), 0) := by
    have := wf.getRingIndices_ring hv hk (le_refl 0) (by norm_num)
    simpa using this
  have hctr := center_ring h hidx hk
  obtain ⟨γ, γ0, γ1, hγ⟩ := gap_position s0 s12 rfl
  -- the position
  set lon := wrapAngle π (R.raStart + 3 * π / 10) with hlon
  obtain ⟨l0, l1⟩ := wrapAngle_range hpi (R.raStart + 3 * π / 10)
  refine ⟨⟨lon, γ - π / 2⟩, ⟨l0, l1⟩, by dsimp only; rw [abs_le]; constructor <;> linarith, ?_⟩
  intro s hs
  set p : SpherePoint ℝ := ⟨lon, γ - π / 2⟩ with hp
  set ctr : SpherePoint ℝ := ⟨wrapAngle π (2 * π * (0 : Int) / (10 : Int) + R.raStart), R.ringSize * ((0 : Nat) + 1) - π / 2⟩ with hc
  have hd1 : cos (p.lon - ctr.lon) = cos (3 * π / 10) := by
    rw [hp, hc, hlon]
    dsimp only
    rw [cos_wrap_sub, ← cos_neg, neg_sub, cos_wrap_sub, ← cos_neg]; congr 1; push_cast; ring
  have hd2 : sin (p.lon - ctr.lon) = sin (3 * π / 10) := by
    rw [hp, hc, hlon]
    dsimp only
    rw [sin_wrap_sub, ← neg_sub, sin_neg, sin_wrap_sub, ← sin_neg]; congr 1; push_cast; ring
  obtain ⟨z0, z1, hE, hNo⟩ := hγ ctr p (by rw [hc]; push_cast; ring) rfl hd1 hd2
  have er : exact.mul (1 / 2) R.ringSize + exact.deg2rad R.config.tractOverlap = (90 / ((c.numRings : ℝ) + 1) + c.tractOverlap) * (π / 180) := by
    rw [h1, hS]
    change 1 / 2 * (π / ((c.numRings : ℝ) + 1)) + c.tractOverlap * (π / 180) = _
    field_simp; ring
  generalize hρ : (90 / ((c.numRings : ℝ) + 1) + c.tractOverlap) * (π / 180) = ρ at *
  have hρ1 : 3 / 5 * R.ringSize ≤ ρ := by
    rw [← hρ, hS]
    calc 3 / 5 * (π / ((c.numRings : ℝ) + 1)) = (90 / ((c.numRings : ℝ) + 1) + 18 / ((c.numRings : ℝ) + 1)) * (π / 180) := by field_simp; ring
      _ ≤ _ := by gcongr
  have ρ0 : 0 ≤ ρ := by linarith
  have gen : ∀ i, 0 ≤ i ∧ i < R.numTracts → ∀ s₁, (skyMapOps exact R env sphereOps (f.makeWcs other ⟨0, 0⟩)).After s s₁ →
      ∃ r s₂, (skyMapOps exact R env sphereOps (f.makeWcs other ⟨0, 0⟩)).getItem i s₁ = (.ok r, s₂) := by
    intro i hi s₁ hs₁
    refine generate_at h hx hy ?_ hi (hs.trans hs₁)
    intro ctr b
    rw [er]
    exact ⟨_, WcsFactory.C56_bearing (other := other) hf hsc.ne' hP ⟨0, 0⟩ ctr b ρ0 hlim⟩
  constructor
  · obtain ⟨r, s', hr⟩ := gen 1 (by omega) s (SkyMapOps.After.refl _)
    refine ⟨r, s', hr, ?_⟩
    obtain ⟨ctr', inner, b, hctr', hnew⟩ := built_of_getItem hs hr
    rw [hctr] at hctr'
    cases hctr'
    have hrad : P.radius (3 / 5 * R.ringSize) ≤ P.radius ρ := P.radius_mono (by linarith) hρ1 hlim
    have ch : 0 < cos (3 / 5 * R.ringSize) := by linarith
    have plane : ∃ q, P.toPlane ctr p = some q ∧ |q.x| ≤ P.radius (3 / 5 * R.ringSize) ∧ |q.y| ≤ P.radius (3 / 5 * R.ringSize) := by
      cases P with
      | CEA => exact absurd rfl hz
      | TAN =>
        refine ⟨_, by unfold Projection.toPlane; dsimp only; rw [if_pos z0], ?_, ?_⟩
        · dsimp only [Projection.radius]
          rw [abs_div, abs_of_pos z0, div_le_iff₀ z0]; exact hE
        · dsimp only [Projection.radius]
          rw [abs_div, abs_of_pos z0, div_le_iff₀ z0]; exact hNo
      | STG =>
        have z2 : 0 < 1 + cosSep ctr p := by linarith
        have key : ∀ e : ℝ, |e| ≤ tan (3 / 5 * R.ringSize) * cosSep ctr p →
            |2 * e / (1 + cosSep ctr p)| ≤ 2 * tan (3 / 5 * R.ringSize / 2) := by
          intro e he
          rw [abs_div, abs_of_pos z2, abs_mul, abs_of_pos (by norm_num : (0 : ℝ) < 2), div_le_iff₀ z2]
          have ht : tan (3 / 5 * R.ringSize / 2) * (1 + cos (3 / 5 * R.ringSize)) = sin (3 / 5 * R.ringSize) :=
            tan_half (cos_pos_of_mem_Ioo ⟨by linarith, by linarith⟩).ne'
          have htn : tan (3 / 5 * R.ringSize) * cos (3 / 5 * R.ringSize) = sin (3 / 5 * R.ringSize) := tan_mul_cos ch.ne'
          set C := cos (3 / 5 * R.ringSize)
          set Z := cosSep ctr p
          set t2 := tan (3 / 5 * R.ringSize / 2)
          have t20 : 0 ≤ t2 := tan_nonneg_of_nonneg_of_le_pi_div_two (by linarith) (by linarith)
          have k : tan (3 / 5 * R.ringSize) * Z * C ≤ t2 * (1 + Z) * C := by
            calc tan (3 / 5 * R.ringSize) * Z * C = t2 * (1 + C) * Z := by rw [ht, ← htn]; ring
              _ ≤ t2 * (1 + Z) * C := by nlinarith [mul_nonneg t20 (sub_nonneg.2 z1)]
          have := le_of_mul_le_mul_right k ch
          linarith
        refine ⟨_, by unfold Projection.toPlane; dsimp only; rw [if_pos (by linarith)], ?_, ?_⟩
        · exact key _ hE
        · exact key _ hNo
    obtain ⟨q, hq, qx, qy⟩ := plane
    exact C57_covers_square (other := other) he hnew hx hy hf hsc hP rfl rfl (by dsimp only; rw [er]; exact ρ0)
      (by dsimp only; rw [er]; exact hlim) p hq (by dsimp only; rw [er]; exact qx.trans hrad) (by dsimp only; rw [er]; exact qy.trans hrad)
  · obtain ⟨l, s', hl⟩ := C31_total (p := p) hI h (by omega) hN2 gen
    refine ⟨l, s', hl, ?_⟩
    intro r hr hid
    obtain ⟨ha, -⟩ := findAll_spec hI h (by omega) hN2 (Search_permanent_caching _ b₀ s hs) hl
    obtain ⟨-, hex⟩ := C31_exact hI h (by omega) hN2 hs hl
    obtain ⟨i, hi, hnear, -⟩ := (hex r).1 hr
    obtain ⟨-, hii⟩ := item wf (hs.trans ha) hi
    rw [hid] at hii
    subst hii
    rcases hnear with h0 | h0 | ⟨k, n, t, u, a1, a2, -, a4, a5⟩
    · omega
    · have := wf.getRingIndices_north
      rw [← h0, hidx] at this
      simp only [Except.ok.injEq, Prod.mk.injEq] at this
      have e := this.1
      rw [h1] at e
      omega
    · rw [hidx] at a1
      simp only [Except.ok.injEq, Prod.mk.injEq] at a1
      obtain ⟨k0, u0⟩ := a1
      obtain rfl : k = 0 := by omega
      rw [hk, Option.some.injEq] at a2
      subst a2 u0
      rw [ra_exact wf hk, Except.ok.injEq] at a4
      obtain ⟨m, hm⟩ := wrapAngle_eq π (R.raStart + 3 * π / 10)
      have e : (p.lon - R.raStart) * ((10 : Int) : ℝ) / (2 * π) + 1 / 2 = ((2 + -m * 10 : Int) : ℝ) := by
        rw [hp]; dsimp only; rw [hlon, hm]; push_cast; field_simp; ring
      rw [e, Int.floor_intCast, Int.add_mul_emod_self_right] at a4
      subst a4
      revert a5
      decide

/-- C72 is not vacuous: 120 rings, an overlap of one arc minute and pixels of 0.2 arc seconds in patches of 4000 pixels, 7 by 7 patches per
tract; for the limit, 11 rings and an overlap of 2 degrees. -/
example : (∃ (R : Rings ℝ) (f : WcsFactory), Rings.new exact ⟨120, 0, 1 / 60⟩ 1 = .ok R ∧
      WcsFactory.new (π / 3240000) "TAN" 0 false = .ok f ∧
      ∀ p : SpherePoint ℝ, |p.lat| ≤ π / 2 → ∃ l s',
        R.findAllTracts exact (skyMapOps exact R Ex.realEnv sphereOps (f.makeWcs other ⟨0, 0⟩)) p
          (init exact R Ex.realEnv sphereOps (f.makeWcs other ⟨0, 0⟩) ⟨.legacy, ⟨4000, 4000⟩, 100, none⟩) = (.ok l, s') ∧
        ∀ r, r ∈ l ↔ (∃ i s'', (skyMapOps exact R Ex.realEnv sphereOps (f.makeWcs other ⟨0, 0⟩)).getItem i s' = (.ok r, s'')) ∧
          r.info.contains p = true) ∧
    (∃ (R : Rings ℝ) (f : WcsFactory) (p : SpherePoint ℝ), Rings.new exact ⟨11, 0, 2⟩ 1 = .ok R ∧ WcsFactory.new (1 / 1000) "TAN" 0 false = .ok f ∧
      ∃ l s', R.findAllTracts exact (skyMapOps exact R Ex.realEnv sphereOps (f.makeWcs other ⟨0, 0⟩)) p
          (init exact R Ex.realEnv sphereOps (f.makeWcs other ⟨0, 0⟩) Ex.smallBuilder) = (.ok l, s') ∧ ∀ r ∈ l, r.info.id ≠ 1) := by
  have hp := pi_gt_three
  have hp2 := pi_pos
  have hp4 := pi_lt_d4
  have hp5 := pi_gt_d4
  constructor
  · obtain ⟨R, hR⟩ := new_ok ⟨120, 0, 1 / 60⟩ (.inr rfl)
    obtain ⟨f, hf⟩ := (WcsFactory.C56_projection_length (π / 3240000) "TAN" 0 false).2 rfl
    refine ⟨R, f, hR, hf, fun p hlat => ?_⟩
    obtain ⟨a1, a2, -, -, -, -, a7⟩ := gap_bounds (s := π / 121) rfl
    have er : (90 / (((120 : ℕ) : ℝ) + 1) + 1 / 60) * (π / 180) = π / 121 / 2 + π / 10800 := by push_cast; ring
    have hb : 2 * (tan (π / 121 / 2 + π / 10800) / (π / 3240000)) + 3 ≤ 28000 := by
      rw [div_div_eq_mul_div, ← sub_nonneg]
      have : tan (π / 121 / 2 + π / 10800) * 3240000 / π ≤ 13998 := by
        rw [div_le_iff₀ hp2]; linarith
      linarith
    have hlim : π / 121 / 2 + π / 10800 < Projection.TAN.limit := by simp only [Projection.limit]; linarith
    obtain ⟨l, s', hl⟩ := C72_total (other := other) (env := Ex.realEnv) (b₀ := ⟨.legacy, ⟨4000, 4000⟩, 100, none⟩) (P := .TAN)
      hR (by norm_num) (by norm_num) (by norm_num) (by norm_num) hf (by positivity) rfl (by norm_num) er.symm hlim rfl
      (SkyMapOps.After.refl _) p
    refine ⟨l, s', hl, fun r => ?_⟩
    refine C72_complete (other := other) (kx := 7) (ky := 7) (T := π / 3240000 * 28003 / 2) (P := .TAN)
      hR (by norm_num) (by norm_num) Ex.realEnv_ok (by norm_num) (by norm_num) hf (by positivity) rfl (by norm_num) er.symm hlim ?_ ?_ ?_ ?_ ?_ rfl
      (SkyMapOps.After.refl _) hlat hl r
    · simp only [Projection.radius]; push_cast; linarith
    · simp only [Projection.radius]; push_cast; linarith
    · push_cast; linarith
    · push_cast; linarith
    · simp only [SmallReach]
      push_cast
      rw [show (120 : ℝ) + 1 = 121 by norm_num]
      refine le_trans ?_ (le_tan (x := 579 / 1000 * (π / 121)) (by positivity) (by linarith))
      linarith
  · obtain ⟨R, hR⟩ := new_ok ⟨11, 0, 2⟩ (.inr rfl)
    obtain ⟨f, hf⟩ := (WcsFactory.C56_projection_length (1 / 1000) "TAN" 0 false).2 rfl
    obtain ⟨p, -, -, hgap⟩ := C72_gap (other := other) (b₀ := Ex.smallBuilder) (P := .TAN) hR (by norm_num) (by norm_num) Ex.realEnv_ok
      (by decide) (by decide) hf (by norm_num) rfl (by decide) (by norm_num) (by simp only [Projection.limit]; push_cast; linarith) rfl
    obtain ⟨-, l, s', h1, h2⟩ := hgap _ (SkyMapOps.After.refl _)
    exact ⟨R, f, p, hR, hf, l, s', h1, h2⟩

end Rings
end Skymap
