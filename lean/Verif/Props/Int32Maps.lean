import Verif.Props.Int32
import Verif.Props.Uniform
import Verif.Props.Defaults

/-! # C76 for tracts on the sphere, and for the default dodecahedral sky map -/

set_option linter.unusedSectionVars false

namespace Skymap
open Real TractBuilder

variable {env : FloatEnv ℝ} {b₀ b : TractBuilder} {scale θ : ℝ} {code : String} {flipX : Bool} {f : WcsFactory} {P : Projection}
  {other : P2 ℝ → SpherePoint ℝ → CdMatrix → String → Wcs (SpherePoint ℝ) ℝ}

/-- C76 for tracts of a given radius (the tracts of rings and discrete sky maps): with pixels of a milliarcsecond or more, a radius and
overlap of at most 45 degrees together, and patches and borders of at most a hundred million pixels, the tract is built without an
overflow, and it and a border on each side fit in 32 bits, so that C76_getPatchInfo, C76_contains, C76_findPatch and C76_findPatchList apply. -/
theorem C76_explicit (he : env.Ok) {a : TractArgs (SpherePoint ℝ) ℝ}
    (hx : 0 < b₀.patchInnerDimensions.x) (hy : 0 < b₀.patchInnerDimensions.y)
    (mx : b₀.patchInnerDimensions.x ≤ 100000000) (my : b₀.patchInnerDimensions.y ≤ 100000000) (mb : b₀.patchBorder ≤ 100000000)
    (hf : WcsFactory.new scale code θ flipX = .ok f) (hs : π / 648000000 ≤ scale) (hP : Projection.ofCode code = some P) (hz : P ≠ .CEA)
    {r : ℝ} (ha : a.shape = .explicit r) (hw : a.wcs = f.makeWcs other ⟨0, 0⟩ a.ctrCoord)
    (h0 : 0 ≤ r + a.tractOverlap) (h45 : r + a.tractOverlap ≤ π / 4) :
    TractInfo.new32 env sphereOps b₀ a = TractInfo.new env sphereOps b₀ a ∧
    ∀ t b, TractInfo.new env sphereOps b₀ a = .ok (t, b) →
      t.getBBox.getDimensions.x + 2 * b₀.patchBorder ≤ 2147483647 ∧ t.getBBox.getDimensions.y + 2 * b₀.patchBorder ≤ 2147483647 := by
  have hpi := pi_pos
  have hs0 : 0 < scale := lt_of_lt_of_le (by positivity) hs
  have hl : r + a.tractOverlap < P.limit := by
    cases P with
    | TAN => change _ < π / 2; linarith
    | STG => change _ < π; linarith
    | CEA => exact absurd rfl hz
  have hrad : P.radius (r + a.tractOverlap) ≤ 1.2 := by
    have ht : ∀ x, 0 ≤ x → x ≤ π / 4 → tan x ≤ tan (π / 4) := by
      intro x hx0 hx1
      apply strictMonoOn_tan.monotoneOn
      · constructor <;> linarith
      · constructor <;> linarith
      · exact hx1
    cases P with
    | TAN =>
      change tan _ ≤ 1.2
      have := ht _ h0 h45
      rw [tan_pi_div_four] at this
      linarith
    | STG =>
      change 2 * tan _ ≤ 1.2
      have h1 : tan ((r + a.tractOverlap) / 2) ≤ tan (π / 6) := by
        apply strictMonoOn_tan.monotoneOn
        · constructor <;> linarith
        · constructor <;> linarith
        · linarith
      rw [tan_pi_div_six] at h1
      have h2 : 1 / √3 ≤ 0.6 := by
        rw [div_le_iff₀ (by positivity)]
        have : (1.7 : ℝ) ≤ √3 := le_sqrt_of_sq_le (by norm_num)
        linarith
      linarith
    | CEA => exact absurd rfl hz
  have hN : P.radius (r + a.tractOverlap) / scale ≤ ((250000000 : ℤ) : ℝ) := by
    rw [div_le_iff₀ hs0]
    have h3 := pi_gt_d2
    push_cast
    have : (250000000 : ℝ) * (π / 648000000) ≤ 250000000 * scale := by linarith
    have : (1.2 : ℝ) ≤ 250000000 * (π / 648000000) := by
      rw [mul_div_assoc', le_div_iff₀ (by norm_num)]
      linarith
    linarith
  have hB : ∀ s ∈ samplePoints sphereOps a, ∀ q, a.wcs.skyToPixel s = .pix q → |q.x| ≤ ((250000000 : ℤ) : ℝ) ∧ |q.y| ≤ ((250000000 : ℤ) : ℝ) := by
    intro s hsm q hq
    obtain ⟨i, -, e⟩ := explicit_samples (other := other) hf hs0 hP ha hw rfl h0 hl s hsm
    rw [hq, PixRes.pix.injEq] at e
    subst e
    have hr : 0 ≤ P.radius (r + a.tractOverlap) / scale := div_nonneg (P.radius_nonneg h0 hl) hs0.le
    dsimp only
    have hm : |(if flipX then 1 else -1 : ℝ)| = 1 := by cases flipX <;> simp
    rw [abs_mul, hm, one_mul, abs_mul, abs_mul, abs_of_nonneg hr]
    exact ⟨(mul_le_of_le_one_right hr (abs_cos_le_one _)).trans hN, (mul_le_of_le_one_right hr (abs_sin_le_one _)).trans hN⟩
  refine ⟨C76_new he hx hy (by norm_num) hB (by omega) (by omega), ?_⟩
  intro t b h
  have := C76_size he h hx hy (by norm_num) hB
  omega

/-- C76 for the dodecahedral sky map with the default pixel scale, overlap, projection, rotation and patches, a border of at most a hundred million
pixels, and with or without tracts on the poles: looking up patches with 32-bit pixels gives the same patches and the same errors, on every tract. -/
theorem C76_dodeca {tiny : ℝ} {o : Dodeca.SetOrder} {D : Dodecahedron} {w : Bool} {l : List (TractArgs (SpherePoint ℝ) ℝ)}
    {ts : List (TractRef (SpherePoint ℝ) ℝ)} (he : env.Ok) (ht0 : 0 < tiny) (ht1 : tiny ≤ 1 / 10) (ho : o.Ok)
    (hsc : |scale - 0.2 * (π / 648000)| ≤ 1e-6 * (0.2 * (π / 648000))) (hf : WcsFactory.new scale "STG" 0 flipX = .ok f)
    (hl : DodecaSkyMap.tracts tiny (f.makeWcs other ⟨0, 0⟩) o w 3.5 = .ok (D, l)) (hb0 : b₀.patchInnerDimensions = ⟨4000, 4000⟩)
    (hb1 : 0 ≤ b₀.patchBorder) (hb2 : b₀.patchBorder ≤ 100000000) (hb : EagerSkyMap.buildAll env sphereOps l 0 b₀ = .ok (ts, b)) :
    ∀ t ∈ ts, (∀ index, t.info.getPatchInfo32 b index = t.info.getPatchInfo b index) ∧
      ∀ toInt, ToInt32 toInt → ∀ p, t.info.contains32 toInt p = t.info.contains p ∧
        t.info.findPatch32 toInt env b p = t.info.findPatch env b p := by
  have hx : 0 < b₀.patchInnerDimensions.x := by rw [hb0]; decide
  have hy : 0 < b₀.patchInnerDimensions.y := by rw [hb0]; decide
  have hu := DodecaSkyMap.C75_dodeca_patches he ht0 ht1 ho hsc hf hl hb0 hb
  obtain ⟨-, hbuilt⟩ := EagerSkyMap.uniform_built hb hx hy hu
  intro t ht
  obtain ⟨k, hk⟩ := List.getElem?_of_mem ht
  obtain ⟨a, -, hn⟩ := hbuilt k t hk
  have B := TractInfo.new_built hn hx hy
  have hbox := B.box
  rw [B.dims, hu t ht, hb0] at hbox
  have hdim : t.info.getBBox.getDimensions = ⟨1400000, 1336000⟩ := by
    unfold TractInfo.getBBox
    rw [hbox]; decide
  have sx : t.info.getBBox.getDimensions.x + 2 * b₀.patchBorder ≤ 2147483647 := by rw [hdim]; dsimp only; omega
  have sy : t.info.getBBox.getDimensions.y + 2 * b₀.patchBorder ≤ 2147483647 := by rw [hdim]; dsimp only; omega
  exact ⟨C76_getPatchInfo hn hx hy hb1 sx sy, fun toInt hc p =>
    ⟨C76_contains hn hx hy (by omega) (by omega) hc p, C76_findPatch hn hx hy hb1 sx sy hc p⟩⟩

end Skymap
