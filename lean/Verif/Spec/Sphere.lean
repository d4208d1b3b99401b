import Verif.Model.Geom
import Mathlib.Analysis.SpecialFunctions.Trigonometric.Inverse

/-! # Specification: distances and directions on the sphere -/

namespace Skymap

/-- The cosine of the angle between two directions. -/
noncomputable def cosSep (p q : SpherePoint ℝ) : ℝ :=
  Real.sin p.lat * Real.sin q.lat + Real.cos p.lat * Real.cos q.lat * Real.cos (p.lon - q.lon)

/-- The great circle distance (spherical law of cosines). -/
noncomputable def greatCircle (p q : SpherePoint ℝ) : ℝ := Real.arccos (cosSep p q)

theorem cosSep_range (p q : SpherePoint ℝ) : -1 ≤ cosSep p q ∧ cosSep p q ≤ 1 := by
  have h1 := Real.cos_sub p.lat q.lat
  have h2 := Real.cos_add p.lat q.lat
  have h3 := Real.cos_le_one (p.lat - q.lat)
  have h4 := Real.neg_one_le_cos (p.lat - q.lat)
  have h5 := Real.cos_le_one (p.lat + q.lat)
  have h6 := Real.neg_one_le_cos (p.lat + q.lat)
  have h7 := Real.cos_le_one (p.lon - q.lon)
  have h8 := Real.neg_one_le_cos (p.lon - q.lon)
  unfold cosSep
  generalize Real.sin p.lat * Real.sin q.lat = s at *
  generalize Real.cos p.lat * Real.cos q.lat = c at *
  constructor
  · rcases le_total 0 c with h | h
    · nlinarith
    · nlinarith
  · rcases le_total 0 c with h | h
    · nlinarith
    · nlinarith

theorem greatCircle_lt {p q r : SpherePoint ℝ} : greatCircle p q < greatCircle p r ↔ cosSep p r < cosSep p q := by
  have h1 := cosSep_range p q
  have h2 := cosSep_range p r
  exact Real.strictAntiOn_arccos.lt_iff_gt ⟨h1.1, h1.2⟩ ⟨h2.1, h2.2⟩

theorem greatCircle_le {p q r : SpherePoint ℝ} : greatCircle p q ≤ greatCircle p r ↔ cosSep p r ≤ cosSep p q := by
  rw [← not_lt, greatCircle_lt, not_lt]

end Skymap
