import Verif.Model.Threads

/-! # What is compared in C67 -/

namespace Skymap.Threads
variable {Sky K : Type}

/-- A value without the identity of the tract objects in it. -/
def Value.plain : Value Sky K → Value Sky K
  | .tract t => .tract ⟨0, t.info⟩
  | .tracts l => .tracts (l.map fun t => ⟨0, t.info⟩)
  | v => v

/-- A remembered digest, if any, is that of the message. -/
def DigestOk (H : Bytes → Bytes) (message : PyM Bytes) (h : Option Bytes) : Prop :=
  ∀ d, h = some d → ∃ b, message = .ok b ∧ d = H b

end Skymap.Threads
