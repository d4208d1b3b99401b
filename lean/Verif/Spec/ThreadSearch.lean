import Verif.Model.ThreadSearch

/-! # What is compared in C85 -/

namespace Skymap.Threads
variable {Sky K : Type}

/-- Tracts and patches without the identity of the tract objects. -/
def Found.plain (l : Found Sky K) : List (TractInfo Sky K × List (PatchInfo (Wcs Sky K))) := l.map fun e => (e.1.info, e.2)

/-- Append an entry, unless there is one for the same tract already. -/
def keepFirst {β : Type} (l : List (TractInfo Sky K × β)) (e : TractInfo Sky K × β) : List (TractInfo Sky K × β) :=
  if l.any fun x => decide (x.1.id = e.1.id) then l else l ++ [e]

/-- The first entry for each tract. -/
def firstOfEach {β : Type} (l : List (TractInfo Sky K × β)) : List (TractInfo Sky K × β) := l.foldl keepFirst []

end Skymap.Threads
