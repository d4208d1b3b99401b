import Mathlib.Algebra.Order.Floor.Ring

/-!
# Python run-time primitives used by the model

Exceptions are values; integers are unbounded.  Everything here models the *language*, not /repo.
-/

namespace Skymap

/-- The exception classes that lsst/skymap raises or lets through. -/
inductive PyErr
  | IndexError | ValueError | RuntimeError | LookupError | ZeroDivisionError | TypeError
  | AttributeError | AssertionError | KeyError | StructError | UnicodeEncodeError
  | NotImplementedError | ConflictingDefinitionError | FieldValidationError | IntegrityError
  | OverflowError
  /-- `lsst.pex.exceptions.DomainError` / `lsst.pex.exceptions.RuntimeError` raised by a `SkyWcs`. -/
  | PexError
  deriving DecidableEq, Repr

/-- A Python call: a value or an exception. -/
abbrev PyM (α : Type) := Except PyErr α

/-- Python `a // b` on ints. -/
def pyFloorDiv (a b : Int) : PyM Int :=
  if b = 0 then .error .ZeroDivisionError else .ok (Int.fdiv a b)

/-- Python `a % b` on ints. -/
def pyMod (a b : Int) : PyM Int :=
  if b = 0 then .error .ZeroDivisionError else .ok (Int.fmod a b)

/-- Python `divmod(a, b)` on ints. -/
def pyDivMod (a b : Int) : PyM (Int × Int) :=
  if b = 0 then .error .ZeroDivisionError else .ok (Int.fdiv a b, Int.fmod a b)

/-- Python `n.bit_length()`. -/
def pyBitLength (n : Int) : Nat :=
  if n = 0 then 0 else Nat.log2 n.natAbs + 1

/-- Python `l[i]` for a list: negative indices count from the end, otherwise `IndexError`. -/
def pyGetItem {α : Type} (l : List α) (i : Int) : PyM α :=
  let j := if i < 0 then i + l.length else i
  if j < 0 then .error .IndexError
  else match l[j.toNat]? with
    | some a => .ok a
    | none => .error .IndexError

/-- Python `int(x)` of a float: truncation toward zero. -/
def pyTrunc {K : Type} [Ring K] [LinearOrder K] [FloorRing K] (x : K) : Int :=
  if 0 ≤ x then ⌊x⌋ else ⌈x⌉

/-- Python `int(a / b)` for two ints: the true quotient is rounded to a float by `rnd`, then truncated. -/
def pyIntTrueDiv {K : Type} [Field K] [LinearOrder K] [FloorRing K] (rnd : K → K) (a b : Int) : PyM Int :=
  if b = 0 then .error .ZeroDivisionError else .ok (pyTrunc (rnd ((a : K) / (b : K))))

/-- Python `range(a, b)`. -/
def pyRange (a b : Int) : List Int :=
  (List.range (b - a).toNat).map (fun k : Nat => a + (k : Int))

/-- Insert an element into a sorted list, before equal ones. -/
def insertBy {α : Type} (le : α → α → Bool) (a : α) : List α → List α
  | [] => [a]
  | b :: l => if le a b then a :: b :: l else b :: insertBy le a l

/-- Python `l.sort()` (the stable sorted list) for the order `le`. -/
def pySort {α : Type} (le : α → α → Bool) (l : List α) : List α := l.foldr (insertBy le) []

/-- A list comprehension / generator whose body may raise: the first exception wins. -/
def pyMapM {α β : Type} (f : α → PyM β) : List α → PyM (List β)
  | [] => .ok []
  | a :: l => match f a with
    | .error e => .error e
    | .ok b => match pyMapM f l with
      | .error e => .error e
      | .ok bs => .ok (b :: bs)

end Skymap
