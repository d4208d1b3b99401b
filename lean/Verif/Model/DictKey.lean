import Verif.Model.Sha1

/-!
# Sky maps as keys of a dictionary

baseSkyMap.py:308-318 (`__hash__`, `__eq__`, `__ne__`) as a Python dict uses them, also next to keys of other types.  The dict itself is
not code of /repo; it is modelled from the documentation of Python: an entry keeps the hash with which it was stored, and a key finds an
entry if it is the same object, or if the hashes are equal and `==` says so.  Simplification: entries are tried in the order of insertion.
-/

namespace Skymap

/-- An object used as a key: the sky map number `i`, or an object of a type without `getSha1` whose `__eq__` does not know sky maps, with
its hash. -/
inductive PyKey
  | map (i : Nat)
  | other (i : Nat) (hash : Int)
  deriving DecidableEq, Repr

/-- An entry of a dict: the stored hash, the key and the value. -/
structure DictEntry (V : Type) where
  hash : Int
  key : PyKey
  value : V

/-- All sky maps that exist, by number, and one dict. -/
structure DictWorld (V : Type) where
  maps : Nat → HashedMap
  dict : List (DictEntry V)

namespace DictWorld
variable {V : Type} (H : Bytes → Bytes) (hash : Bytes → Int) (eqOther : Nat → Nat → Bool)

/-- A method of the sky map number `i`. -/
def onMap {α : Type} (i : Nat) (f : PyS HashedMap α) : PyS (Nat → HashedMap) α := fun s =>
  match f (s i) with
  | (x, m) => (x, Function.update s i m)

/-- `hash(key)` (baseSkyMap.py:308-309). -/
def keyHash : PyKey → PyS (Nat → HashedMap) Int
  | .map i => onMap i (HashedMap.pyHash H hash)
  | .other _ h => pure h

/-- `a == b`.  For two sky maps baseSkyMap.py:311-313, as `HashedMap.eq`.  For a sky map and another object, on either side: the sky map's
`__eq__` returns `NotImplemented` because of the `AttributeError` (baseSkyMap.py:314-315), after its own `getSha1`; the other's does too; Python then
compares identities.  Two other objects are compared by `eqOther`. -/
def keyEq : PyKey → PyKey → PyS (Nat → HashedMap) Bool
  | .map i, .map j => do
    let a ← onMap i (HashedMap.getSha1 H)
    let b ← onMap j (HashedMap.getSha1 H)
    return a == b
  | .map i, .other _ _ => do
    let _ ← onMap i (HashedMap.getSha1 H)
    return false
  | .other _ _, .map j => do
    let _ ← onMap j (HashedMap.getSha1 H)
    return false
  | .other i _, .other j _ => return eqOther i j

/-- `a != b`: the negation (baseSkyMap.py:317-318, also inherited by other objects). -/
def keyNe (a b : PyKey) : PyS (Nat → HashedMap) Bool := do
  let x ← keyEq H eqOther a b
  return !x

/-- Whether an entry is that of the key `k` with hash `h`. -/
def sameKey (k : PyKey) (h : Int) (e : DictEntry V) : PyS (Nat → HashedMap) Bool :=
  if e.key = k then pure true
  else if e.hash = h then keyEq H eqOther e.key k
  else pure false

/-- The position of the entry that a key with hash `h` finds. -/
def locate (k : PyKey) (h : Int) : List (DictEntry V) → PyS (Nat → HashedMap) (Option Nat)
  | [] => pure none
  | e :: l => do
    let same ← sameKey H eqOther k h e
    if same then pure (some 0)
    else do
      let r ← locate k h l
      return r.map (· + 1)

/-- The hash of a key and the position of its entry. -/
def find (k : PyKey) (l : List (DictEntry V)) : PyS (Nat → HashedMap) (Int × Option Nat) := do
  let h ← keyHash H hash k
  let n ← locate H eqOther k h l
  return (h, n)

/-- `key in d`. -/
def contains (k : PyKey) : PyS (DictWorld V) Bool := fun w =>
  match find H hash eqOther k w.dict w.maps with
  | (.error e, s) => (.error e, { w with maps := s })
  | (.ok (_, n), s) => (.ok n.isSome, { w with maps := s })

/-- `d[key]`. -/
def getItem (k : PyKey) : PyS (DictWorld V) V := fun w =>
  match find H hash eqOther k w.dict w.maps with
  | (.error e, s) => (.error e, { w with maps := s })
  | (.ok (_, n), s) => (match n.bind (w.dict[·]?) with
    | some e => .ok e.value
    | none => .error .KeyError, { w with maps := s })

/-- `d[key] = v`: an entry that is found keeps its key. -/
def setItem (k : PyKey) (v : V) : PyS (DictWorld V) Unit := fun w =>
  match find H hash eqOther k w.dict w.maps with
  | (.error e, s) => (.error e, { w with maps := s })
  | (.ok (h, n), s) => (.ok (), { maps := s, dict := match n with
    | some n => w.dict.modify n fun e => { e with value := v }
    | none => w.dict ++ [⟨h, k, v⟩] })

/-- `del d[key]`. -/
def delItem (k : PyKey) : PyS (DictWorld V) Unit := fun w =>
  match find H hash eqOther k w.dict w.maps with
  | (.error e, s) => (.error e, { w with maps := s })
  | (.ok (_, n), s) => match n with
    | some n => (.ok (), ⟨s, w.dict.eraseIdx n⟩)
    | none => (.error .KeyError, { w with maps := s })

/-- What a program does with the dict and the sky maps. -/
inductive Op (V : Type)
  | contains (k : PyKey)
  | get (k : PyKey)
  | set (k : PyKey) (v : V)
  | del (k : PyKey)
  | eq (a b : PyKey)
  | sha1 (i : Nat)
  /-- an assignment to the configuration of a sky map -/
  | assign (i : Nat) (f : SkyMapConfig Dbl → SkyMapConfig Dbl)

/-- The state after an operation, whether or not it raises. -/
def step (w : DictWorld V) : Op V → DictWorld V
  | .contains k => (contains H hash eqOther k w).2
  | .get k => (getItem H hash eqOther k w).2
  | .set k v => (setItem H hash eqOther k v w).2
  | .del k => (delItem H hash eqOther k w).2
  | .eq a b => { w with maps := (keyEq H eqOther a b w.maps).2 }
  | .sha1 i => { w with maps := (onMap i (HashedMap.getSha1 H) w.maps).2 }
  | .assign i f => { w with maps := (onMap i (fun m => match SkyMapConfig.assign f m.config with
      | (x, c) => (x, { m with config := c })) w.maps).2 }

/-- After a program. -/
def run (w : DictWorld V) (ops : List (Op V)) : DictWorld V := ops.foldl (step H hash eqOther) w

end DictWorld
end Skymap
