import Verif.Py

/-!
# Dynamic Python values

`FieldSection.parsed`, handler values and note variables hold arbitrary Python objects; `Val` is the
part of them that the code uses.
-/

namespace HL

/-- scalar Python objects -/
inductive Atom where
  | none
  | bool (b : Bool)
  | int (i : Int)
  /-- a float; rationals stand in for floats (rounding is not modelled) -/
  | num (q : Rat)
  | str (s : Str)
  /-- `note.MarkdownSafe`, note.py:22-31 -/
  | md (s : Str)
  /-- `http_sf.Token` -/
  | token (s : Str)
  /-- `http_sf.DisplayString` -/
  | disp (s : Str)
  | bytes (s : Str)
  /-- `datetime` as a structured-field Date, seconds since the epoch -/
  | date (i : Int)
  /-- `util.RelativeTime`, util.py:74-97 -/
  | rel (utime now : Rat) (sign : Nat)
  /-- `origin.OriginValue`, field/parsers/origin.py -/
  | origin (scheme host : Str) (port : Option Int)
  deriving DecidableEq, Repr, Inhabited

/-- containers -/
inductive Kind where
  | list | tuple | set | dict
  deriving DecidableEq, Repr, Inhabited

/-- A Python object: a scalar or a container.  A `dict` is a container of `(key, value)` tuples. -/
inductive Val where
  | atom (a : Atom)
  | seq (k : Kind) (xs : List Val)
  deriving Repr, Inhabited

namespace Val

mutual
/-- decidable equality (structural) -/
def decEq : (a b : Val) → Decidable (a = b)
  | .atom a, .atom b => if h : a = b then isTrue (by rw [h]) else isFalse (by simpa using h)
  | .atom _, .seq _ _ => isFalse (by simp)
  | .seq _ _, .atom _ => isFalse (by simp)
  | .seq k xs, .seq l ys =>
    if h : k = l then
      match decEqL xs ys with
      | isTrue h' => isTrue (by rw [h, h'])
      | isFalse h' => isFalse (by simp [h'])
    else isFalse (by simp [h])
def decEqL : (a b : List Val) → Decidable (a = b)
  | [], [] => isTrue rfl
  | [], _ :: _ => isFalse (by simp)
  | _ :: _, [] => isFalse (by simp)
  | x :: xs, y :: ys =>
    match decEq x y with
    | isTrue h =>
      match decEqL xs ys with
      | isTrue h' => isTrue (by rw [h, h'])
      | isFalse h' => isFalse (by simp [h'])
    | isFalse h => isFalse (by simp [h])
end

instance : DecidableEq Val := decEq

@[match_pattern] abbrev none : Val := .atom .none
@[match_pattern] abbrev bool (b : Bool) : Val := .atom (.bool b)
@[match_pattern] abbrev int (i : Int) : Val := .atom (.int i)
@[match_pattern] abbrev num (q : Rat) : Val := .atom (.num q)
@[match_pattern] abbrev str (s : Str) : Val := .atom (.str s)
@[match_pattern] abbrev md (s : Str) : Val := .atom (.md s)
@[match_pattern] abbrev token (s : Str) : Val := .atom (.token s)
@[match_pattern] abbrev disp (s : Str) : Val := .atom (.disp s)
@[match_pattern] abbrev bytes (s : Str) : Val := .atom (.bytes s)
@[match_pattern] abbrev date (i : Int) : Val := .atom (.date i)
@[match_pattern] abbrev rel (u n : Rat) (s : Nat) : Val := .atom (.rel u n s)
@[match_pattern] abbrev origin (s h : Str) (p : Option Int) : Val := .atom (.origin s h p)
@[match_pattern] abbrev list (xs : List Val) : Val := .seq .list xs
@[match_pattern] abbrev tuple (xs : List Val) : Val := .seq .tuple xs
@[match_pattern] abbrev set (xs : List Val) : Val := .seq .set xs
@[match_pattern] abbrev dict (xs : List Val) : Val := .seq .dict xs

/-- a `dict` with string keys -/
def ofDict (d : Dict Val) : Val := .dict (d.map fun p => .tuple [.str p.1, p.2])

/-- `Optional[str]` -/
def ofOpt : Option Str → Val
  | .none => .none
  | .some s => .str s

/-- Python truth value -/
def truthy : Val → Bool
  | .none => false
  | .bool b => b
  | .int i => i != 0
  | .num q => q != 0
  | .str s | .md s | .token s | .disp s | .bytes s => !s.isEmpty
  | .atom _ => true
  | .seq _ xs => !xs.isEmpty

/-- the entries of a `dict` with string keys (used only on dicts) -/
def entries : Val → Dict Val
  | .dict xs => xs.filterMap fun
    | .tuple [.str k, v] => some (k, v)
    | _ => .none
  | _ => []

/-- `d.get(k)` on a `dict` value -/
def get (v : Val) (k : Str) : Option Val := dget v.entries k

theorem entries_ofDict (d : Dict Val) : (ofDict d).entries = d := by
  induction d with
  | nil => rfl
  | cons p d ih =>
    simp only [ofDict, entries, List.map_cons, List.filterMap_cons] at ih ⊢
    rw [ih]

end Val
end HL
