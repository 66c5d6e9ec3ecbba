import Lean.Elab.Term

/-!
# The fragment of Python the model needs

Strings and byte strings are lists of code points (`Nat`).  httplint decodes field values as ASCII or,
failing that, ISO-8859-1 (`field/section.py:52-61`), both of which map a byte to the code point of the
same value, so one type serves for both `bytes` and `str`.  Character-level functions (`lower`,
`isspace`, `isdigit`) are given for code points below 256; above that they are the identity / `false`
except for white space.
-/

namespace HL

/-- A Python `str` or `bytes`: a list of code points / octets. -/
abbrev Str := List Nat

/-- the code points of a string -/
def str (s : String) : Str := s.toList.map Char.toNat

open Lean Elab Term in
/-- A literal `str "..."` is elaborated directly to its list of code points, so that the kernel need not unpack
the string (see `str_literal` below). -/
@[term_elab Lean.Parser.Term.app] def elabStrLit : TermElab := fun stx _ => do
  match stx with
  | `($f:ident $s:str) =>
    if f.getId == `str || f.getId == `HL.str then
      return toExpr (s.getString.toList.map Char.toNat)
    else throwUnsupportedSyntax
  | _ => throwUnsupportedSyntax

/-- the elaborator agrees with the definition -/
theorem str_literal : str "A str: %(x)s" = id str "A str: %(x)s" := by decide

/-- Python exceptions that the modelled code can raise. -/
inductive Exn where
  | valueError | typeError | keyError | indexError | attributeError | unicodeError
  | overflowError | recursionError | assertionError | unboundLocalError | otherError
  deriving DecidableEq, Repr, Inhabited

/-- `str.isspace()` / regex `\s` (Unicode white space). -/
def isSpace (c : Nat) : Bool :=
  (9 ≤ c && c ≤ 13) || (28 ≤ c && c ≤ 32) || c == 133 || c == 160 || c == 5760 ||
  (8192 ≤ c && c ≤ 8202) || c == 8232 || c == 8233 || c == 8239 || c == 8287 || c == 12288

/-- white space for `bytes` methods: ASCII only -/
def isBSpace (c : Nat) : Bool := (9 ≤ c && c ≤ 13) || c == 32

/-- lower-casing of one code point (Latin-1 range) -/
def lowerC (c : Nat) : Nat :=
  if (65 ≤ c && c ≤ 90) || (192 ≤ c && c ≤ 222 && c != 215) then c + 32 else c

/-- `str.lower()` -/
def lower (s : Str) : Str := s.map lowerC

/-- upper-casing of one ASCII code point (used only on ASCII literals) -/
def upperC (c : Nat) : Nat := if 97 ≤ c && c ≤ 122 then c - 32 else c

/-- `str.lstrip()` -/
def lstrip (s : Str) : Str := s.dropWhile isSpace
/-- `str.rstrip()` -/
def rstrip (s : Str) : Str := (s.reverse.dropWhile isSpace).reverse
/-- `str.strip()` -/
def strip (s : Str) : Str := rstrip (lstrip s)

/-- `str.rstrip(chars)` for a set of characters given as a predicate -/
def rstripP (p : Nat → Bool) (s : Str) : Str := (s.reverse.dropWhile p).reverse
/-- `str.strip(chars)` -/
def stripP (p : Nat → Bool) (s : Str) : Str := rstripP p (s.dropWhile p)

/-- `s.split(c, 1)` when the separator is present: the parts before and after its first occurrence. -/
def split1 (c : Nat) : Str → Option (Str × Str)
  | [] => none
  | x :: xs => if x = c then some ([], xs) else
    match split1 c xs with
    | none => none
    | some (a, b) => some (x :: a, b)

/-- `s.split(c)` for a one-character separator: never empty. -/
def splitOn (c : Nat) : Str → List Str
  | [] => [[]]
  | x :: xs => if x = c then [] :: splitOn c xs else
    match splitOn c xs with
    | [] => [[x]]        -- unreachable: `splitOn` is never empty
    | p :: ps => (x :: p) :: ps

/-- `sep.join(parts)` -/
def join (sep : Str) : List Str → Str
  | [] => []
  | [x] => x
  | x :: y :: r => x ++ sep ++ join sep (y :: r)

/-- `s.startswith(p)` -/
def startsWith (p s : Str) : Bool := p.isPrefixOf s
/-- `s.endswith(p)` -/
def endsWith (p s : Str) : Bool := p.isSuffixOf s
/-- `p in s` for strings -/
def isSub (p : Str) : Str → Bool
  | [] => p.isEmpty
  | c :: s => p.isPrefixOf (c :: s) || isSub p s

/-- `s.replace(c, "")` for a one-character string `c` -/
def removeC (c : Nat) (s : Str) : Str := s.filter (· != c)

/-- `str.isdigit()` for one Latin-1 code point: ASCII digits and the superscripts ² ³ ¹. -/
def isDigitC (c : Nat) : Bool := (48 ≤ c && c ≤ 57) || c == 178 || c == 179 || c == 185
/-- `str.isdigit()` -/
def isDigit (s : Str) : Bool := !s.isEmpty && s.all isDigitC
/-- an ASCII digit -/
def isAsciiDigit (c : Nat) : Bool := 48 ≤ c && c ≤ 57

/-- value of a string of ASCII digits -/
def digitsVal (s : Str) : Nat := s.foldl (fun n c => 10 * n + (c - 48)) 0

/-- digits with single underscores between them, as `int()` accepts; returns the digits -/
def intDigits : Str → Option Str
  | [] => none
  | [c] => if isAsciiDigit c then some [c] else none
  | c :: 95 :: d :: r =>
    if isAsciiDigit c && isAsciiDigit d then (intDigits (d :: r)).map (c :: ·) else none
  | c :: d :: r => if isAsciiDigit c then (intDigits (d :: r)).map (c :: ·) else none

/-- Python's limit on `int(str)` conversions (sys.int_info.default_max_str_digits). -/
def maxIntDigits : Nat := 4300

/-- `int(s)`; `none` is `ValueError`.  Accepts surrounding white space, a sign, and underscores
between digits; rejects more than 4300 digits. -/
def pyInt (s : Str) : Option Int :=
  let t := strip s
  let (neg, body) := match t with
    | 45 :: r => (true, r)
    | 43 :: r => (false, r)
    | r => (false, r)
  match intDigits body with
  | none => none
  | some ds => if ds.length > maxIntDigits then none
    else some (if neg then - (digitsVal ds : Int) else digitsVal ds)

/-- `str(n)` for a natural number -/
def dec (n : Nat) : Str := (Nat.toDigits 10 n).map Char.toNat
/-- `str(n)` for an integer -/
def decI (n : Int) : Str := if n < 0 then 45 :: dec n.natAbs else dec n.natAbs

/-- Association-list view of a Python `dict` (insertion ordered, unique keys). -/
abbrev Dict (β : Type) := List (Str × β)

/-- `d.get(k)` -/
def dget {β} (d : Dict β) (k : Str) : Option β := (d.find? (fun p => p.1 == k)).map (·.2)
/-- `k in d` -/
def dhas {β} (d : Dict β) (k : Str) : Bool := d.any (fun p => p.1 == k)
/-- `d[k] = v`: replaces in place, or appends -/
def dset {β} : Dict β → Str → β → Dict β
  | [], k, v => [(k, v)]
  | (k', v') :: d, k, v => if k' = k then (k, v) :: d else (k', v') :: dset d k v

/-! ### Basic facts -/

@[simp] theorem dhas_nil {β} (k : Str) : dhas ([] : Dict β) k = false := rfl

@[simp] theorem dget_nil {β} (k : Str) : dget ([] : Dict β) k = none := rfl

theorem dget_cons {β} (p : Str × β) (d : Dict β) (k : Str) :
    dget (p :: d) k = if p.1 = k then some p.2 else dget d k := by
  unfold dget
  by_cases h : p.1 = k <;> simp [h]

theorem dhas_cons {β} (p : Str × β) (d : Dict β) (k : Str) :
    dhas (p :: d) k = (p.1 == k || dhas d k) := by simp [dhas]

theorem dhas_iff_mem_keys {β} (d : Dict β) (k : Str) : dhas d k = true ↔ k ∈ d.map (·.1) := by
  induction d with
  | nil => simp
  | cons p d ih =>
    simp only [dhas_cons, Bool.or_eq_true, beq_iff_eq, ih, List.map_cons, List.mem_cons]
    rw [eq_comm]

theorem dget_isSome {β} (d : Dict β) (k : Str) : (dget d k).isSome = dhas d k := by
  induction d with
  | nil => simp
  | cons p d ih =>
    rw [dget_cons, dhas_cons]
    by_cases h : p.1 = k <;> simp [h, ih]

theorem dget_dset {β} (d : Dict β) (k : Str) (v : β) (k' : Str) :
    dget (dset d k v) k' = if k = k' then some v else dget d k' := by
  induction d with
  | nil => simp [dset, dget_cons]
  | cons p d ih =>
    obtain ⟨a, b⟩ := p
    unfold dset
    by_cases h : a = k
    · simp only [h, if_true, dget_cons]
      by_cases h' : k = k' <;> simp [h']
    · simp only [h, if_false, dget_cons, ih]
      by_cases h' : k = k'
      · subst h'; simp [h]
      · simp [h']

theorem dhas_dset {β} (d : Dict β) (k : Str) (v : β) (k' : Str) :
    dhas (dset d k v) k' = (k == k' || dhas d k') := by
  rw [← dget_isSome, dget_dset, ← dget_isSome]
  by_cases h : k = k' <;> simp [h]

theorem keys_dset {β} (d : Dict β) (k : Str) (v : β) :
    (dset d k v).map (·.1) = if dhas d k then d.map (·.1) else d.map (·.1) ++ [k] := by
  induction d with
  | nil => simp [dset]
  | cons p d ih =>
    obtain ⟨a, b⟩ := p
    unfold dset
    by_cases h : a = k
    · simp [h, dhas_cons]
    · simp only [h, if_false, List.map_cons, ih, dhas_cons]
      by_cases h2 : dhas d k <;> simp [h, h2]

theorem splitOn_ne_nil (c : Nat) (s : Str) : splitOn c s ≠ [] := by
  cases s with
  | nil => simp [splitOn]
  | cons x xs =>
    unfold splitOn
    split
    · simp
    · split <;> simp

end HL
