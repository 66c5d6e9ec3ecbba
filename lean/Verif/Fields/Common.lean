import Verif.Types

/-!
# Helpers shared by the field parsers

Conventions.  For a field `x` (a class in `field/parsers/x.py`), `F.x.parse` models its `parse` method and
`F.x.evaluate` its `evaluate`; a class that inherits the method has none here (see `Fields.lean` for the
dispatch).  `parse` receives the stripped value and a bound `add_note`; raising `ValueError` is
`W.throw .valueError`.
-/

namespace HL

/-- `self.reference` as a note variable -/
def FieldId.ref (f : FieldId) : Val := .str f.info.reference

/-- `v.split(";", 1)` with a `""` default (the `try`/`except ValueError` idiom) -/
def splitSemi (v : Str) : Str × Str :=
  match split1 59 v with
  | some (a, b) => (a, b)
  | none => (v, [])

/-- `del d[k]` / `d.pop(k)` -/
def derase {β} (d : Dict β) (k : Str) : Dict β := d.filter (fun p => p.1 != k)

/-- accept.py:46-58, accept_language.py:43-55: the value of `q`, or `none` for `ValueError` -/
def qValue (v : Val) : Option Rat :=
  match v with
  | .str s =>
    if s.length > 5 then none
    else match pyFloat s with
      | some q => if 0 ≤ q ∧ q ≤ 1 then some q else none
      | none => none
  | _ => Option.none

/-- `len(l) != len(set(l))` -/
def hasDups (l : List Str) : Bool := (dedup l).length != l.length

/-- the elements that occur again later (the `seen`/`duplicates` loops), as a set without repetition -/
def duplicatesOf (l : List Str) : List Str := dedup (l.filter fun x => l.count x > 1)

/-- the text of a string element of a list field's value -/
def Val.asStr : Val → Str
  | .str s => s
  | _ => []

/-- `str.split()`: maximal runs of non-white-space -/
def words (s : Str) : List Str :=
  let r := s.foldr (fun c (acc : List Str × Bool) =>
    -- acc.2: is the previous (right) character part of the head word
    if isSpace c then (acc.1, false)
    else match acc with
      | (w :: ws, true) => ((c :: w) :: ws, true)
      | (ws, _) => ([c] :: ws, true)) ([], false)
  r.1

/-- `s.split(None, 1)` of a stripped non-empty string: first word, and the rest without leading space -/
def splitWord (s : Str) : Str × Str :=
  (s.takeWhile (fun c => !isSpace c), lstrip (s.dropWhile (fun c => !isSpace c)))

/-- `f"{n:,}"` -/
def commaNum (n : Nat) : Str :=
  let d := (dec n).reverse
  let rec go (fuel : Nat) (s : Str) : Str := match fuel with
    | 0 => s
    | fuel + 1 => if s.length ≤ 3 then s else s.take 3 ++ [44] ++ go fuel (s.drop 3)
  (go d.length d).reverse

/-- `(d, v)` pairs of a value made of 2-tuples -/
def Val.pairs (xs : List Val) : List (Val × Val) := xs.filterMap fun x => match x with
  | .tuple [a, b] => some (a, b)
  | _ => Option.none

/-! ### field/utils.py:230-283 `check_sf_params` -/

/-- the `type` entry of a known parameter -/
inductive SfType where
  | bool | int | str | token | tokenOrStr
  deriving DecidableEq, Repr

/-- `isinstance(v, t)` -/
def SfType.has : SfType → Val → Bool
  | .bool, v => v.isBool
  | .int, v => v.isInt
  | .str, v => v.isStr
  | .token, v => v.isToken
  | .tokenOrStr, v => v.isToken || v.isStr

/-- one entry of `KNOWN_PARAMS` -/
structure KnownParam where
  name : Str
  type : SfType
  values : List Str := []
  valueDesc : List (Str × Str) := []
  desc : Option Str := none

/-- `desc % v` for a template with at most one `%s` and a value that is not a tuple: without a `%s` Python
raises `TypeError` unless the value has `__getitem__` and is neither a tuple nor a string (tokens and display strings are `UserString`s) -/
def descFormat (render : RenderEnv) (desc : Str) (v : Val) : Except Exn Str :=
  let rec go : Str → Option (Str × Str)
    | 37 :: 115 :: r => some ([], r)
    | c :: r => (go r).map fun p => (c :: p.1, p.2)
    | [] => none
  match go desc with
  | some (a, b) => (render.toStr v).map fun s => a ++ s ++ b
  | none => match v with
    | .token _ | .disp _ | .bytes _ | .dict _ | .list _ => .ok desc
    | _ => .error .typeError

/-- the line for a parameter that is shown as is -/
def rawParamLine (render : RenderEnv) (name : Str) (v : Val) : Except Exn Str :=
  (render.toStr v).map fun s => str "* `" ++ name ++ str "`: `" ++ s ++ str "`"

/-- one parameter of field/utils.py:241-281; `param_name not in known_params` etc. -/
def checkSfParam (render : RenderEnv) (known : List KnownParam) (add : AddNote)
    (unknownNote badValNote : NoteId) (name : Str) (v : Val) : W Str :=
  match known.find? (fun k => k.name == name) with
  | none => do
    add.add unknownNote [(str "param", .str name)]
    W.lift (rawParamLine render name v)
  | some k =>
    if !k.type.has v then do
      add.add badValNote [(str "param", .str name), (str "value", v)]
      W.lift (rawParamLine render name v)
    else if !k.values.isEmpty && !k.values.any (fun t => Val.pyEq v (.token t)) then do
      add.add badValNote [(str "param", .str name), (str "value", v)]
      W.lift (rawParamLine render name v)
    else if !k.valueDesc.isEmpty then
      match k.valueDesc.find? (fun p => Val.pyEq v (.token p.1)) with
      | some (_, d) => pure (str "* " ++ d)
      | none => W.lift (rawParamLine render name v)
    else match k.desc with
      | some d =>
        if v = .bool true then pure (str "* " ++ d)
        else W.lift ((descFormat render d v).map (str "* " ++ ·))
      | none =>
        if v = .bool true then pure (str "* `" ++ name ++ str "`")
        else W.lift (rawParamLine render name v)

/-- field/utils.py:230-283 `check_sf_params` -/
def checkSfParams (render : RenderEnv) (known : List KnownParam) (add : AddNote)
    (unknownNote badValNote : NoteId) (params : Val) : W Str := do
  let items ← W.lift params.items
  let lines ← items.mapM fun p =>
    checkSfParam render known add unknownNote badValNote (p.1.text?.getD []) p.2
  return join [10] lines

end HL
