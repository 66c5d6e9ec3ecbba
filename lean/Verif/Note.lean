import Verif.Val
import Verif.NoteTable

/-!
# note.py: notes, and rendering them
-/

namespace HL

/-- A sub-note (an entry of `Note.subnotes`).  In the code base `add_child` is only ever called on
notes added with `Notes.add`, so notes nest two deep. -/
structure SubNote where
  cls : NoteId
  subject : Str
  vars : Dict Val
  deriving DecidableEq, Repr

/-- note.py:87-110: a `Note` instance -/
structure Note where
  cls : NoteId
  subject : Str
  /-- the instance's category: the class attribute, unless `Notes.add` overrode it -/
  category : Cat
  vars : Dict Val
  subnotes : List SubNote := []
  deriving DecidableEq, Repr

/-- `dict.update` -/
def dupdate {β} (d e : Dict β) : Dict β := e.foldl (fun d p => dset d p.1 p.2) d

@[simp] theorem dupdate_nil {β} (d : Dict β) : dupdate d [] = d := rfl
theorem dupdate_cons {β} (d : Dict β) (k v) (e : Dict β) : dupdate d ((k, v) :: e) = dupdate (dset d k v) e := rfl
theorem dupdate_append {β} (d e f : Dict β) : dupdate d (e ++ f) = dupdate (dupdate d e) f := by
  simp [dupdate]

theorem dget_append {β} (d e : Dict β) (k : Str) : dget (d ++ e) k = (dget d k).or (dget e k) := by
  induction d with
  | nil => simp
  | cons p d ih =>
    simp only [List.cons_append, dget_cons, ih]
    by_cases h : p.1 = k <;> simp [h]

/-- the last binding in `e` wins, otherwise that of `d` counts -/
theorem dget_dupdate {β} (d e : Dict β) (k : Str) :
    dget (dupdate d e) k = (dget e.reverse k).or (dget d k) := by
  induction e generalizing d with
  | nil => simp
  | cons p e ih =>
    obtain ⟨a, b⟩ := p
    rw [dupdate_cons, ih, List.reverse_cons, dget_append, dget_dset]
    by_cases h : a = k
    · simp [dget_cons, h]
    · simp [dget_cons, h]

theorem dhas_dupdate {β} (d e : Dict β) (k : Str) : dhas (dupdate d e) k = (dhas e k || dhas d k) := by
  rw [← dget_isSome, dget_dupdate]
  have : dhas e k = (dget e.reverse k).isSome := by rw [dget_isSome]; simp [dhas, List.any_reverse]
  rw [this, ← dget_isSome]
  cases dget e.reverse k <;> simp

/-- note.py:78-81: the category given to a new instance -/
def addCategory (cls : NoteId) (category : Option Cat) : Cat :=
  match category with
  | none => cls.cat
  | some c => if cls.cat = .GENERAL then c else cls.cat

/-- note.py:70-84 `Notes.add` without the append: the instance that is created -/
def mkNote (defaults : Dict Val) (subject : Str) (cls : NoteId) (category : Option Cat)
    (vrs : Dict Val) : Note :=
  { cls, subject, category := addCategory cls category, vars := dupdate defaults vrs }

/-- note.py:70-84 `Notes.add` on the list of notes -/
def Notes.add (defaults : Dict Val) (notes : List Note) (subject : Str) (cls : NoteId)
    (category : Option Cat) (vrs : Dict Val) : List Note :=
  notes ++ [mkNote defaults subject cls category vrs]

/-- The same with Python's attribute lookup spelled out.  `category` is declared on the classes (`classes`);
reading `new_note.category` finds the class attribute unless the instance has its own, and assigning to it
(note.py:80) makes an instance attribute.  `Notes.add` as a step on the class attributes and the list. -/
def addStep (defaults : Dict Val) (st : (NoteId → Cat) × List Note) (subject : Str) (cls : NoteId)
    (category : Option Cat) (vrs : Dict Val) : (NoteId → Cat) × List Note :=
  let classAttr := st.1 cls
  let own : Option Cat := match category with
    | some c => if classAttr = .GENERAL then some c else none
    | none => none
  (st.1, st.2 ++ [{ cls, subject, category := own.getD classAttr, vars := dupdate defaults vrs }])

/-- note.py:112-117 `Note.add_child` -/
def Note.addChild (n : Note) (cls : NoteId) (vrs : Dict Val) : Note :=
  { n with subnotes := n.subnotes ++ [{ cls, subject := n.subject, vars := dupdate n.vars vrs }] }

/-! ### `%`-templates -/

/-- a piece of a template -/
inductive Seg where
  | text (s : Str)
  | var (name : Str)
  deriving DecidableEq, Repr

/-- add a character to the leading text segment -/
def consText (c : Nat) : List Seg → List Seg
  | .text s :: r => .text (c :: s) :: r
  | r => .text [c] :: r

/-- after `%(`: the name up to `)` and what follows -/
def readName : Str → Option (Str × Str)
  | [] => none
  | 41 :: r => some ([], r)
  | c :: r => (readName r).map fun p => (c :: p.1, p.2)

theorem readName_length {s n r} (h : readName s = some (n, r)) : r.length < s.length := by
  induction s generalizing n r with
  | nil => simp [readName] at h
  | cons c s ih =>
    unfold readName at h
    split at h
    · cases ‹_ = []›
    · rename_i r' heq
      cases heq
      simp only [Option.some.injEq, Prod.mk.injEq] at h
      obtain ⟨_, rfl⟩ := h
      simp
    · rename_i heq
      cases heq
      cases hr : readName s with
      | none => simp [hr] at h
      | some p =>
        simp only [hr, Option.map_some, Option.some.injEq, Prod.mk.injEq] at h
        have := ih (n := p.1) (r := p.2) hr
        obtain ⟨_, rfl⟩ := h
        simp; omega

/-- Python's `%` operator with a mapping on the right, as used by note.py:133,159, restricted to the
conversions the templates use (`%(name)s` and `%%`); anything else is a `ValueError`/`TypeError` (`none`). -/
def parseTpl (fuel : Nat) (s : Str) : Option (List Seg) :=
  match fuel with
  | 0 => some []
  | fuel + 1 =>
    match s with
    | [] => some []
    | 37 :: 37 :: r => (parseTpl fuel r).map (consText 37)
    | 37 :: 40 :: r =>
      match readName r with
      | some (n, 115 :: r') => (parseTpl fuel r').map (.var n :: ·)
      | _ => none
    | 37 :: _ => none
    | c :: r => (parseTpl fuel r).map (consText c)

/-- the segments of a template -/
def tpl (s : Str) : Option (List Seg) := parseTpl s.length s

/-- the names a template refers to -/
def tplVars (segs : List Seg) : List Str := segs.filterMap fun
  | .var n => some n
  | .text _ => none

/-- `template % vars`: look every name up (`KeyError` if it is missing) and convert it with `conv` -/
def renderSegs (conv : Val → Except Exn Str) (vars : Dict Val) : List Seg → Except Exn Str
  | [] => .ok []
  | .text s :: r => do
    let rest ← renderSegs conv vars r
    return s ++ rest
  | .var n :: r =>
    match dget vars n with
    | none => .error .keyError
    | some v => do
      let s ← conv v
      let rest ← renderSegs conv vars r
      return s ++ rest

/-- `template % vars` -/
def percent (conv : Val → Except Exn Str) (template : Str) (vars : Dict Val) : Except Exn Str :=
  match tpl template with
  | none => .error .valueError
  | some segs => renderSegs conv vars segs

/-- What rendering needs from outside: `str()` of non-trivial objects (which may raise), Babel's wording of time
differences, gettext, and the Markdown converter. -/
structure RenderEnv where
  /-- `str(v)` for values that are not strings, integers or times -/
  pyStr : Val → Except Exn Str
  /-- i18n.py:54-59 `format_timedelta` (Babel's, in the current locale) with `threshold=1.2`, of a `timedelta` of so many
  microseconds; with `add_direction=True` or without -/
  timedelta : Int → Bool → Str
  /-- i18n.py:34-41 `translate` -/
  translate : Str → Str
  /-- `Markdown.convert` -/
  markdown : Str → Str

/-- the nearest integer, and the even one of two that are equally near -/
def roundEven (q : Rat) : Int :=
  let f := q.floor
  if q - f < 1 / 2 then f else if q - f > 1 / 2 then f + 1 else if f % 2 = 0 then f else f + 1

/-- `timedelta(seconds=q)` (as called in util.py:81), in microseconds: rounded to an integer, and `OverflowError` if the
magnitude of its days would exceed 999999999 -/
def timedeltaOf (q : Rat) : Except Exn Int :=
  let us := roundEven (q * 1000000)
  if us / 86400000000 < -999999999 ∨ us / 86400000000 > 999999999 then .error .overflowError else .ok us

/-- util.py:79-94 `RelativeTime.__str__` -/
def RenderEnv.relative (e : RenderEnv) (utime now : Rat) (showSign : Nat) : Except Exn Str := do
  let deltaSecs := utime - now
  let delta ← timedeltaOf deltaSecs
  if showSign = 1 then
    return e.timedelta delta true
  else
    let deltaString := e.timedelta delta false
    if showSign = 2 then
      if deltaSecs > 0 then
        return deltaString ++ str " " ++ e.translate (str "ahead")
      else
        return deltaString ++ str " " ++ e.translate (str "behind")
    else
      return deltaString

/-- `str(v)` -/
def RenderEnv.toStr (e : RenderEnv) : Val → Except Exn Str
  | .rel utime now showSign => e.relative utime now showSign
  | .str s | .md s | .token s => .ok s
  | .int i => .ok (decI i)
  | .none => .ok (str "None")
  | .bool true => .ok (str "True")
  | .bool false => .ok (str "False")
  | v => e.pyStr v

/-- note.py:149-152 `_coerce` -/
def RenderEnv.coerce (e : RenderEnv) (v : Val) : Except Exn Str :=
  match v with
  | .md s => .ok s
  | v => do
    let s ← e.toStr v
    return removeC 96 s

/-- note.py:154 `safe_vars = {k: _coerce(v) ...}`: every variable is converted, also unused ones -/
def RenderEnv.coerceAll (e : RenderEnv) : Dict Val → Except Exn (Dict Val)
  | [] => .ok []
  | (k, v) :: d => do
    let s ← e.coerce v
    let r ← e.coerceAll d
    return (k, .str s) :: r

/-- note.py:126-133 `_get_summary` -/
def RenderEnv.summary (e : RenderEnv) (cls : NoteId) (vars : Dict Val) : Except Exn Str :=
  percent e.toStr (e.translate cls.summary) vars

/-- note.py:154-157: the Markdown source of the detail -/
def RenderEnv.detailSource (e : RenderEnv) (cls : NoteId) (vars : Dict Val) : Except Exn Str := do
  let safe ← e.coerceAll vars
  percent e.toStr (e.translate cls.text) safe

/-- note.py:135-160 `_get_detail` -/
def RenderEnv.detail (e : RenderEnv) (cls : NoteId) (vars : Dict Val) : Except Exn Str := do
  let src ← e.detailSource cls vars
  return e.markdown src

/-- util.py:59-71 `markdown_list` -/
def markdownList (items : List Str) (markup : Str) : Val :=
  .md (join [10] ((items.map (removeC 96)).map fun i => str "- " ++ markup ++ i ++ markup))

end HL
