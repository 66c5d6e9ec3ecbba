import Verif.Fields

/-!
# Field handlers and field sections

`field/__init__.py`, `list_field.py`, `singleton_field.py`, `broken_field.py`, `structured_field.py`,
`json_field.py`, `finder.py`, `section.py`.
-/

namespace HL
open Syntax

/-- `except ValueError` also catches its subclass `UnicodeError` -/
def Exn.isValueError : Exn → Bool
  | .valueError | .unicodeError => true
  | _ => false

/-! ### finder.py -/

/-- field/finder.py:13-24 `field_aliases` -/
def fieldAliases : Dict Str := [
  (str "x-pad-for-netscrape-bug", str "x-pad"),
  (str "xx-pad", str "x-pad"),
  (str "x-browseralignment", str "x-pad"),
  (str "nncoection", str "connectiox"),
  (str "cneonction", str "connectiox"),
  (str "yyyyyyyyyy", str "connectiox"),
  (str "xxxxxxxxxx", str "connectiox"),
  (str "x_cnection", str "connectiox"),
  (str "_onnection", str "connectiox"),
  (str "from", str "from_field")]

/-- field/finder.py:81-86 `name_token` -/
def nameToken (name : Str) : Str := lower (name.map fun c => if c = 45 then 95 else c)

/-- the alias of a token, or itself -/
def unalias (t : Str) : Str := (dget fieldAliases t).getD t

/-- field/finder.py:64-79 `find_module`, for modules that define a class of the same name -/
def findModule (name : Str) : Option FieldId :=
  let t := nameToken name
  if t.head? = some 95 then none else dget parserModules (unalias t)

/-- field/finder.py:46-62 `find_handler_class` -/
def findHandlerClass (name : Str) : Option FieldId :=
  match findModule name with
  | some f => some f
  | none =>
    if (deprecatedTable.any fun p => p.1 == lower name) then some .deprecatedField
    else if unnecessaryNames.contains (lower name) then some .unnecessaryField
    else none

/-- field/__init__.py:103-109, deprecated.py:195-204: `handler_class(field_name, message)` -/
def mkHandler (fid : FieldId) (name : Str) : Handler :=
  let wire := strip name
  let norm := lower wire
  let i := fid.info
  match fid, deprecatedTable.find? (fun p => p.1 == norm) with
  | .deprecatedField, some (_, canon, cat, ref) =>
    { fid, wireName := wire, normName := norm, canonicalName := canon, category := cat, reference := ref }
  | _, _ =>
    { fid, wireName := wire, normName := norm, canonicalName := i.canonicalName.getD wire,
      category := i.category, reference := i.reference }

/-- field/finder.py:32-44 `find_handler`: the handler stored under the lower-cased name, or a new one -/
def findHandler (hs : Dict Handler) (name : Str) : Handler :=
  match dget hs (lower name) with
  | some h => h
  | none => mkHandler ((findHandlerClass name).getD .unknownField) name

/-! ### pre_check -/

/-- is the field allowed in this kind of message? (field/__init__.py:133-142) -/
def FieldId.validIn (f : FieldId) : MsgKind → Bool
  | .request => f.info.validReq
  | .response => f.info.validResp

/-- field/__init__.py:145 -/
def isToken (s : Str) : Bool := matchFull rfc9110.token s

/-- field/__init__.py:127-153 `pre_check` and deprecated.py:213-234 -/
def Handler.preCheck (kind : MsgKind) (add : AddNote) (h : Handler) : Handler × Bool × List Note :=
  if !h.fid.validIn kind then
    ({ h with value := .none }, false,
      [add.mk1 (match kind with | .request => .RESPONSE_HDR_IN_REQUEST | .response => .REQUEST_HDR_IN_RESPONSE) []
        (some h.category)])
  else if !isToken h.wireName then (h, false, [add.mk1 .FIELD_NAME_BAD_SYNTAX])
  else
    let ref : Dict Val := [(str "deprecation_ref", .str h.reference)]
    match h.fid with
    | .deprecatedField => (h, true, [{ add.mk1 .FIELD_DEPRECATED ref with category := h.category }])
    | _ =>
      (h, true, if h.fid.info.deprecated then [add.mk1 .FIELD_DEPRECATED ref (some h.category)] else [])

/-! ### handle_input -/

/-- `f"offset-{n}"` -/
def offsetSubject (n : Nat) : Str := str "offset-" ++ dec n

/-- list_field.py:27-31, broken_field.py:33-37: `partial(message.notes.add, f"offset-{offset}", field_name=...)` -/
def Handler.offsetAdd (h : Handler) (defaults : Dict Val) (offset : Nat) : AddNote :=
  { defaults, subject := offsetSubject offset, base := [(str "field_name", .str h.canonicalName)] }

/-- `value.append(x)` on the handler -/
def Handler.append (h : Handler) (x : Val) : Except Exn Handler :=
  match h.value with
  | .list xs => .ok { h with value := .list (xs ++ [x]) }
  | _ => .error .attributeError

/-- list_field.py:41-50: the text shown for a syntax error at index `i`; `value[i]` raises `IndexError` past
the end -/
def syntaxProblem (value : Str) (i : Nat) : Except Exn Str :=
  match value[i]? with
  | none => .error .indexError
  | some ch =>
    let start := i - 20
    let stop := min value.length (i + 20)
    let context := (value.take stop).drop start
    let pointer := List.replicate (i - start) 32 ++ str "^"
    .ok (str "The invalid character '" ++ [ch] ++ str "' was found at position " ++ dec (i + 1) ++ str ":" ++
      [10, 10] ++ str "    " ++ context ++ [10] ++ str "    " ++ pointer)

/-- `re.match(rf"^\s*(?:{syntax})", value, RE_FLAGS)`: the index where the first match ends -/
def matchPrefix (r : RE) (value : Str) : Option Nat :=
  match (RE.seq (RE.star RE.ws) r).run true value with
  | [] => none
  | t :: _ => some (value.length - t.length)

/-- list_field.py:33-65: syntax notes for one element -/
def Handler.elementSyntax (h : Handler) (add : AddNote) (value : Str) : W Unit :=
  match h.fid.info.syn with
  | none => pure ()
  | some r =>
    if matchSpaced r value then pure ()
    else match matchPrefix r value with
      | some i => do
        let problem ← W.lift (syntaxProblem value i)
        add.add .BAD_SYNTAX_DETAILED [(str "ref_uri", .str h.reference), (str "value", .str value),
          (str "problem", .str problem)] (some h.category)
      | none =>
        W.when h.fid.info.reportSyntax
          (add.add .BAD_SYNTAX [(str "ref_uri", .str h.reference)] (some h.category))

/-- put notes in front -/
def prefixNotes {α} (ns : List Note) (w : W α) : W α := ⟨ns ++ w.notes, w.res⟩

/-- the loop of list_field.py:25-70 -/
def Handler.listLoop (c : Ctx) (add : AddNote) : List Str → Handler → Handler × W Unit
  | [], h => (h, pure ())
  | v :: vs, h =>
    let syn := h.elementSyntax add v
    match syn.res with
    | .error e => (h, ⟨syn.notes, .error e⟩)
    | .ok () =>
      let (aux, r) := h.parse c add (strip v)
      let h := { h with aux }
      let ns := syn.notes ++ r.notes
      match r.res with
      | .error e =>
        if e.isValueError then
          let (h, w) := Handler.listLoop c add vs h
          (h, prefixNotes ns w)
        else (h, ⟨ns, .error e⟩)
      | .ok x =>
        match h.append x with
        | .error e => (h, ⟨ns, .error e⟩)
        | .ok h =>
          let (h, w) := Handler.listLoop c add vs h
          (h, prefixNotes ns w)

/-- `handle_input` (list_field.py:22-70, singleton_field.py:27-28, broken_field.py:25-26,
structured_field.py:26-28, json_field.py:19-20, finder.py:104-105) -/
def Handler.handleInput (c : Ctx) (h : Handler) (value : Str) (offset : Nat) : Handler × W Unit :=
  match h.fid.info.kind with
  | .list => h.listLoop c (h.offsetAdd c.msg.defaults offset) (splitListField value)
  | .singleton => ({ h with raw := h.raw ++ [(value, 0)] }, pure ())
  | .broken => ({ h with raw := h.raw ++ [(value, offset)] }, pure ())
  | .sf _ =>
    match h.append (.str value) with
    | .ok h => ({ h with sfParsed := false }, pure ())
    | .error e => (h, W.throw e)
  | .json =>
    match h.append (.str value) with
    | .ok h => (h, pure ())
    | .error e => (h, W.throw e)
  | .unknown => (h, pure ())

/-! ### finish -/

/-- evaluate, after some notes -/
def Handler.evalAfter (c : Ctx) (add : AddNote) (ns : List Note) (h : Handler) : Handler × W Unit :=
  if h.value = .none then (h, ⟨ns, .ok ()⟩)
  else
    let (h, w) := h.evaluate c add
    (h, prefixNotes ns w)

/-- singleton_field.py:30-49 -/
def Handler.finishSingleton (c : Ctx) (add : AddNote) (h : Handler) : Handler × W Unit :=
  match h.raw with
  | [] => ({ h with value := .none }, pure ())
  | (first, _) :: more =>
    let ns := (if more.isEmpty then [] else [add.mk1 .SINGLE_HEADER_REPEAT]) ++
      (match h.fid.info.syn with
       | none => []
       | some r => if matchSpaced r first then []
         else if h.fid.info.reportSyntax then [add.mk1 .BAD_SYNTAX [(str "ref_uri", .str h.reference)]] else [])
    let (aux, r) := h.parse c add (strip first)
    let h := { h with aux }
    let ns := ns ++ r.notes
    match r.res with
    | .ok v => ({ h with value := v }).evalAfter c add ns
    | .error e =>
      if e.isValueError then ({ h with value := .none }, ⟨ns, .ok ()⟩)
      else (h, ⟨ns, .error e⟩)

/-- the loop of broken_field.py:30-46: the parsed values -/
def Handler.brokenLoop (c : Ctx) : List (Str × Nat) → Handler → List Val → Handler × W (List Val)
  | [], h, acc => (h, pure acc)
  | (raw, offset) :: rest, h, acc =>
    let add := h.offsetAdd c.msg.defaults offset
    let syn := match h.fid.info.syn with
      | none => []
      | some r => if matchSpaced r raw then [] else [add.mk1 .BAD_SYNTAX [(str "ref_uri", .str h.reference)]]
    let (aux, r) := h.parse c add (strip raw)
    let h := { h with aux }
    let ns := syn ++ r.notes
    match r.res with
    | .ok v =>
      let (h, w) := Handler.brokenLoop c rest h (acc ++ [v])
      (h, prefixNotes ns w)
    | .error e =>
      if e.isValueError then
        let (h, w) := Handler.brokenLoop c rest h acc
        (h, prefixNotes ns w)
      else (h, ⟨ns, .error e⟩)

/-- broken_field.py:28-50 -/
def Handler.finishBroken (c : Ctx) (add : AddNote) (h : Handler) : Handler × W Unit :=
  let (h, w) := h.brokenLoop c h.raw []
  match w.res with
  | .error e => (h, ⟨w.notes, .error e⟩)
  | .ok vs => ({ h with value := .list vs }).evalAfter c add w.notes

/-- `", ".join(self.value)`: `TypeError` when an element is not a string or the value is not iterable -/
def joinValue (v : Val) : Except Exn Str :=
  match v.iter with
  | .error e => .error e
  | .ok xs => if xs.all Val.isStr then .ok (join (str ", ") (xs.map fun x => x.text?.getD [])) else .error .typeError

/-- structured_field.py:11 -/
def contextChars : Nat := 35

/-- structured_field.py:51-59 -/
def sfContext (combined : Str) : Option Nat → Str
  | none => []
  | some i =>
    let start := i - contextChars
    let stop := min combined.length (i + contextChars)
    [10, 10] ++ str "    " ++ (combined.take stop).drop start ++ [10] ++ str "    " ++
      (List.replicate (i - start) 32 ++ str "^")

/-- structured_field.py:40-41 -/
def dupKeyNotes (add : AddNote) (dups : List (Str × Str)) : List Note :=
  dups.map fun p => add.mk1 .DUPLICATE_KEY [(str "key", .str p.1), (str "context", .str p.2)]

/-- structured_field.py:30-83 -/
def Handler.finishSf (c : Ctx) (add : AddNote) (tltype : Str) (h : Handler) : Handler × W Unit :=
  if !h.value.truthy then (h, pure ())
  else if h.sfParsed then (h, pure ())
  else match joinValue h.value with
    | .error e => (h, W.throw e)
    | .ok joined =>
      let combined := strip joined
      let bad (problem context : Str) := add.mk1 .STRUCTURED_FIELD_PARSE_ERROR
        [(str "problem", .str problem), (str "context", .str context)] (some h.category)
      match c.env.sfParse tltype combined with
      | .ok v dups => ({ h with value := v, sfParsed := true }).evalAfter c add (dupKeyNotes add dups)
      | .sfError problem pos dups =>
        ({ h with value := .none, sfParsed := true },
          ⟨dupKeyNotes add dups ++ [bad problem (sfContext combined pos)], .ok ()⟩)
      | .error problem dups =>
        ({ h with value := .none, sfParsed := true }, ⟨dupKeyNotes add dups ++ [bad problem []], .ok ()⟩)

/-- json_field.py:22-33 -/
def Handler.finishJson (c : Ctx) (add : AddNote) (h : Handler) : Handler × W Unit :=
  if !h.value.truthy then (h, pure ())
  else match joinValue h.value with
    | .error e => (h, W.throw e)
    | .ok joined =>
      match c.env.jsonLoads (str "[" ++ joined ++ str "]") with
      | .ok v => ({ h with value := v }).evalAfter c add []
      | .decodeError msg =>
        ({ h with value := .none }, ⟨[add.mk1 .BAD_JSON [(str "error", .str msg)] (some h.category)], .ok ()⟩)
      | .raises e => (h, W.throw e)

/-- `self.finish(add_note)`; list and unknown fields use field/__init__.py:155-161 -/
def Handler.finish (c : Ctx) (add : AddNote) (h : Handler) : Handler × W Unit :=
  match h.fid.info.kind with
  | .singleton => h.finishSingleton c add
  | .broken => h.finishBroken c add
  | .sf t => h.finishSf c add t
  | .json => h.finishJson c add
  | .list | .unknown => h.evalAfter c add []

/-! ### section.py -/

/-- `bytes.decode("ascii", "strict")` fails -/
def nonAscii (s : Str) : Bool := s.any (· ≥ 128)

/-- section.py:50-54: the name, with octets outside ASCII ignored -/
def decodeName (s : Str) : Str := s.filter (· < 128)

/-- a result of running code on a message: the message afterwards (also after an exception) and the outcome -/
abbrev Run (α : Type) := Msg × Except Exn α

/-- add notes to a message -/
def Msg.addNotes (m : Msg) (ns : List Note) : Msg := { m with notes := m.notes ++ ns }

/-- `partial(message.notes.add, subject, **base)` -/
def Msg.adder (m : Msg) (subject : Str) (base : Dict Val := []) : AddNote :=
  { defaults := m.defaults, subject, base }

/-- which of the two sections -/
def Msg.section (m : Msg) (trailer : Bool) : Section := if trailer then m.trailers else m.headers
/-- replace a section -/
def Msg.setSection (m : Msg) (trailer : Bool) (s : Section) : Msg :=
  if trailer then { m with trailers := s } else { m with headers := s }

/-- section.py:18 -/
def maxFieldSize : Nat := 8 * 1024
/-- section.py:19 -/
def maxTotalSize : Nat := 32 * 1024

/-- one iteration of section.py:43-82; returns the next offset -/
def processLine (env : Env) (related : Option Msg) (trailer : Bool) (m : Msg) (offset : Nat)
    (line : Str × Str) : Run Nat :=
  let (name, value) := line
  let subject := offsetSubject offset
  let fieldSize := name.length + value.length
  let strName := decodeName name
  let enc : Dict Val := [(str "field_name", .str strName)]
  let notes :=
    (if nonAscii name then [(m.adder subject).mk1 .FIELD_NAME_ENCODING enc] else []) ++
    (if nonAscii value then [(m.adder subject).mk1 .FIELD_VALUE_ENCODING enc] else [])
  let sec := m.section trailer
  let h := findHandler sec.handlers strName
  let sec := { sec with
    size := sec.size + fieldSize, text := sec.text ++ [(strName, value)],
    handlers := dset sec.handlers (lower strName) h }
  let m := (m.addNotes notes).setSection trailer sec
  let fadd := m.adder subject [(str "field_name", .str h.canonicalName)]
  let (h, ok, ns) := h.preCheck m.kind fadd
  let setH (m : Msg) (h : Handler) : Msg :=
    m.setSection trailer { m.section trailer with handlers := dset (m.section trailer).handlers (lower strName) h }
  let m := setH (m.addNotes ns) h
  if !ok then (m, .ok offset)
  else
    let (h, w) := h.handleInput ⟨env, m, related⟩ value offset
    let m := setH (m.addNotes w.notes) h
    match w.res with
    | .error e => (m, .error e)
    | .ok () =>
      let big := if fieldSize > maxFieldSize then [(m.adder subject).mk1 .FIELD_TOO_LARGE
        [(str "field_name", .str h.canonicalName), (str "field_size", .str (fNum fieldSize))]] else []
      (m.addNotes big, .ok (offset + 1))

/-- the loop of section.py:43-82 -/
def processLines (env : Env) (related : Option Msg) (trailer : Bool) :
    List (Str × Str) → Nat → Msg → Run Unit
  | [], _, m => (m, .ok ())
  | l :: ls, offset, m =>
    match processLine env related trailer m offset l with
    | (m, .error e) => (m, .error e)
    | (m, .ok o) => processLines env related trailer ls o m

/-- `self.is_trailer and L_("trailer") or L_("header")` -/
def fieldType (trailer : Bool) : Val := .str (if trailer then str "trailer" else str "header")

/-- section.py:93-98, message.py:150-155: the `add_note` for a whole field -/
def Msg.fieldAdder (m : Msg) (trailer : Bool) (h : Handler) : AddNote :=
  m.adder (str "field-" ++ lower h.canonicalName)
    [(str "field_name", .str h.canonicalName), (str "field_type", fieldType trailer)]

/-- one iteration of section.py:92-100 -/
def finishHandler (env : Env) (related : Option Msg) (trailer : Bool) (m : Msg) (key : Str) : Run Unit :=
  match dget (m.section trailer).handlers key with
  | none => (m, .ok ())       -- cannot happen: keys are those of the handlers
  | some h =>
    let (h', w) := h.finish ⟨env, m, related⟩ (m.fieldAdder trailer h)
    let m := m.addNotes w.notes
    let sec := m.section trailer
    let sec := { sec with handlers := dset sec.handlers key h' }
    match w.res with
    | .error e => (m.setSection trailer sec, .error e)
    | .ok () => (m.setSection trailer { sec with parsed := dset sec.parsed h'.normName h'.value }, .ok ())

/-- the loop of section.py:92-100 -/
def finishHandlers (env : Env) (related : Option Msg) (trailer : Bool) : List Str → Msg → Run Unit
  | [], m => (m, .ok ())
  | k :: ks, m =>
    match finishHandler env related trailer m k with
    | (m, .error e) => (m, .error e)
    | (m, .ok ()) => finishHandlers env related trailer ks m

/-- section.py:84-90 -/
def sectionSizeNotes (trailer : Bool) (m : Msg) : List Note :=
  let size := (m.section trailer).size
  if size > maxTotalSize then
    [(m.adder (str "field-block")).mk1 .FIELD_SECTION_TOO_LARGE
      [(str "field_type", fieldType trailer), (str "section_size", .str (fNum size))]]
  else []

/-- section.py:33-100 `FieldSection.process` -/
def processSection (env : Env) (related : Option Msg) (trailer : Bool) (lines : List (Str × Str)) (m : Msg) :
    Run Unit :=
  match processLines env related trailer lines 0 m with
  | (m, .error e) => (m, .error e)
  | (m, .ok ()) =>
    let m := m.addNotes (sectionSizeNotes trailer m)
    finishHandlers env related trailer ((m.section trailer).handlers.map (·.1)) m

end HL
