import Verif.Cache

/-!
# content_type.py and charset.py: checks of the decoded content
-/

namespace HL

/-- content_type.py:26-30, charset.py:43-47: does this message carry no full representation? -/
def noRepresentation (m : Msg) : Bool :=
  (match m.statusCode with
   | some s => ([204, 205, 304, 206] : List Int).contains s || (100 ≤ s && s < 199)
   | none => false) || m.isHeadResponse

/-- `linter.content_hash` is truthy (a digest is never empty in Python) -/
def hashed? (m : Msg) : Bool := match m.contentHash with
  | some h => !h.isEmpty
  | none => false

/-- content_type.py:19-55 `verify_content_type` -/
def verifyContentType (c : Ctx) : W Unit :=
  let m := c.msg
  if !hashed? m then pure ()
  else if noRepresentation m then pure ()
  else match dget m.headers.parsed (str "content-type") with
    | none => pure ()
    | some ct => do
      let declared ← W.lift (ct.idx 0)
      if !declared.truthy then pure ()
      else
        let d := declared.text?.getD []
        match c.env.sniff m.contentSample d with
        | .error _ => pure ()
        | .ok sniffed =>
          if sniffed = d then pure ()
          else if d = str "text/html" ∧ (sniffed = str "application/rss+xml" ∨ sniffed = str "application/atom+xml")
          then pure ()
          else
            (m.adder (str "content-type")).add .CONTENT_TYPE_MISMATCH
              [(str "declared_type", declared), (str "sniffed_type", .str sniffed)]

/-- charset.py:16-25 `_requires_utf8` -/
def requiresUtf8 (mt : Str) : Bool :=
  if mt = str "application/json" ∨ mt = str "text/json" then true
  else
    let sub := match split1 47 mt with
      | some (_, b) => b
      | none => mt
    endsWith (str "+json") sub

/-- `except (LookupError, TypeError)`: `KeyError` and `IndexError` are `LookupError`s -/
def Exn.isLookup : Exn → Bool
  | .keyError | .indexError => true
  | _ => false

/-- charset.py:28-32 `_canonical` -/
def canonical (env : Env) (name : Str) : Except Exn (Option Str) :=
  match env.codecsLookup name with
  | .ok n => .ok (some n)
  | .error e => if e.isLookup || e = .typeError then .ok none else .error e

/-- `sample.decode(name, errors="strict")` under `except (UnicodeDecodeError, LookupError)`.
`Exn.unicodeError` stands for `UnicodeDecodeError`; a bare `UnicodeError` is `Exn.otherError`. -/
def tryDecode (env : Env) (name sample : Str) : Except Exn (Option Str) :=
  match env.decode name sample with
  | .ok t => .ok (some t)
  | .error e => if e.isLookup || e = .unicodeError then .ok none else .error e

/-- charset.py:127-140 `_encodings_compatible` -/
def encodingsCompatible (env : Env) (declared detected sample : Str) : Except Exn Bool := do
  match ← tryDecode env declared sample with
  | none => return false
  | some a => match ← tryDecode env detected sample with
    | none => return false
    | some b => return a == b

/-- charset.py:56-67: the charset the content should be in, and whether it is implied -/
def effectiveCharset (declaredType : Str) (raw : Option Val) : Option (Str × Bool) :=
  let v := raw.getD .none
  if requiresUtf8 declaredType then some (str "utf-8", v == .none)
  else if startsWith (str "text/") declaredType && v.truthy then some (v.text?.getD [], false)
  else none

/-- `sample.strip()` is empty -/
def blank (s : Str) : Bool := s.all isBSpace

/-- charset.py:69-124: the checks once the effective charset is known -/
def charsetChecks (c : Ctx) (mediaType : Val) (charset : Str) (implicit : Bool) : W Unit := do
  let m := c.msg
  let add := m.adder (str "content-type")
  match ← W.lift (canonical c.env charset) with
  | none => pure ()
  | some declaredCanonical =>
    if blank m.contentSample then pure ()
    else if !nonAscii m.contentSample then pure ()
    else do
      let decoded ← W.lift (tryDecode c.env charset m.contentSample)
      let (detectedRaw, conf) := c.env.chardet m.contentSample
      let detected : Option Str := detectedRaw.bind fun r => if r.isEmpty then none else some r
      let detectedCanonical ← match detected with
        | some r => W.lift (canonical c.env r)
        | none => pure none
      if decoded.isNone then
        add.add .CHARSET_UNDECODABLE [(str "declared_charset", .str charset),
          (str "detected_charset", .str (detected.getD (str "unknown")))]
      else match detectedCanonical with
        | none => pure ()
        | some dc =>
          if !dc.isEmpty && dc != declaredCanonical && decide (conf.getD 0 ≥ 1 / 2) then do
            let same ← W.lift (encodingsCompatible c.env declaredCanonical dc m.contentSample)
            if same then pure ()
            else if implicit then
              add.add .CHARSET_IMPLICIT_MISMATCH [(str "media_type", mediaType),
                (str "declared_charset", .str charset), (str "detected_charset", Val.ofOpt detectedRaw)]
            else
              add.add .CHARSET_MISMATCH [(str "declared_charset", .str charset),
                (str "detected_charset", Val.ofOpt detectedRaw)]
          else pure ()

/-- charset.py:35-124 `verify_charset` -/
def verifyCharset (c : Ctx) : W Unit :=
  let m := c.msg
  if !hashed? m || m.contentSample.isEmpty then pure ()
  else if noRepresentation m then pure ()
  else match dget m.headers.parsed (str "content-type") with
    | none => pure ()
    | some ct => do
      let declared ← W.lift (ct.idx 0)
      let params ← W.lift (ct.idx 1)
      if !declared.truthy then pure ()
      else if !params.isDict then W.throw .attributeError
      else match effectiveCharset (declared.text?.getD []) (params.get (str "charset")) with
        | none => pure ()
        | some (charset, implicit) => charsetChecks c declared charset implicit

end HL
