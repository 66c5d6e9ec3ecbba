import Verif.Encoding
import Verif.Cache
import Verif.Status
import Verif.Content

/-!
# message.py: the linters
-/

namespace HL
open Syntax

/-- do `f` after `r`, unless `r` raised -/
def Run.andThen {α β} (r : Run α) (f : Msg → α → Run β) : Run β :=
  match r with
  | (m, .error e) => (m, .error e)
  | (m, .ok a) => f m a

/-- run a check on a message -/
def Msg.runW {α} (m : Msg) (w : W α) : Run α := (m.addNotes w.notes, w.res)

/-! ### construction -/

/-- message.py:43,198,265 `message_type` -/
def MsgKind.name : MsgKind → Str
  | .request => str "request"
  | .response => str "response"

/-- message.py:57-92, 200-204, 268-274: a new linter -/
def Msg.new (env : Env) (kind : MsgKind) (startTime : Option Rat := none) (noContent : Bool := false) : Msg :=
  { kind, defaults := [(str "message_type", .str (env.render.translate kind.name))], startTime, noContent }

/-! ### top lines -/

/-- `bytes.decode("ascii", "replace")` -/
def asciiReplace (s : Str) : Str := s.map fun c => if c < 128 then c else 65533

/-- message.py:197 `max_uri_chars` -/
def maxUriChars : Nat := 8000

/-- message.py:211-228 `set_uri` -/
def Msg.setUri (env : Env) (iri : Str) (m : Msg) : Run Unit :=
  let m := { m with iri := some iri }
  let add := m.adder (str "uri")
  match env.iriToUri iri with
  | .error e =>
    if e.isValueError then ({ m.addNotes [add.mk1 .URI_BAD_SYNTAX] with uri := some iri }, .ok ())
    else (m, .error e)
  | .ok uri =>
    let m := m.addNotes (if rfc3986.URI.spaced false uri then [] else [add.mk1 .URI_BAD_SYNTAX])
    let uri := match split1 35 uri with
      | some (a, _) => a
      | none => uri
    let m := { m with uri := some uri }
    (m.addNotes (if uri.length > maxUriChars then
      [add.mk1 .URI_TOO_LONG [(str "uri_len", .str (fNum uri.length))]] else []), .ok ())

/-- message.py:93, 206-209 `process_request_topline` (a response linter ignores it) -/
def Msg.requestTopline (env : Env) (method iri version : Str) (m : Msg) : Run Unit :=
  match m.kind with
  | .response => (m, .ok ())
  | .request =>
    Run.andThen (({ m with method := some (asciiReplace method) } : Msg).setUri env (utf8Replace iri))
      fun m _ => ({ m with version := asciiReplace version }, .ok ())

/-- message.py:95-97, 284-298 `process_response_topline` (a request linter ignores it) -/
def Msg.responseTopline (version status : Str) (phrase : Option Str) (m : Msg) : Run Unit :=
  match m.kind with
  | .request => (m, .ok ())
  | .response =>
    let code := asciiReplace status
    let m := { m with version := asciiReplace version, statusCodeStr := some code }
    let add := m.adder (str "status")
    let m := match pyInt code with
      | some n => { m with statusCode := some n }
      | none => m.addNotes [add.mk1 .STATUS_CODE_NON_NUMERIC]
    match phrase with
    | none => (m, .ok ())
    | some p =>
      if p.isEmpty then (m, .ok ())
      else
        ({ m with statusPhrase := some (asciiReplace p) }.addNotes
          (if nonAscii p then [add.mk1 .STATUS_PHRASE_ENCODING] else []), .ok ())

/-! ### headers -/

/-- message.py:105-112: the character encoding from Content-Type -/
def Msg.setCharset (env : Env) (m : Msg) : Run Unit :=
  match dget m.headers.parsed (str "content-type") with
  | none => (m, .ok ())
  | some ct => match ct.idx 1 with
    | .error e => (m, .error e)
    | .ok params =>
      if !params.isDict then (m, .error .attributeError)
      else match params.get (str "charset") with
        | some (.str enc) => match env.codecsLookup enc with
          | .ok _ => ({ m with characterEncoding := some enc }, .ok ())
          | .error e => if e.isLookup || e = .typeError then (m, .ok ()) else (m, .error e)
        -- `codecs.lookup(None)` is a `TypeError`, which is caught
        | _ => (m, .ok ())

/-- message.py:99-112 `process_headers` -/
def Msg.processHeaders (env : Env) (related : Option Msg) (lines : List (Str × Str)) (m : Msg) : Run Unit :=
  Run.andThen (processSection env related false lines m) fun m _ => m.setCharset env

/-! ### content -/

/-- message.py:114-123 `feed_content` -/
def Msg.feedContent (env : Env) (chunk : Str) (m : Msg) : Run Unit :=
  let m := { m with contentLength := m.contentLength + chunk.length }
  if m.noContent then (m, .ok ())
  else ({ m with hashed := m.hashed ++ chunk } : Msg).decodeFeed env chunk

/-- message.py:162-164, 230-231, 300-305 `can_have_content` -/
def Msg.canHaveContent (m : Msg) : Bool :=
  match m.kind with
  | .request => true
  | .response => !m.isHeadResponse && m.statusCode != some 304

/-- `self.content_length == v` for a parsed value -/
def Val.eqNat (v : Val) (n : Nat) : Bool :=
  match v.number with
  | .ok q => q == (n : Rat)
  | .error _ => false

/-- message.py:136-149: the verdict on the amount of content -/
def lengthNotes (m : Msg) : List Note :=
  if m.canHaveContent then
    match dget m.headers.parsed (str "content-length") with
    | none => []
    | some v =>
      if m.noContent then []
      else if v.eqNat m.contentLength then [(m.adder (str "field-content-length")).mk1 .CL_CORRECT]
      else [(m.adder (str "field-content-length")).mk1 .CL_INCORRECT
        [(str "content_length", .str (fNum m.contentLength))]]
  else if m.contentLength ≠ 0 ∧ m.noContent = false then [(m.adder (str "message")).mk1 .CONTENT_NOT_ALLOWED]
  else []

/-- message.py:247-255 -/
def noContentMethods : List Str := [str "GET", str "HEAD", str "DELETE", str "CONNECT", str "TRACE"]

/-- message.py:241-258 the request's `post_checks` -/
def requestPostChecks (env : Env) (related : Option Msg) (m : Msg) : W Unit := do
  F.checkPreflightRequest ⟨env, m, related⟩ (m.adder [])
  W.when (!dhas m.headers.parsed (str "user-agent")) ((m.adder (str "field-user-agent")).add .MISSING_USER_AGENT)
  match m.method with
  | some meth =>
    W.when (m.contentLength > 0 && noContentMethods.contains meth && !m.noContent)
      ((m.adder (str "message")).add .REQUEST_CONTENT_NOT_DEFINED [(str "method", .str meth)])
  | none => pure ()

/-- message.py:307-313 the response's `post_checks`; also the notes added to the request -/
def responsePostChecks (env : Env) (related : Option Msg) (m : Msg) : Run Unit × List Note :=
  match m.runW (F.checkPreflightResponse ⟨env, m, related⟩ (m.adder [])) with
  | (m, .error e) => ((m, .error e), [])
  | (m, .ok ()) =>
    let (caching, w, reqNotes) := cacheCheck ⟨env, m, related⟩
    let m := match caching with
      | some st => { m with caching := some st }
      | none => m
    (Run.andThen (m.runW w) fun m _ =>
      Run.andThen (m.runW (Status.check ⟨env, m, related⟩)) fun m _ =>
        if m.noContent then (m, .ok ())
        else Run.andThen (m.runW (verifyContentType ⟨env, m, related⟩)) fun m _ =>
          m.runW (verifyCharset ⟨env, m, related⟩), reqNotes)

/-- `self.post_checks()` -/
def postChecks (env : Env) (related : Option Msg) (m : Msg) : Run Unit × List Note :=
  match m.kind with
  | .request => (m.runW (requestPostChecks env related m), [])
  | .response => responsePostChecks env related m

/-- message.py:151-160 for one section: `post_check` of the handlers that have a value -/
def postCheckHandlers (env : Env) (related : Option Msg) (trailer : Bool) : List Handler → Msg → Run Unit
  | [], m => (m, .ok ())
  | h :: hs, m =>
    if h.value = .none then postCheckHandlers env related trailer hs m
    else
      let (notes, r) := h.postCheck ⟨env, m, related⟩ (m.fieldAdder trailer h) m.notes
      match r with
      | .error e => ({ m with notes }, .error e)
      | .ok () => postCheckHandlers env related trailer hs { m with notes }

/-- message.py:125-160 `finish_content`: the run, and the notes added to the related request -/
def Msg.finishContent (env : Env) (related : Option Msg) (complete : Bool) (trailers : List (Str × Str)) (m : Msg) :
    Run Unit × List Note :=
  let m := { m with complete, contentHash := some (env.md5 m.hashed) }
  match (if trailers.isEmpty then (m, .ok ()) else processSection env related true trailers m : Run Unit) with
  | (m, .error e) => ((m, .error e), [])
  | (m, .ok ()) =>
    let m := { m with decoded := { m.decoded with hash := some (env.md5 m.decoded.hashed) } }
    let m := m.addNotes (lengthNotes m)
    let (r, reqNotes) := postChecks env related m
    (Run.andThen r fun m _ =>
      Run.andThen (postCheckHandlers env related false (m.headers.handlers.map (·.2)) m) fun m _ =>
        postCheckHandlers env related true (m.trailers.handlers.map (·.2)) m, reqNotes)

/-! ### the API -/

/-- a call of the public API on a linter -/
inductive Op where
  | requestTopline (method iri version : Str)
  | responseTopline (version status : Str) (phrase : Option Str)
  | headers (lines : List (Str × Str))
  | feed (chunk : Str)
  | finish (complete : Bool) (trailers : List (Str × Str))
  deriving DecidableEq, Repr

/-- a linter and the related one -/
structure World where
  msg : Msg
  related : Option Msg := none
  deriving DecidableEq, Repr

/-- what a call does: the linters afterwards, and whether it raised -/
def Op.run (env : Env) (op : Op) (w : World) : World × Except Exn Unit :=
  match op with
  | .requestTopline me i v => let (m, r) := w.msg.requestTopline env me i v; ({ w with msg := m }, r)
  | .responseTopline v s p => let (m, r) := w.msg.responseTopline v s p; ({ w with msg := m }, r)
  | .headers ls => let (m, r) := w.msg.processHeaders env w.related ls; ({ w with msg := m }, r)
  | .feed chunk => let (m, r) := w.msg.feedContent env chunk; ({ w with msg := m }, r)
  | .finish c ts =>
    let ((m, r), reqNotes) := w.msg.finishContent env w.related c ts
    ({ msg := m, related := w.related.map (·.addNotes reqNotes) }, r)

/-- a sequence of calls; a raised exception is seen by the caller, who may go on calling -/
def Op.runAll (env : Env) : List Op → World → World
  | [], w => w
  | op :: ops, w => Op.runAll env ops (op.run env w).1

end HL
