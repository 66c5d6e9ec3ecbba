import Verif.Message

/-!
# cli/http_parser.py

The HTTP/1 framing parser (`thor.http.common.HttpMessageHandler`) is outside the model; here are the callbacks
httplint gives it.
-/

namespace HL.Cli

/-! ### top lines -/

/-- `s.split(None, 1)` on bytes, when it gives two pieces -/
def splitWS (s : Str) : Option (Str × Str) :=
  let t := s.dropWhile isBSpace
  let a := t.takeWhile (fun c => !isBSpace c)
  let b := (t.dropWhile (fun c => !isBSpace c)).dropWhile isBSpace
  if a.isEmpty || b.isEmpty then none else some (a, b)

/-- `s.rsplit(None, 1)` on bytes, when it gives two pieces -/
def rsplitWS (s : Str) : Option (Str × Str) :=
  (splitWS s.reverse).map fun p => (p.2.reverse, p.1.reverse)

/-- `s.rsplit(c, 1)` for a one-byte separator, when it gives two pieces -/
def rsplit1 (c : Nat) (s : Str) : Option (Str × Str) :=
  (split1 c s.reverse).map fun p => (p.2.reverse, p.1.reverse)

/-- cli/http_parser.py:79-87 `request_topline` -/
def requestTopline (line : Str) : Except Exn (Str × Str × Str) :=
  match splitWS line with
  | none => .error .valueError
  | some (method, rest) => match rsplitWS rest with
    | none => .error .valueError
    | some (uri, version) => match rsplit1 47 version with
      | none => .error .valueError
      | some (_, v) => .ok (method, uri, v)

/-- cli/http_parser.py:96 -/
def versions : List Str := [str "1.0", str "1.1", str "2"]

/-- cli/http_parser.py:89-104 `response_topline` -/
def responseTopline (line : Str) : Except Exn (Str × Str × Str) :=
  match splitWS line with
  | none => .error .valueError
  | some (protoVersion, status) => match rsplit1 47 protoVersion with
    | none => .error .valueError
    | some (proto, version) =>
      if proto ≠ str "HTTP" ∨ versions.contains version = false then .error .valueError
      else match splitWS status with
        | some (code, phrase) => .ok (version, code, phrase)
        | none => .ok (version, rstripP isBSpace status, [])

/-! ### the mode -/

/-- the value of `args.mode`: argparse stores the default object as it is, and the text for `-i` -/
inductive Mode where
  | enum (k : MsgKind)
  | text (s : Str)
  deriving DecidableEq, Repr

/-- cli/__init__.py:19-27: the mode for the value of `-i`, if it is given; other values are refused -/
def modeOf (arg : Option Str) : Option Mode :=
  match arg with
  | none => some (.enum .response)
  | some s => if s = str "request" ∨ s = str "response" then some (.text s) else none

/-- thor.http.common `no_body_status` -/
def noBodyStatus : List Str := [str "204", str "304"]

/-- cli/http_parser.py:36-59 `input_start`: the linter after its top line and headers, `allows_body`, `is_final`.
(Reading `allows_body` when neither branch ran is `UnboundLocalError`.) -/
def inputStart (env : Env) (mode : Mode) (startTime : Option Rat) (topLine : Str) (hdrs : List (Str × Str))
    (transferCodes : List Str) (contentLength : Option Int) : Except Exn (Msg × Bool × Bool) :=
  match mode with
  | .enum .request => do
    let (method, iri, version) ← requestTopline topLine
    let r := Run.andThen ((Msg.new env .request startTime).requestTopline env method iri version)
      fun m _ => m.processHeaders env none hdrs
    let () ← r.2
    return (r.1, (contentLength.any (· > 0)) || !transferCodes.isEmpty, true)
  | .enum .response => do
    let (version, status, phrase) ← responseTopline topLine
    let r := Run.andThen ((Msg.new env .response startTime).responseTopline version status (some phrase))
      fun m _ => m.processHeaders env none hdrs
    let () ← r.2
    let isFinal := !startsWith (str "1") status
    return (r.1, isFinal && !noBodyStatus.contains status, isFinal)
  | .text _ => .error .unboundLocalError

/-! ### output -/

/-- note.py:41-52: `category.value` -/
def catValue : Cat → Str
  | .GENERAL => str "General"
  | .CONNECTION => str "Connection"
  | .SECURITY => str "Browser Security"
  | .CORS => str "Cross-Origin Resource Sharing"
  | .COOKIES => str "Cookies"
  | .CONNEG => str "Content Negotiation"
  | .CACHING => str "Caching"
  | .VALIDATION => str "Validation"
  | .RANGE => str "Partial Content"

/-- what is printed, line by line -/
inductive Line where
  | category (c : Cat)
  | note (n : Note)
  | subnote (s : SubNote)
  deriving DecidableEq, Repr

/-- cli/http_parser.py:66 `sorted(notes, key=lambda n: n.category.value)` -/
def sortedNotes (notes : List Note) : List Note :=
  pySorted (fun a b => strLe (catValue a.category) (catValue b.category)) notes

/-- cli/http_parser.py:67-74: the loop, with the current category -/
def printLoop : Option Cat → List Note → List Line
  | _, [] => []
  | cur, n :: ns =>
    (if cur = some n.category then [] else [Line.category n.category]) ++
      (Line.note n :: n.subnotes.map Line.subnote) ++ printLoop (some n.category) ns

/-- cli/http_parser.py:64-75 `input_end`: the lines printed (each `note.summary` is assumed to render) -/
def output (notes : List Note) : List Line := printLoop none (sortedNotes notes)

/-! ### a whole run -/

/-- cli/http_parser.py:61-62 `input_body`, for the chunks the framing parser hands over -/
def inputBody (env : Env) : List Str → Msg → Run Unit
  | [], m => (m, .ok ())
  | chunk :: chunks, m => Run.andThen (m.feedContent env chunk) fun m _ => inputBody env chunks m

/-- cli/__init__.py:9-14 `main`, as the callbacks the framing parser makes for one message: `input_start`, `input_body` for every chunk of the
body if there may be one, `input_end`. The result is what is printed. (No callback follows one that raises.) -/
def lintText (env : Env) (arg : Option Str) (startTime : Option Rat) (topLine : Str) (hdrs : List (Str × Str)) (transferCodes : List Str)
    (contentLength : Option Int) (chunks : List Str) (trailers : List (Str × Str)) : Option (Except Exn (List Line)) :=
  (modeOf arg).map fun mode =>
    match inputStart env mode startTime topLine hdrs transferCodes contentLength with
    | .error e => .error e
    | .ok (m, allowsBody, _) =>
      match inputBody env (if allowsBody then chunks else []) m with
      | (_, .error e) => .error e
      | (m, .ok ()) =>
        match m.finishContent env none true trailers with
        | ((_, .error e), _) => .error e
        | ((m, .ok ()), _) => .ok (output m.notes)

end HL.Cli
