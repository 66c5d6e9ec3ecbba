import Verif.Fields.Common

/-! # field/cors.py, and the CORS fields -/

namespace HL.F
open Syntax

/-- field/cors.py:5-13 `is_cors_preflight_request` -/
def isPreflight (m : Msg) : Bool :=
  m.method == some (str "OPTIONS") && dhas m.headers.parsed (str "origin") &&
    dhas m.headers.parsed (str "access-control-request-method")

/-- field/cors.py:16-48 `check_preflight_request` -/
def checkPreflightRequest (c : Ctx) (add : AddNote) : W Unit := do
  let m := c.msg
  W.when (isPreflight m)
    ((add.on (str "method field-access-control-request-method field-access-control-request-headers")).add
      .CORS_PREFLIGHT_REQUEST)
  let hasM := dhas m.headers.parsed (str "access-control-request-method")
  let hasH := dhas m.headers.parsed (str "access-control-request-headers")
  if hasM || hasH then do
    W.when (m.method != some (str "OPTIONS"))
      ((add.on (str "method")).add .CORS_PREFLIGHT_REQ_METHOD_WRONG
        [(str "field_name", .str (str "Access-Control-Request-Method")), (str "method", Val.ofOpt m.method)])
    W.when (!dhas m.headers.parsed (str "origin"))
      ((add.on (str "field-origin")).add .CORS_PREFLIGHT_REQ_NO_ORIGIN
        [(str "field_name", .str (str "Access-Control-Request-Method"))])
    W.when (!hasM)
      ((add.on (str "field-access-control-request-headers")).add .CORS_PREFLIGHT_REQ_NO_METHOD
        [(str "field_name", .str (str "Access-Control-Request-Headers"))])
  else pure ()

/-- field/cors.py:64-68 -/
def preflightOnly : List Str :=
  [str "access-control-allow-headers", str "access-control-allow-methods", str "access-control-max-age"]

/-- field/cors.py:63-70: the canonical names of the preflight-only fields present;
`message.headers.handlers[field_name]` raises `KeyError` when only `parsed` has the name -/
def badPreflightHeaders (s : Section) : List Str → Except Exn (List Str)
  | [] => .ok []
  | f :: fs =>
    if dhas s.parsed f then
      match dget s.handlers f with
      | none => .error .keyError
      | some h => (badPreflightHeaders s fs).map (h.canonicalName :: ·)
    else badPreflightHeaders s fs

/-- field/cors.py:51-84 `check_preflight_response` -/
def checkPreflightResponse (c : Ctx) (add : AddNote) : W Unit := do
  let m := c.msg
  let pre := match c.request with
    | some r => isPreflight r
    | none => false
  if pre then (add.on []).add .CORS_PREFLIGHT_RESPONSE
  else do
    let bad ← W.lift (badPreflightHeaders m.headers preflightOnly)
    W.when (!bad.isEmpty)
      ((add.on (str "header-access-control-allow-headers")).add .CORS_PREFLIGHT_ONLY
        [(str "headers", .str (join (str ", ") bad))])
  match dget m.headers.parsed (str "access-control-allow-origin") with
  | some (.str v) =>
    W.when (v.contains 32 || v.contains 44)
      ((add.on (str "header-access-control-allow-origin")).add .ACAO_MULTIPLE_VALUES)
  | _ => pure ()

/-- field/cors.py:96-108: the text of the request's origin -/
def originStr (c : Ctx) (v : Val) : Except Exn Str :=
  match v with
  | .none => .ok (str "null")
  | .origin s h p => .ok (s ++ str "://" ++ h ++ (match p with | some n => [58] ++ decI n | none => []))
  | v => c.env.render.toStr v

/-- field/cors.py:87-133 `check_access_control_allow_origin` -/
def checkAllowOrigin (c : Ctx) (add : AddNote) (acao : Str) : W Unit :=
  match c.request.bind (fun r => dget r.headers.parsed (str "origin")) with
  | none => pure ()
  | some o => do
    let os ← W.lift (originStr c o)
    let a := add.on (str "header-access-control-allow-origin")
    if acao = str "null" then a.add .CORS_ORIGIN_NULL
    else if acao = str "*" then a.add .CORS_ORIGIN_STAR
    else if acao = os then a.add .CORS_ORIGIN_MATCH [(str "origin", .str os)]
    else a.add .CORS_ORIGIN_MISMATCH [(str "origin", .str os), (str "acao_value", .str acao)]

/-- field/parsers/access_control_allow_origin.py:29-30 -/
def access_control_allow_origin.evaluate (c : Ctx) (add : AddNote) (h : Handler) : W Unit := do
  let s ← W.lift (c.env.render.toStr h.value)
  checkAllowOrigin c add s

/-- field/parsers/access_control_allow_credentials.py:23-26 -/
def access_control_allow_credentials.parse (v : Str) : W Val :=
  if v = str "true" then pure (.str (str "true")) else W.throw .valueError

/-- field/parsers/access_control_max_age.py:25-35 -/
def access_control_max_age.parse (add : AddNote) (v : Str) : W Val :=
  match pyInt v with
  | none => do
    add.add .CORS_MAX_AGE_INVALID [(str "ref_uri", FieldId.access_control_max_age_.ref)]
    W.throw .valueError
  | some n =>
    if n < 0 then do
      add.add .CORS_MAX_AGE_NEGATIVE [(str "ref_uri", FieldId.access_control_max_age_.ref)]
      W.throw .valueError
    else pure (.int n)

/-- `x://y[:port]` split as the groups of origin.py:34-37 (VERBOSE only: case-sensitive), in the order the
backtracking engine tries them; `$` also matches before a final newline -/
def serializedOrigin (s : Str) : Option (Str × Str × Option Str) :=
  let pre (s t : Str) : Str := s.take (s.length - t.length)
  let atEnd (t : Str) : Bool := t == [] || t == [10]
  (rfc3986.scheme.run false s).findSome? fun t =>
    match t with
    | 58 :: 47 :: 47 :: u =>
      (rfc3986.host.run false u).findSome? fun w =>
        let withPort := match w with
          | 58 :: w' => (rfc3986.port.run false w').findSome? fun z =>
              if atEnd z then some (pre s t, pre u w, some (pre w' z)) else none
          | _ => none
        match withPort with
        | some r => some r
        | none => if atEnd w then some (pre s t, pre u w, none) else none
    | _ => none

/-- field/parsers/origin.py:39-57 -/
def origin.parse (add : AddNote) (v : Str) : W Val :=
  if v = str "null" then pure .none
  else do
    let os := splitOn 32 v
    W.when (os.length > 1) (add.add .ORIGIN_MULTIPLE_VALUES)
    let first := os.headD []
    match serializedOrigin first with
    | some (s, h, p) =>
      let port : Option Str := p.bind fun x => if x.isEmpty then none else some x
      match port with
      | none => return .origin (lower s) (lower h) none
      | some ps => match pyInt ps with
        | some n => return .origin (lower s) (lower h) (some n)
        | none => W.throw .valueError
    | none => do
      add.add .BAD_ORIGIN_SYNTAX [(str "value", .str first)]
      W.throw .valueError

end HL.F
