import Verif.Fields.Common

/-! # Remaining fields -/

namespace HL.F
open Syntax

/-! ### Alt-Svc -/

/-- field/parsers/alt_svc.py:28-39 -/
def alt_svc.parse (v : Str) : W Val :=
  if v = str "clear" then return .str v
  else if !v.contains 61 then W.throw .valueError
  else return .str v

/-- field/parsers/alt_svc.py:41-45 -/
def alt_svc.evaluate (add : AddNote) (h : Handler) : W Unit :=
  match h.value with
  | .list xs => W.when (xs.any (Val.pyEq (.str (str "clear"))) && xs.length > 1) (add.add .ALTSVC_CLEAR_LIST)
  | _ => pure ()

/-! ### Expect -/

/-- field/parsers/expect.py:21-32 -/
def expect.evaluate (c : Ctx) (add : AddNote) (h : Handler) : W Unit := do
  W.when (c.msg.version == str "1.0") (add.add .EXPECT_HTTP_1_0)
  let items ← W.lift h.value.iter
  let unknown := (items.map Val.asStr).filter fun e => lower e != str "100-continue"
  W.when (!unknown.isEmpty) (add.add .EXPECT_UNKNOWN [(str "expectation", .str (join (str ", ") unknown))])

/-! ### Keep-Alive -/

/-- field/parsers/keep_alive.py:30-37 -/
def keep_alive.parse (v : Str) : Val :=
  match split1 61 v with
  | some (a, b) => .tuple [.str (lower a), .str (unquoteString b)]
  | none => .tuple [.str (lower v), .none]

/-! ### Link -/

/-- `s[1:-1]` -/
def trimEnds (s : Str) : Str := (s.drop 1).dropLast

/-- a parameter that is present and not empty -/
def nonEmptyParam (d : Dict Val) (k : Str) : Option Str :=
  match dget d k with
  | some (.str (c :: r)) => some (c :: r)
  | _ => none

/-- field/parsers/link.py:29-48 -/
def link.parse (c : Ctx) (add : AddNote) (v : Str) : W Val := do
  let (lv, ps) := splitSemi v
  let lv := trimEnds (strip lv)
  let d ← parseParams c.env add ps
    (.names [str "rel", str "rev", str "anchor", str "hreflang", str "type", str "media"])
  match dget d (str "rev") with
  | some r => do
    let s ← W.lift (c.env.render.toStr r)
    add.add .LINK_REV [(str "link", .str lv), (str "rev", .str s)]
  | none => pure ()
  match nonEmptyParam d (str "anchor") with
  | some a =>
    W.when (!(rfc3986.URI_reference.spaced false a))
      (add.add .LINK_BAD_ANCHOR [(str "link", .str lv), (str "anchor", .str a)])
  | none => pure ()
  match nonEmptyParam d (str "type") with
  | some t =>
    W.when (!(rfc9110.media_type.spaced false t))
      (add.add .LINK_BAD_TYPE [(str "link", .str lv), (str "type", .str t)])
  | none => pure ()
  return .tuple [.str lv, Val.ofDict d]

/-- field/parsers/link.py:51 -/
def linkHints : List Str := [str "preload", str "preconnect", str "dns-prefetch"]

/-- field/parsers/link.py:58-65 for one link: per hint token, the scheme of its target -/
def link.tokens (c : Ctx) (lv : Str) : List Str → Except Exn (List (Str × Str × Str))
  | [] => .ok []
  | t :: ts => do
    if linkHints.contains t then
      let target ← c.env.urljoin c.msg.baseUri lv
      let u ← c.env.urlsplit target
      let r ← link.tokens c lv ts
      return (t, lv, lower u.scheme) :: r
    else link.tokens c lv ts

/-- is it a target a hint cannot use? -/
def badHintScheme (s : Str) : Bool := !s.isEmpty && s != str "http" && s != str "https"

/-- field/parsers/link.py:54-65: all `(rel, link, scheme)` in order -/
def link.hints (c : Ctx) : List Val → Except Exn (List (Str × Str × Str))
  | [] => .ok []
  | x :: xs => do
    let (lv, params) ← x.unpack2
    let here ← match params.get (str "rel") with
      | some (.str rel) => link.tokens c lv.asStr (words (lower rel))
      | _ => .ok []
    let rest ← link.hints c xs
    return here ++ rest

/-- field/parsers/link.py:50-81 -/
def link.evaluate (c : Ctx) (add : AddNote) (h : Handler) : W Unit := do
  let items ← W.lift h.value.iter
  let hs ← W.lift (link.hints c items)
  W.forEach (hs.filter fun x => badHintScheme x.2.2) fun (rel, lv, scheme) =>
    add.add .LINK_BAD_HINT_TARGET [(str "rel", .str rel), (str "link", .str lv), (str "scheme", .str scheme)]
  let good := hs.filter fun x => !badHintScheme x.2.2
  let present := linkHints.filter fun t => good.any fun x => x.1 == t
  W.when (!present.isEmpty) (add.add .LINK_RESOURCE_HINTS
    [(str "hints", .str (join (str ", ") present)),
     (str "detail_lines", .md (join [10] (present.map fun t =>
        str "- `" ++ t ++ str "`: " ++ join (str ", ")
          ((good.filter fun x => x.1 == t).map fun x => [96] ++ removeC 96 x.2.1 ++ [96]))))])

/-! ### Location -/

/-- field/parsers/location.py:28-37 -/
def locationStatus : List Int := [201, 300, 301, 302, 303, 305, 307, 308]

/-- field/parsers/location.py:25-44 -/
def location.parse (c : Ctx) (add : AddNote) (v : Str) : W Val := do
  W.when (c.msg.kind == .response && !(match c.msg.statusCode with
      | some s => locationStatus.contains s
      | none => false)) (add.add .LOCATION_UNDEFINED)
  if rfc3986.URI.spaced false v then return .str v
  else do
    let u ← W.lift (c.env.urljoin c.msg.baseUri v)
    add.add .LOCATION_NOT_ABSOLUTE [(str "full_uri", .str u)]
    return .str v

/-! ### Max-Forwards, Server, TCN, Via -/

/-- field/parsers/max_forwards.py:29-31 -/
def max_forwards.evaluate (c : Ctx) (add : AddNote) (_ : Handler) : W Unit :=
  W.when (!(c.msg.method == some (str "TRACE") || c.msg.method == some (str "OPTIONS")))
    (add.add .MAX_FORWARDS_IGNORED)

/-- field/parsers/server.py:7 -/
def maxServerLength : Nat := 64

/-- field/parsers/server.py:19-26 -/
def server.parse (add : AddNote) (v : Str) : W Val := do
  W.when (v.length > maxServerLength) (add.add .SERVER_TOO_LONG
    [(str "server_string", .str v), (str "server_length", .str (commaNum v.length ++ str " bytes"))])
  return .str v

/-- field/parsers/tcn.py:18-24 -/
def tcn.parse (add : AddNote) (wireName v : Str) : W Val := do
  add.add .UNNECESSARY_HEADER [(str "header_name", .str wireName)]
  return .str v

/-- field/unnecessary.py:42-43 (returns `None`, which is appended to the value) -/
def unnecessary.parse (add : AddNote) (wireName : Str) : W Val := do
  add.add .UNNECESSARY_HEADER [(str "header_name", .str wireName)]
  return .none

/-- field/parsers/via.py:22-24 -/
def via.evaluate (add : AddNote) (h : Handler) : W Unit := do
  let items ← W.lift h.value.iter
  add.add .VIA_PRESENT [(str "via_list", .str (str "<ul>" ++ join [10]
    (items.map fun v => str "<li><code>" ++ v.asStr ++ str "</code></li>") ++ str "</ul>"))]

/-! ### Server-Timing -/

/-- `float(s)` succeeds, also for infinities and NaN -/
def isFloat (s : Str) : Bool :=
  (pyFloat s).isSome ||
    (let t := lower (strip s)
     let b := match t with
      | 45 :: r => r
      | 43 :: r => r
      | r => r
     b == str "inf" || b == str "infinity" || b == str "nan")

/-- field/parsers/server_timing.py:28-37 -/
def server_timing.parse (c : Ctx) (add : AddNote) (v : Str) : W Val := do
  let (m, ps) := splitSemi v
  let d ← parseParams c.env add ps (.names [str "desc"])
  return .tuple [.str (strip m), Val.ofDict d]

/-- field/parsers/server_timing.py:39-58 -/
def server_timing.evaluate (add : AddNote) (h : Handler) : W Unit := do
  let items ← W.lift h.value.iter
  W.forEach items fun x => do
    let (metric, params) ← W.lift x.unpack2
    match params.get (str "dur") with
    | none | some .none => add.add .SERVER_TIMING_MISSING_DUR [(str "metric", metric)]
    | some d =>
      W.when (!isFloat d.asStr) (add.add .SERVER_TIMING_BAD_PARAM
        [(str "metric", metric), (str "param", .str (str "dur")), (str "value", d)])
    W.when (params.get (str "desc")).isNone (add.add .SERVER_TIMING_MISSING_DESC [(str "metric", metric)])

end HL.F
