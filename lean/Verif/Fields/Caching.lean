import Verif.Fields.Common

/-! # Fields of the CACHING category, Date and validators -/

namespace HL.F

/-! ### Age -/
/-- field/parsers/age.py:23-34 -/
def age.parse (add : AddNote) (v : Str) : W Val :=
  match pyInt v with
  | none => do
    add.add .AGE_NOT_INT
    W.throw .valueError
  | some n =>
    if n < 0 then do
      add.add .AGE_NEGATIVE
      W.throw .valueError
    else do
      W.when (n > 2147483648) (add.add .AGE_LARGE)
      return .int n

/-! ### Cache-Control -/

/-- how the value of a directive is converted (cache_control.py:17) -/
inductive CcConv where
  | none | int | unquote
  deriving DecidableEq, Repr

/-- one entry of `KNOWN_CC` -/
structure CcInfo where
  name : Str
  req : Bool
  resp : Bool
  conv : CcConv
  /-- the fourth component, shown in notes -/
  expected : Str

/-- field/parsers/cache_control.py:17-36 `KNOWN_CC` -/
def knownCC : List CcInfo := [
  ⟨str "immutable", false, true, .none, str "none"⟩,
  ⟨str "max-age", true, true, .int, str "integer"⟩,
  ⟨str "max-stale", true, false, .int, str "integer"⟩,
  ⟨str "min-fresh", true, false, .int, str "integer"⟩,
  ⟨str "must-revalidate", false, true, .none, str "none"⟩,
  ⟨str "must-understand", false, true, .none, str "none"⟩,
  ⟨str "no-cache", true, true, .unquote, str "quoted string"⟩,
  ⟨str "no-store", true, true, .none, str "none"⟩,
  ⟨str "no-transform", true, true, .none, str "none"⟩,
  ⟨str "only-if-cached", true, false, .none, str "none"⟩,
  ⟨str "private", false, true, .unquote, str "quoted string"⟩,
  ⟨str "proxy-revalidate", false, true, .none, str "none"⟩,
  ⟨str "public", false, true, .none, str "none"⟩,
  ⟨str "s-maxage", false, true, .int, str "integer"⟩,
  ⟨str "stale-if-error", false, true, .int, str "integer"⟩,
  ⟨str "stale-while-revalidate", false, true, .int, str "integer"⟩,
  ⟨str "pre-check", false, true, .int, str "integer"⟩,
  ⟨str "post-check", false, true, .int, str "integer"⟩]

/-- `KNOWN_CC.get(d)` -/
def ccInfo (d : Str) : Option CcInfo := knownCC.find? (fun i => i.name == d)

/-- field/parsers/cache_control.py:40-82 `CONFLICTING_CC` -/
def conflictingCC : List (Str × List Str) := [
  (str "no-store", [str "immutable", str "max-age", str "must-revalidate", str "no-cache", str "private",
    str "proxy-revalidate", str "public", str "s-maxage", str "stale-if-error",
    str "stale-while-revalidate", str "pre-check", str "post-check"]),
  (str "no-cache", [str "immutable", str "max-age", str "must-revalidate", str "proxy-revalidate",
    str "s-maxage", str "stale-if-error", str "stale-while-revalidate", str "pre-check",
    str "post-check"]),
  (str "must-revalidate", [str "immutable", str "stale-if-error", str "stale-while-revalidate",
    str "pre-check", str "post-check"])]

/-- `unquote_string(x)` where `x` may be `None`: `str(None)` is what gets unquoted (utils.py:142) -/
def unquoteOpt : Option Str → Str
  | none => unquoteString (str "None")
  | some s => unquoteString s

/-- field/parsers/cache_control.py:96-132 -/
def cache_control.parse (add : AddNote) (v : Str) : W Val := do
  let (name, val) : Str × Option Str := match split1 61 v with
    | some (a, b) => (a, some b)
    | none => (v, none)
  let lname := lower name
  W.when (name != lname) (add.add .CC_MISCAP [(str "directive_lower", .str lname), (str "directive", .str name)])
  match ccInfo lname with
  | none => return .tuple [.str lname, Val.ofOpt val]
  | some info =>
    match info.conv with
    | .none => do
      W.when val.isSome (add.add .CC_SHOULD_NOT_HAVE_VALUE [(str "directive", .str lname)])
      return .tuple [.str lname, Val.ofOpt val]
    | .unquote => return .tuple [.str lname, .str (unquoteOpt val)]
    | .int =>
      -- `int(None)` is a TypeError, `int(bad)` a ValueError; both are caught
      match val.bind pyInt with
      | some n => do
        W.when (n > 2147483648) (add.add .CC_MAX_AGE_TOO_LARGE [(str "directive", .str lname)])
        return .tuple [.str lname, .int n]
      | none => do
        add.add .CC_BAD_VALUE_TYPE [(str "directive", .str lname), (str "expected_type", .str info.expected),
          (str "value", Val.ofOpt val)]
        W.throw .valueError

/-- the `(directive, value)` pairs of a parsed Cache-Control -/
def ccPairs (v : Val) : List (Str × Val) :=
  match v with
  | .list xs => xs.filterMap fun
    | .tuple [.str d, x] => some (d, x)
    | _ => none
  | _ => []

/-- `dict(pairs)`: the last value of a repeated directive counts -/
def ccDict (l : List (Str × Val)) : Dict Val := l.foldl (fun d p => dset d p.1 p.2) []

/-- field/parsers/cache_control.py:139-149: the first directive with conflicts, and the conflicts.
The order of `conflicts` (a set intersection) is unspecified in Python; here it is the table's. -/
def ccConflict (names : List Str) : Option (Str × List Str) :=
  conflictingCC.findSome? fun (d, pot) =>
    if names.contains d then
      let c := pot.filter names.contains
      if c.isEmpty then none else some (d, c)
    else none

/-- field/parsers/cache_control.py:151-176, for one directive of the set -/
def cache_control.checkDirective (isRequest : Bool) (names : List Str) (add : AddNote) (d : Str) : W Unit :=
  let info := ccInfo d
  if isRequest && info.any (fun i => !i.req) then
    add.add .CC_WRONG_MESSAGE [(str "directive", .str d), (str "other_message", .str (str "response"))]
  else if !isRequest && info.any (fun i => !i.resp) then
    add.add .CC_WRONG_MESSAGE [(str "directive", .str d), (str "other_message", .str (str "request"))]
  else W.when (info.isSome && names.count d > 1) (add.add .CC_DUP [(str "directive", .str d)])

/-- field/parsers/cache_control.py:178-198 -/
def cache_control.checkPrePost (pairs : List (Str × Val)) (add : AddNote) : W Unit :=
  let names := pairs.map (·.1)
  let d := ccDict pairs
  let hasPre := names.contains (str "pre-check")
  let hasPost := names.contains (str "post-check")
  if hasPre || hasPost then
    if !hasPre || !hasPost then add.add .CHECK_SINGLE
    else match dget d (str "pre-check"), dget d (str "post-check") with
      | some (.int pre), some (.int post) =>
        if pre = 0 ∧ post = 0 then add.add .CHECK_ALL_ZERO
        else if post > pre then add.add .CHECK_POST_BIGGER
        else if post = 0 then add.add .CHECK_POST_ZERO
        else add.add .CHECK_POST_PRE [(str "pre_check", .int pre), (str "post_check", .int post)]
      -- `None` values are skipped; the parser only stores integers under these names
      | _, _ => pure ()
  else pure ()

/-- field/parsers/cache_control.py:134-198.  Python iterates over `set(cc_list)` in an unspecified order;
the model uses first occurrences in order. -/
def cache_control.evaluate (c : Ctx) (add : AddNote) (h : Handler) : W Unit := do
  let pairs := ccPairs h.value
  let names := pairs.map (·.1)
  W.when (!c.isRequest) (match ccConflict names with
    | some (d, cs) => add.add .CC_CONFLICTING
        [(str "directive", .str d), (str "conflicts", markdownList cs (str "`"))]
    | none => pure ())
  W.forEach (dedup names) (cache_control.checkDirective c.isRequest names add)
  cache_control.checkPrePost pairs add

/-! ### structured caching fields -/

/-- the sorted type names of the items that are not strings (cache_groups.py:24-29) -/
def badTypes (items : List Val) : W (List Str) := do
  let vals ← items.mapM fun i => W.lift (i.idx 0)
  return pySorted strLe (dedup ((vals.filter (fun v => !v.isStr)).map Val.typeName))

/-- field/parsers/cache_groups.py:23-36 -/
def cache_groups.evaluate (add : AddNote) (h : Handler) : W Unit := do
  let items ← W.lift h.value.iter
  let bad ← badTypes items
  W.when (!bad.isEmpty) (add.add .CACHE_GROUPS_BAD_TYPE
    [(str "expected", .str (str "string")), (str "got", .str (join (str ", ") bad))])

/-- field/parsers/cache_group_invalidation.py:24-43 -/
def cache_group_invalidation.evaluate (c : Ctx) (add : AddNote) (h : Handler) : W Unit := do
  match c.request.bind (·.method) with
  | some m =>
    W.when ([str "GET", str "HEAD", str "OPTIONS", str "TRACE"].contains m)
      (add.add .CACHE_GROUP_INVALIDATION_IGNORED [(str "method", .str m)])
  | none => pure ()
  let items ← W.lift h.value.iter
  let bad ← badTypes items
  W.when (!bad.isEmpty) (add.add .CACHE_GROUP_INVALIDATION_BAD_TYPE
    [(str "expected", .str (str "string")), (str "got", .str (join (str ", ") bad))])

/-- cache_status.py:50-92 `KNOWN_PARAMS` -/
def cache_status.known : List KnownParam := [
  { name := str "hit", type := .bool, desc := str "The response was served from the cache." },
  { name := str "fwd", type := .token,
    values := [str "bypass", str "method", str "uri-miss", str "vary-miss", str "miss", str "request",
      str "stale", str "partial"],
    valueDesc := [
      (str "bypass", str "The cache was configured to bypass the cache."),
      (str "method", str "The request method's semantics require the request to be forwarded."),
      (str "uri-miss", str "The cache did not contain a response for the URI."),
      (str "vary-miss", str "The cache contained a response for the URI, but it could not be selected."),
      (str "miss", str "The cache did not contain a response."),
      (str "request", str "The cache was requested to forward the request."),
      (str "stale", str "The cache contained a stale response."),
      (str "partial", str "The cache contained a partial response.")] },
  { name := str "fwd-status", type := .int, desc := str "The status code of the forwarded request was %s." },
  { name := str "ttl", type := .int, desc := str "The response's remaining time-to-live was %s seconds." },
  { name := str "stored", type := .bool, desc := str "The response was stored in the cache." },
  { name := str "collapsed", type := .bool, desc := str "The request was collapsed with another request." },
  { name := str "key", type := .str, desc := str "The cache key was `%s`." },
  { name := str "detail", type := .tokenOrStr, desc := str "Additional details: %s" }]

/-- cache_status.py:34-36, proxy_status.py:32-34: `bytes.decode("ascii", "replace")` or `str(...)` -/
def targetStr (c : Ctx) (v : Val) : Except Exn Str :=
  match v with
  | .bytes b => .ok (b.map fun x => if x < 128 then x else 65533)
  | v => c.env.render.toStr v

/-- cache_status.py:30-47 and proxy_status.py:28-45, which differ only in tables and notes -/
def statusList (c : Ctx) (add : AddNote) (known : List KnownParam) (note unknown bad : NoteId)
    (h : Handler) : W Unit := do
  let items ← W.lift h.value.iter
  let l ← items.mapM fun item => do
    let (target, params) ← W.lift item.unpack2
    let t ← W.lift (targetStr c target)
    let p ← checkSfParams c.env.render known add unknown bad params
    return str "**" ++ t ++ str "**:\n" ++ p
  W.when (!l.isEmpty) (add.add note [(str "status", .str (join (str "\n\n") l))])

/-- field/parsers/cache_status.py:30-47 -/
def cache_status.evaluate (c : Ctx) (add : AddNote) (h : Handler) : W Unit :=
  statusList c add cache_status.known .CACHE_STATUS .CACHE_STATUS_UNKNOWN_PARAM .CACHE_STATUS_BAD_PARAM_VAL h

/-- field/parsers/proxy_status.py:48-110 `KNOWN_PARAMS` -/
def proxy_status.known : List KnownParam := [
  { name := str "error", type := .token, desc := str "The error was `%s`.",
    valueDesc := [
      (str "dns_timeout", str "The proxy encountered a timeout when trying to resolve the hostname."),
      (str "dns_error", str "The proxy encountered a DNS error."),
      (str "destination_not_found", str "The proxy could not determine the IP address of the next hop."),
      (str "destination_unavailable", str "The proxy could not connect to the next hop."),
      (str "destination_ip_prohibited", str "The proxy was configured to block access to the next hop IP."),
      (str "destination_ip_unroutable", str "The proxy could not route packets to the next hop IP."),
      (str "connection_refused", str "The proxy's connection to the next hop was refused."),
      (str "connection_terminated", str "The proxy's connection to the next hop was closed."),
      (str "connection_timeout", str "The proxy's connection to the next hop timed out."),
      (str "connection_read_timeout", str "The proxy encountered a timeout while waiting for data."),
      (str "connection_write_timeout", str "The proxy encountered a timeout while writing data."),
      (str "connection_limit_reached", str "The proxy reached a limit on open connections."),
      (str "tls_protocol_error", str "The proxy encountered a TLS error."),
      (str "tls_certificate_error", str "The proxy encountered a certificate error."),
      (str "tls_alert_received", str "The proxy received a TLS alert."),
      (str "http_request_error", str "The proxy encountered an error while generating the request."),
      (str "http_request_denied", str "The proxy denied the request."),
      (str "http_response_incomplete", str "The proxy received an incomplete response."),
      (str "http_response_header_section_size", str "The proxy received a header section that was too large."),
      (str "http_response_header_size", str "The proxy received a header that was too large."),
      (str "http_response_body_size", str "The proxy received a body that was too large."),
      (str "http_response_transfer_coding", str "The proxy encountered an error decoding the transfer coding."),
      (str "http_response_content_coding", str "The proxy encountered an error decoding the content coding."),
      (str "http_response_timeout", str "The proxy encountered a timeout while waiting for the response."),
      (str "http_upgrade_failed", str "The proxy failed to upgrade the connection."),
      (str "http_protocol_error", str "The proxy encountered a protocol error."),
      (str "proxy_internal_error", str "The proxy encountered an internal error."),
      (str "proxy_configuration_error", str "The proxy encountered a configuration error."),
      (str "proxy_loop_detected", str "The proxy detected a loop.")] },
  { name := str "next-hop", type := .tokenOrStr, desc := str "The next hop was `%s`." },
  { name := str "next-protocol", type := .token, desc := str "The next protocol was `%s`." },
  { name := str "received-status", type := .int, desc := str "The received status code was %s." },
  { name := str "details", type := .tokenOrStr, desc := str "Additional details: %s" }]

/-- field/parsers/proxy_status.py:28-45 -/
def proxy_status.evaluate (c : Ctx) (add : AddNote) (h : Handler) : W Unit :=
  statusList c add proxy_status.known .PROXY_STATUS .PROXY_STATUS_UNKNOWN_PARAM .PROXY_STATUS_BAD_PARAM_VAL h

/-- field/parsers/cdn_cache_control.py:30-70, one member -/
def cdn_cache_control.member (add : AddNote) (name : Str) (item : Val) : W Unit := do
  let v ← W.lift (item.idx 0)
  let d := lower name
  let bad (expected : Str) : W Unit :=
    add.add .BAD_CDN_CC_TYPE [(str "bad_directive", .str d), (str "expected_type", .str expected)]
  match ccInfo d with
  | none => pure ()
  | some info =>
    match info.conv with
    | .none => W.when (v != .bool true) (bad (str "no value"))
    | .int => W.when (!v.isInt) (bad info.expected)
    | .unquote =>
      if !v.isStr then
        if v == .bool true && [str "no-cache", str "private"].contains d then pure ()
        else bad (str "a string")
      else pure ()

/-- field/parsers/cdn_cache_control.py:27-70 -/
def cdn_cache_control.evaluate (add : AddNote) (h : Handler) : W Unit := do
  add.add .CDN_CACHE_CONTROL_PRESENT
  let items ← W.lift h.value.items
  W.forEach items fun p => cdn_cache_control.member add (p.1.text?.getD []) p.2

/-! ### dates and validators -/

/-- `int(start_time)`: truncation towards zero -/
def truncRat (q : Rat) : Int := if q ≥ 0 then q.floor else -((-q).floor)

/-- field/parsers/date.py:27-28 -/
def date.parse (env : Env) (add : AddNote) (v : Str) : W Val := do
  let n ← parseHttpDate env add v (some FieldId.date_.info.category)
  return .int n

/-- field/parsers/date.py:30-42 (the value is an integer; `age` in `headers.parsed` is an integer, `None`,
an empty list or absent).  `AGE_PENALTY`: `age_value > 5 > age_value - skew`. -/
def date.evaluate (c : Ctx) (add : AddNote) (h : Handler) : W Unit :=
  match c.isRequest, c.msg.startTime, h.value with
  | false, some t, .int d =>
    if t = 0 ∨ d = 0 then pure ()
    else
      let go (ageValue : Int) : W Unit :=
        let skew := d - truncRat t + ageValue
        if ageValue > 5 ∧ 5 > ageValue - skew then
          (add.on (str "field-date field-age")).add .AGE_PENALTY
        else if skew > 5 ∨ skew < -5 then
          add.add .DATE_INCORRECT [(str "clock_skew_string", .rel skew 0 2)]
        else add.add .DATE_CORRECT
      match dget c.msg.headers.parsed (str "age") with
      | none => go 0
      | some v => if v.truthy then match v with
          | .int a => go a
          | _ => W.throw .typeError
        else go 0
  | _, _, _ => pure ()

/-- field/parsers/expires.py:23-24 -/
def expires.parse (env : Env) (add : AddNote) (v : Str) : W Val := do
  let n ← parseHttpDate env add v (some FieldId.expires_.info.category)
  return .int n

/-- field/parsers/last_modified.py:24-25 -/
def last_modified.parse (env : Env) (add : AddNote) (v : Str) : W Val := do
  let n ← parseHttpDate env add v (some FieldId.last_modified_.info.category)
  return .int n

/-- `date_value or self.message.start_time` as a number (0 and `None` are both "not known") -/
def servDate (c : Ctx) : Except Exn (Option Rat) :=
  match dget c.msg.headers.parsed (str "date") with
  | some v =>
    if v.truthy then match v with
      | .int d => .ok (some d)
      | _ => .error .typeError
    else .ok (c.msg.startTime.bind fun t => if t = 0 then none else some t)
  | none => .ok (c.msg.startTime.bind fun t => if t = 0 then none else some t)

/-- field/parsers/last_modified.py:27-40 -/
def last_modified.evaluate (c : Ctx) (add : AddNote) (h : Handler) : W Unit :=
  match h.value with
  | .int lm =>
    if lm = 0 then pure ()
    else do
      match (← W.lift (servDate c)) with
      | none => pure ()
      | some s =>
        if (lm : Rat) > s then add.add .LM_FUTURE
        else add.add .LM_PRESENT [(str "last_modified_string", .rel lm s 1)]
  | _ => pure ()

/-- field/parsers/sunset.py:17-18 -/
def sunset.parse (env : Env) (add : AddNote) (v : Str) : W Val := do
  let n ← parseHttpDate env add v (some FieldId.sunset_.info.category)
  return .int n

/-- field/parsers/sunset.py:20-22 -/
def sunset.evaluate (c : Ctx) (add : AddNote) (h : Handler) : W Unit :=
  match c.msg.startTime, h.value with
  | some t, .int s => W.when (t != 0 && s != 0 && decide ((s : Rat) < t)) (add.add .SUNSET_PAST)
  | _, _ => pure ()

/-- `datetime.isoformat()` is a library function: `pyStr` of a date -/
def isoformat (c : Ctx) (v : Val) : Except Exn Str := c.env.render.pyStr v

/-- field/parsers/deprecation.py:25-42 -/
def deprecation.evaluate (c : Ctx) (add : AddNote) (h : Handler) : W Unit := do
  let item ← W.lift (h.value.idx 0)
  match item with
  | .date d => match c.msg.startTime with
    | some t =>
      if t = 0 then pure ()
      else do
        let iso ← W.lift (isoformat c item)
        if (d : Rat) > t then add.add .DEPRECATION_FUTURE [(str "date", .str iso)]
        else add.add .DEPRECATION_PAST [(str "date", .str iso)]
    | none => pure ()
  | .bool true => add.add .DEPRECATION_TRUE
  | .bool false => add.add .DEPRECATION_BAD_TYPE [(str "item_type", .str (str "Boolean False"))]
  | v => add.add .DEPRECATION_BAD_TYPE [(str "item_type", .str v.typeName)]

/-- field/parsers/etag.py:25-28 -/
def etag.parse (v : Str) : W Val :=
  match v with
  | 87 :: 47 :: r => pure (.tuple [.bool true, .str (unquoteString r)])
  | v => pure (.tuple [.bool false, .str (unquoteString v)])

/-- field/parsers/pragma.py:25-26 -/
def pragma.parse (v : Str) : W Val := pure (.str (lower v))

/-- field/parsers/pragma.py:28-31 -/
def pragma.evaluate (add : AddNote) (h : Handler) : W Unit := do
  let items ← W.lift h.value.iter
  W.when (items.any fun v => !Val.pyEq v (.str (str "no-cache"))) (add.add .PRAGMA_OTHER)

/-- field/parsers/vary.py:22-23 -/
def vary.parse (v : Str) : W Val := pure (.str (lower v))

/-- field/parsers/vary.py:25-38; returns the new value -/
def vary.evaluate (add : AddNote) (h : Handler) : W Val := do
  let items ← W.lift h.value.iter
  let names := items.map Val.asStr
  W.when (hasDups names) (add.add .VARY_DUPLICATE)
  let u := dedup names
  W.when (u.contains (str "*")) (add.add .VARY_ASTERISK)
  W.when (u.length > 3) (add.add .VARY_COMPLEX [(str "vary_count", .str (fNum u.length))])
  W.when (u.contains (str "user-agent")) (add.add .VARY_USER_AGENT)
  W.when (u.contains (str "host")) (add.add .VARY_HOST)
  W.when (u.contains (str "negotiate")) (add.add .VARY_NEGOTIATE)
  return .list (u.map .str)

end HL.F
