import Verif.Fields.Common

/-! # Reporting fields: NEL, Report-To, Reporting-Endpoints, Speculation-Rules -/

namespace HL.F

/-- the value of an `int`, `bool` or `float` -/
def numVal : Val → Option Rat
  | .int i => some i
  | .bool b => some (if b then 1 else 0)
  | .num q => some q
  | _ => none

/-- is `url`'s scheme, resolved against the base URI, present and not `https`/`wss`?  `urljoin` and `urlsplit`
may raise. -/
def insecureScheme (c : Ctx) (url : Str) : Except Exn Bool := do
  let target ← c.env.urljoin c.msg.baseUri url
  let u ← c.env.urlsplit target
  let s := lower u.scheme
  return !s.isEmpty && !([str "https", str "wss"].contains s)

/-! ### Reporting-Endpoints -/

/-- field/parsers/reporting_endpoints.py:25-41 -/
def reporting_endpoints.evaluate (c : Ctx) (add : AddNote) (h : Handler) : W Unit := do
  let items ← W.lift h.value.items
  W.forEach items fun (name, item) => do
    let url ← W.lift (item.idx 0)
    match url with
    | .str s | .md s => do
      let bad ← W.lift (insecureScheme c s)
      W.when bad (add.add .ENDPOINT_NOT_SECURE [(str "name", name), (str "url", url)])
    | _ =>
      add.add .BAD_REPORTING_ENDPOINT_SYNTAX
        [(str "name", name), (str "value", url), (str "found_type", .str url.typeName)]

/-- field/parsers/speculation_rules.py:27-41 -/
def speculation_rules.evaluate (c : Ctx) (add : AddNote) (h : Handler) : W Unit := do
  let items ← W.lift h.value.iter
  W.forEach items fun item => do
    let url ← W.lift (item.idx 0)
    match url with
    | .str s | .md s => do
      let bad ← W.lift (insecureScheme c s)
      W.when bad (add.add .SPECULATION_RULE_NOT_SECURE [(str "url", url)])
    | _ => add.add .SPECULATION_RULES_BAD_TYPE [(str "value", url), (str "found_type", .str url.typeName)]

/-! ### NEL -/

/-- one required or optional member of a NEL policy: the notes, and whether it is clean -/
def nel.member (add : AddNote) (policy : Val) (key : Str) (required : Bool) (ok : Val → Bool)
    (expected : Str) : W Bool :=
  match policy.get key with
  | none =>
    if required then do
      add.add .NEL_MISSING_KEY [(str "key", .str key)]
      return false
    else return true
  | some v =>
    if ok v then return true
    else do
      add.add .NEL_BAD_TYPE [(str "key", .str key), (str "expected", .str expected)]
      return false

/-- field/parsers/nel.py:80-102: a fraction -/
def nel.fraction (add : AddNote) (policy : Val) (key : Str) (details : Str) : W Bool :=
  match policy.get key with
  | none => return true
  | some v => match numVal v with
    | none => do
      add.add .NEL_BAD_TYPE [(str "key", .str key), (str "expected", .str (str "number"))]
      return false
    | some q =>
      if 0 ≤ q ∧ q ≤ 1 then return true
      else do
        add.add .NEL_BAD_VALUE [(str "key", .str key), (str "details", .str details)]
        return false

/-- field/parsers/nel.py:48-104, one policy: whether it is clean -/
def nel.policy (add : AddNote) (policy : Val) : W Bool :=
  if !policy.isDict then do
    add.add .NEL_BAD_STRUCTURE
    return false
  else do
    let a ← nel.member add policy (str "report_to") true Val.isStr (str "string")
    let b ← nel.member add policy (str "max_age") true Val.isInt (str "integer")
    let d ← nel.member add policy (str "include_subdomains") false Val.isBool (str "boolean")
    let e ← nel.fraction add policy (str "success_fraction") (str "itmust be between 0.0 and 1.0")
    let f ← nel.fraction add policy (str "failure_fraction") (str "it must be between 0.0 and 1.0")
    return a && b && d && e && f

/-- field/parsers/nel.py:42-104; returns the new `_clean_policies` entries -/
def nel.evaluate (add : AddNote) (h : Handler) : W (List Val) := do
  let items ← W.lift h.value.iter
  items.mapM fun p => do
    let clean ← nel.policy add p
    return .bool clean

/-- field/parsers/nel.py:15-27 `_valid_reporting_endpoints` -/
def validEndpoints (c : Ctx) (items : List (Val × Val)) : Except Exn (List Val) := do
  let r ← items.mapM fun (name, item) => do
    let url ← item.idx 0
    match url with
    | .str s | .md s => do
      let bad ← insecureScheme c s
      return if bad then [] else [name]
    | _ => return []
  return r.flatten

/-- field/parsers/nel.py:106-136 -/
def nel.postCheck (c : Ctx) (add : AddNote) (h : Handler) : W Unit :=
  if !h.value.truthy then pure ()
  else do
    let re : Val := (dget c.msg.headers.parsed (str "reporting-endpoints")).getD .none
    let items ← W.lift (if re.truthy then re.items else .ok [])
    let known := items.map (·.1)
    let valid ← W.lift (validEndpoints c items)
    let policies ← W.lift h.value.iter
    let resolved ← policies.zipIdx.mapM fun (policy, idx) =>
      if !policy.isDict then pure []
      else match policy.get (str "report_to") with
        | some (.str (ch :: r)) =>
          let rt : Val := .str (ch :: r)
          if !known.any (Val.pyEq rt) then do
            add.add .NEL_REPORT_TO_MISSING [(str "key", .str (str "report_to")), (str "value", rt)]
            return []
          else if valid.any (Val.pyEq rt) then
            match h.aux.vals[idx]? with
            | some v => return if v.truthy then [ch :: r] else []
            | none => W.throw .indexError
          else return []
        | _ => pure []
    let resolved := resolved.flatten
    W.when (!resolved.isEmpty) (add.add .NEL_CONFIGURED
      [(str "endpoints", .str (join (str ", ") (resolved.map fun e => [96] ++ e ++ [96])))])

/-! ### Report-To -/

/-- field/parsers/report_to.py:37-47: one endpoint -/
def report_to.endpoint (add : AddNote) (e : Val) : W Unit :=
  if !e.isDict then
    add.add .REPORT_TO_BAD_STRUCTURE [(str "details", .str (str "Endpoints must be objects."))]
  else match e.get (str "url") with
    | none => add.add .REPORT_TO_MISSING_KEY [(str "key", .str (str "endpoints[].url"))]
    | some v => W.when (!v.isStr) (add.add .REPORT_TO_BAD_TYPE
        [(str "key", .str (str "endpoints[].url")), (str "expected", .str (str "string"))])

/-- field/parsers/report_to.py:16-47 -/
def report_to.evaluate (add : AddNote) (h : Handler) : W Unit := do
  let items ← W.lift h.value.iter
  W.forEach items fun group =>
    if !group.isDict then add.add .REPORT_TO_BAD_STRUCTURE
    else do
      match group.get (str "max_age") with
      | none => add.add .REPORT_TO_MISSING_KEY [(str "key", .str (str "max_age"))]
      | some v => W.when (!v.isInt) (add.add .REPORT_TO_BAD_TYPE
          [(str "key", .str (str "max_age")), (str "expected", .str (str "integer"))])
      match group.get (str "endpoints") with
      | none => add.add .REPORT_TO_MISSING_KEY [(str "key", .str (str "endpoints"))]
      | some (.list es) => W.forEach es (report_to.endpoint add)
      | some _ =>
        add.add .REPORT_TO_BAD_TYPE
          [(str "key", .str (str "endpoints")), (str "expected", .str (str "list"))]

end HL.F
