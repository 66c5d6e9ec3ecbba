import Verif.Fields.Common

/-! # Security fields -/

namespace HL.F

/-- the two class attributes of the report-only variants -/
structure ReportOnly where
  string : Str := []
  text : Str := []

/-- cross_origin_embedder_policy_report_only.py:25-26, cross_origin_opener_policy_report_only.py:25-26 -/
def coxpReportOnly : ReportOnly :=
  ⟨str " (for reporting only)", str "\n\nBrowsers will only report violations of this policy, not enforce it."⟩
/-- content_security_policy_report_only.py:20-21 -/
def cspReportOnly : ReportOnly :=
  ⟨str " for reporting only", str "\n\nBrowsers will only report violations of this policy, not enforce it."⟩

/-- cross_origin_embedder_policy.py:31-63 and cross_origin_opener_policy.py:31-63, which differ only in the
table of values -/
def tokenPolicy (add : AddNote) (ro : ReportOnly) (table : List (Str × NoteId)) (bad : NoteId) (h : Handler) :
    W Unit := do
  let v ← W.lift (h.value.idx 0)
  let badNote := add.add bad [(str "value", v), (str "report_only", .str ro.string)]
  match v with
  | .token t => match table.find? (fun p => p.1 == t) with
    | some (_, n) => add.add n [(str "report_only", .str ro.string), (str "report_only_text", .str ro.text)]
    | none => badNote
  | _ => badNote

/-- names of `Reporting-Endpoints`: `list(field.keys()) if field else []` -/
def endpointNames (c : Ctx) : Except Exn (List Val) :=
  match dget c.msg.headers.parsed (str "reporting-endpoints") with
  | none => .ok []
  | some v => if v.truthy then v.items.map (·.map (·.1)) else .ok []

/-- cross_origin_embedder_policy.py:65-84, cross_origin_opener_policy.py:65-84 -/
def tokenPolicyPostCheck (c : Ctx) (add : AddNote) (ro : ReportOnly) (missing : NoteId) (h : Handler) :
    W Unit := do
  let params ← W.lift (h.value.idx 1)
  let items ← W.lift params.items
  match (items.find? fun p => Val.pyEq p.1 (.str (str "report-to"))).map (·.2) with
  | none => pure ()
  | some rt =>
    if !rt.truthy then pure ()
    else do
      let names ← W.lift (endpointNames c)
      W.when (!names.any (Val.pyEq rt))
        (add.add missing [(str "endpoint", rt), (str "report_only", .str ro.string)])

/-- cross_origin_embedder_policy.py:34-57 -/
def coepTable : List (Str × NoteId) :=
  [(str "require-corp", .COEP_REQUIRE_CORP), (str "credentialless", .COEP_CREDENTIALLESS),
   (str "unsafe-none", .COEP_UNSAFE_NONE)]
/-- cross_origin_opener_policy.py:34-57 -/
def coopTable : List (Str × NoteId) :=
  [(str "same-origin", .COOP_SAME_ORIGIN), (str "same-origin-allow-popups", .COOP_SAME_ORIGIN_ALLOW_POPUPS),
   (str "unsafe-none", .COOP_UNSAFE_NONE)]

/-- field/parsers/cross_origin_embedder_policy.py:31-63 -/
def coep.evaluate (add : AddNote) (ro : ReportOnly) (h : Handler) : W Unit :=
  tokenPolicy add ro coepTable .CROSS_ORIGIN_EMBEDDER_POLICY_BAD_VALUE h
/-- field/parsers/cross_origin_opener_policy.py:31-63 -/
def coop.evaluate (add : AddNote) (ro : ReportOnly) (h : Handler) : W Unit :=
  tokenPolicy add ro coopTable .CROSS_ORIGIN_OPENER_POLICY_BAD_VALUE h
/-- field/parsers/cross_origin_embedder_policy_report_only.py:28-31 -/
def coepRO.evaluate (c : Ctx) (add : AddNote) (h : Handler) : W Unit := do
  W.when (dhas c.msg.headers.handlers (str "cross-origin-embedder-policy")) (add.add .COEP_REPORT_ONLY_DUPLICATE)
  coep.evaluate add coxpReportOnly h
/-- field/parsers/cross_origin_opener_policy_report_only.py:28-31 -/
def coopRO.evaluate (c : Ctx) (add : AddNote) (h : Handler) : W Unit := do
  W.when (dhas c.msg.headers.handlers (str "cross-origin-opener-policy")) (add.add .COOP_REPORT_ONLY_DUPLICATE)
  coop.evaluate add coxpReportOnly h

/-- field/parsers/cross_origin_resource_policy.py:29-37 -/
def corp.evaluate (add : AddNote) (h : Handler) : W Unit :=
  let rt : Dict Val := [(str "report_only_text", .str [])]
  if Val.pyEq h.value (.str (str "same-origin")) then add.add .CORP_SAME_ORIGIN rt
  else if Val.pyEq h.value (.str (str "same-site")) then add.add .CORP_SAME_SITE rt
  else if Val.pyEq h.value (.str (str "cross-origin")) then add.add .CORP_CROSS_ORIGIN rt
  else add.add .CROSS_ORIGIN_RESOURCE_POLICY_BAD_VALUE [(str "value", h.value)]

/-! ### Clear-Site-Data -/

/-- field/parsers/clear_site_data.py:23 -/
def csdKnown : List Str := [str "cache", str "cookies", str "storage", str "executionContexts", str "*"]

/-- field/parsers/clear_site_data.py:29-46; `aux.vals` is `_unquoted_values` -/
def clear_site_data.parse (add : AddNote) (aux : Aux) (v : Str) : Aux × W Val :=
  let quoted := v.length ≥ 2 && v.head? == some 34 && v.getLast? == some 34
  let value := if quoted then (v.drop 1).dropLast else v
  let aux := if !quoted && csdKnown.contains value then { aux with vals := aux.vals ++ [.str value] } else aux
  (aux,
    if value.isEmpty then do
      add.add .CSD_EMPTY
      return .str value
    else do
      W.when (!csdKnown.contains value) (add.add .CSD_UNKNOWN_VALUE [(str "value", .str value)])
      return .str value)

/-- field/parsers/clear_site_data.py:48-56 -/
def clear_site_data.evaluate (add : AddNote) (h : Handler) : W Unit := do
  let unq := h.aux.vals.map Val.asStr
  W.when (!unq.isEmpty) (add.add .CSD_UNQUOTED [(str "values", .str (join (str ", ") unq))])
  let items ← W.lift h.value.iter
  if items.isEmpty then add.add .CSD_EMPTY
  else
    let valid := (items.map Val.asStr).filter fun v => csdKnown.contains v && !unq.contains v
    W.when (!valid.isEmpty) (add.add .CSD_PRESENT
      [(str "values", .str (join (str ", ") (valid.map fun v => str "`" ++ v ++ str "`")))])

/-! ### Content-Security-Policy -/

/-- field/parsers/content_security_policy.py:177-179 `_make_list` -/
def csp.makeList (items : List Str) : Val :=
  .md (join [10] (items.map fun i => str "* `" ++ removeC 96 i ++ str "`"))

/-- field/parsers/content_security_policy.py:45-55: directives in order, and the repeated names -/
def csp.directives : Dict Val → List Str → List Str → Dict Val × List Str
  | d, dups, [] => (d, dups)
  | d, dups, x :: xs =>
    let x := strip x
    if x.isEmpty then csp.directives d dups xs
    else
      let (n, v) := splitWord x
      let n := lower n
      if dhas d n then csp.directives d (dups ++ [n]) xs
      else csp.directives (d ++ [(n, .str v)]) dups xs

/-- field/parsers/content_security_policy.py:40-68; `aux.kids` is `_deferred_notes` -/
def csp.parse (ro : ReportOnly) (aux : Aux) (v : Str) : Aux × W Val :=
  let (d, dups) := csp.directives [] [] (splitOn 59 v)
  let aux := if dups.isEmpty then aux else { aux with kids := aux.kids ++
    [(.CSP_DUPLICATE_DIRECTIVE, [(str "directives_list", csp.makeList dups), (str "report_only_text", .str ro.text)])] }
  (aux, pure (Val.ofDict d))

/-- all `(name, value)` directives of all policies, in order -/
def csp.all (v : Val) : List (Str × Str) :=
  match v with
  | .list ps => ps.flatMap fun p => p.entries.map fun e => (e.1, e.2.asStr)
  | _ => []

/-- field/parsers/content_security_policy.py:83-136: the children, after the deferred ones -/
def csp.children (ro : ReportOnly) (ds : List (Str × Str)) : List (NoteId × Dict Val) :=
  let rt := (str "report_only_text", Val.str ro.text)
  let sel (p : Str × Str → Bool) : List Str := (ds.filter p).map (·.1)
  let wide := sel fun (n, v) => [str "script-src", str "style-src", str "object-src"].contains n &&
    (words v).contains (str "*")
  let inl := sel fun (_, v) => isSub (str "'unsafe-inline'") v
  let evl := sel fun (_, v) => isSub (str "'unsafe-eval'") v
  let http := sel fun (_, v) => (isSub (str "http:") v || isSub (str "http://") v) &&
    (words v).contains (str "http:")
  let withList (n : NoteId) (l : List Str) : List (NoteId × Dict Val) :=
    if l.isEmpty then [] else [(n, [(str "directives_list", csp.makeList l), rt])]
  (if ds.any (fun p => p.1 == str "report-uri") then [(.CSP_DEPRECATED_REPORT_URI, [rt])] else []) ++
  withList .CSP_WIDE_OPEN wide ++ withList .CSP_UNSAFE_INLINE inl ++ withList .CSP_UNSAFE_EVAL evl ++
  withList .CSP_HTTP_URI http

/-- field/parsers/content_security_policy.py:70-136 -/
def csp.evaluate (add : AddNote) (ro : ReportOnly) (h : Handler) : W Unit :=
  if !h.value.truthy then pure ()
  else add.addWith .CONTENT_SECURITY_POLICY
    [(str "report_only", .str ro.string), (str "report_only_text", .str ro.text)] none
    (h.aux.kids ++ csp.children ro (csp.all h.value))

/-- field/parsers/content_security_policy.py:149-154: the `report-to` values that name no endpoint -/
def csp.missingEndpoints (c : Ctx) (h : Handler) : Except Exn (List Str) :=
  (endpointNames c).map fun names =>
    ((csp.all h.value).filter fun (n, v) => n == str "report-to" && !names.any (Val.pyEq (.str v))).map (·.2)

/-- add a child to the first note of class `CONTENT_SECURITY_POLICY` (content_security_policy.py:157-168) -/
def addToFirstCsp (kid : NoteId × Dict Val) : List Note → Option (List Note)
  | [] => none
  | n :: ns =>
    if n.cls = .CONTENT_SECURITY_POLICY then some (n.addChild kid.1 kid.2 :: ns)
    else (addToFirstCsp kid ns).map (n :: ·)

/-- field/parsers/content_security_policy.py:138-175, on the whole list of notes -/
def csp.postCheck (c : Ctx) (add : AddNote) (ro : ReportOnly) (h : Handler) (notes : List Note) :
    List Note × Except Exn Unit :=
  if !h.value.truthy then (notes, .ok ())
  else match csp.missingEndpoints c h with
    | .error e => (notes, .error e)
    | .ok missing =>
      (missing.foldl (fun ns e =>
        let vars : Dict Val := [(str "endpoint", .str e), (str "report_only_text", .str ro.text)]
        match addToFirstCsp (.CSP_REPORT_TO_MISSING, vars) ns with
        | some ns' => ns'
        | none => ns ++ [add.mk1 .CSP_REPORT_TO_MISSING vars]) notes, .ok ())

/-! ### Permissions-Policy -/

/-- field/parsers/permissions_policy.py:127-138 -/
def sensitiveFeatures : List Str :=
  [str "camera", str "microphone", str "geolocation", str "payment", str "usb", str "serial",
   str "magnetometer", str "accelerometer", str "gyroscope", str "screen-wake-lock"]

/-- field/parsers/permissions_policy.py:32-55: an item of an inner list -/
def permissions_policy.item (c : Ctx) (feature : Val) (item : Val) : Except Exn (List (NoteId × Dict Val)) :=
  if !item.isTuple then .ok []
  else do
    let (v, _) ← item.unpack2
    match v with
    | .token t =>
      if [str "self", str "src"].contains t then return []
      else return [(.PERMISSIONS_POLICY_UNKNOWN_TOKEN, [(str "token", .str t), (str "feature", feature)])]
    | .str s =>
      if [str "self", str "src", str "*", str "none"].contains s then
        return [(.PERMISSIONS_POLICY_QUOTED_KEYWORD, [(str "value", .str s), (str "feature", feature)])]
      else return []
    | v => do
      let s ← c.env.render.toStr v
      return [(.PERMISSIONS_POLICY_INVALID_ITEM_TYPE, [(str "item", .str s), (str "feature", feature)])]

/-- field/parsers/permissions_policy.py:29-71: one feature -/
def permissions_policy.feature (c : Ctx) (feature allow : Val) : Except Exn (List (NoteId × Dict Val)) := do
  let (v, _) ← allow.unpack2
  let invalid : List (NoteId × Dict Val) := [(.PERMISSIONS_POLICY_INVALID_VALUE, [(str "feature", feature)])]
  let kids ← match v with
    | .list items => do
      let l ← items.mapM (permissions_policy.item c feature)
      pure l.flatten
    | .token t => pure (if t = str "*" then [] else invalid)
    | _ => pure invalid
  let wild : List (NoteId × Dict Val) :=
    if sensitiveFeatures.any (fun f => Val.pyEq feature (.str f)) && v == .token (str "*") then
      [(.PERMISSIONS_POLICY_WILDCARD, [(str "feature", feature)])] else []
  return kids ++ wild

/-- run the features in order; on an exception, the children added so far -/
def permissions_policy.features (c : Ctx) : List (Val × Val) → List (NoteId × Dict Val) × Option Exn
  | [] => ([], none)
  | p :: ps => match permissions_policy.feature c p.1 p.2 with
    | .error e => ([], some e)
    | .ok l => let r := permissions_policy.features c ps; (l ++ r.1, r.2)

/-- field/parsers/permissions_policy.py:25-71.  (An exception while one feature is examined leaves that
feature's earlier children behind in Python, not here; `http_sf` values never raise there.) -/
def permissions_policy.evaluate (c : Ctx) (add : AddNote) (h : Handler) : W Unit :=
  if !h.value.truthy then pure ()
  else match h.value.items with
    | .error e => do
      add.add .PERMISSIONS_POLICY_PRESENT
      W.throw e
    | .ok items =>
      let (kids, err) := permissions_policy.features c items
      do
        add.addWith .PERMISSIONS_POLICY_PRESENT [] none kids
        match err with
        | some e => W.throw e
        | none => pure ()

/-! ### Referer, Referrer-Policy -/

/-- field/parsers/referer.py:22-46.  `urlparse` agrees with `urlsplit` on scheme and netloc. -/
def referer.evaluate (c : Ctx) (add : AddNote) (h : Handler) : W Unit :=
  match c.isRequest, h.value, c.msg.uri with
  | true, .str r, some u =>
    if r.isEmpty || u.isEmpty then pure ()
    else match c.env.urlsplit r, c.env.urlsplit u with
      | .ok pr, .ok pu =>
        if [str "https", str "wss"].contains (lower pr.scheme) then do
          W.when ([str "http", str "ws"].contains (lower pu.scheme)) (add.add .REFERER_SECURE_TO_INSECURE)
          W.when (pr.scheme != pu.scheme || pr.netloc != pu.netloc)
            (add.add .REFERER_SECURE_TO_DIFFERENT_ORIGIN)
        else pure ()
      | .error .valueError, _ => pure ()
      | .error e, _ => W.throw e
      | .ok _, .error .valueError => pure ()
      | .ok _, .error e => W.throw e
  | _, _, _ => pure ()

/-- field/parsers/referrer_policy.py:98-107 -/
def validReferrerPolicies : List Str :=
  [str "no-referrer", str "no-referrer-when-downgrade", str "same-origin", str "origin", str "strict-origin",
   str "origin-when-cross-origin", str "strict-origin-when-cross-origin", str "unsafe-url"]
/-- field/parsers/referrer_policy.py:90-95 -/
def strictReferrerPolicies : List Str :=
  [str "no-referrer", str "same-origin", str "strict-origin", str "strict-origin-when-cross-origin"]

/-- field/parsers/referrer_policy.py:21-40 -/
def referrer_policy.evaluate (add : AddNote) (h : Handler) : W Unit := do
  let items ← W.lift h.value.iter
  let toks := items.map Val.asStr
  W.forEach toks fun t =>
    W.when (!validReferrerPolicies.contains t) (add.add .REFERRER_POLICY_UNKNOWN [(str "policy", .str t)])
  let valid := toks.filter validReferrerPolicies.contains
  match valid.getLast? with
  | none => add.add .REFERRER_POLICY_EMPTY
  | some eff => do
    W.when (valid.length > 1) (add.add .REFERRER_POLICY_MULTIPLE [(str "effective", .str eff)])
    if eff = str "unsafe-url" then add.add .REFERRER_POLICY_UNSAFE
    else W.when (strictReferrerPolicies.contains eff) (add.add .REFERRER_POLICY_STRICT [(str "policy", .str eff)])

/-! ### Strict-Transport-Security -/

/-- the parsed value: `{"max-age": ..., "includesubdomains": ..., "preload": ...}` -/
structure Hsts where
  maxAge : Option Int := none
  subdomains : Bool := false
  preload : Bool := false
  deriving DecidableEq, Repr

/-- as a `dict` value -/
def Hsts.toVal (x : Hsts) : Val := Val.ofDict
  [(str "max-age", match x.maxAge with | some n => .int n | none => .none),
   (str "includesubdomains", .bool x.subdomains), (str "preload", .bool x.preload)]

/-- back from the `dict` (strict_transport_security.py:90: `parsed = self.value`) -/
def Hsts.ofVal (v : Val) : Hsts :=
  { maxAge := match v.get (str "max-age") with | some (.int n) => some n | _ => none
    subdomains := v.get (str "includesubdomains") == some (.bool true)
    preload := v.get (str "preload") == some (.bool true) }

/-- field/parsers/strict_transport_security.py:46-75: one directive that has not been seen before -/
def hsts.directive (x : Hsts) (name : Str) (value : Option Str) : Hsts × List (NoteId × Dict Val) :=
  let notAllowed (d : Str) : List (NoteId × Dict Val) :=
    if value.isSome then [(.HSTS_VALUE_NOT_ALLOWED, [(str "directive", .str d)])] else []
  if name = str "max-age" then
    match value.bind pyInt with
    | some n => ({ x with maxAge := some n }, [])
    | none => (x, [(.HSTS_BAD_MAX_AGE, [(str "max_age", .str (value.getD (str "None")))])])
  else if name = str "includesubdomains" then ({ x with subdomains := true }, notAllowed (str "includeSubDomains"))
  else if name = str "preload" then ({ x with preload := true }, notAllowed (str "preload"))
  else (x, [])

/-- field/parsers/strict_transport_security.py:44-75: the loop; `seen` is `seen_directives` -/
def hsts.loop : Hsts → List Str → List (NoteId × Dict Val) → List Str → Hsts × List (NoteId × Dict Val)
  | x, _, kids, [] => (x, kids)
  | x, seen, kids, d :: ds =>
    let (n, v) : Str × Option Str := match split1 61 d with
      | some (a, b) => (lower (strip a), some (strip b))
      | none => (lower (strip d), none)
    if seen.contains n then
      hsts.loop x seen (kids ++ [(.HSTS_DUPLICATE_DIRECTIVE, [(str "directive", .str n)])]) ds
    else
      let r := hsts.directive x n v
      hsts.loop r.1 (seen ++ [n]) (kids ++ r.2) ds

/-- field/parsers/strict_transport_security.py:33-77; `aux.kids` is `_deferred_notes` -/
def hsts.parse (aux : Aux) (v : Str) : Aux × W Val :=
  let ds := (splitOn 59 v).map strip
  let trailing := ds.getLast? = some []
  let kids := aux.kids ++ (if trailing then [(.HSTS_TRAILING_SEMICOLON, [])] else [])
  let r := hsts.loop {} [] kids (if trailing then ds.dropLast else ds)
  ({ aux with kids := r.2 }, pure r.1.toVal)

/-- field/parsers/strict_transport_security.py:126-130 -/
def hstsInvalidating : List NoteId := [.HSTS_DUPLICATE_DIRECTIVE, .HSTS_BAD_MAX_AGE, .HSTS_VALUE_NOT_ALLOWED]

/-- field/parsers/strict_transport_security.py:119-123 -/
def hsts.overHttp (c : Ctx) : Bool :=
  startsWith (str "http:") c.msg.baseUri && !c.isRequest && c.msg.statusCode != some 301

/-- field/parsers/strict_transport_security.py:92-124 `notes_to_add` -/
def hsts.notesToAdd (c : Ctx) (x : Hsts) (kids : List (NoteId × Dict Val)) : List NoteId :=
  [if x.preload then
    (if x.subdomains && (match x.maxAge with | some n => decide (n ≥ 1536000) | none => false)
      then .HSTS_PRELOAD else .HSTS_PRELOAD_NOT_SUITABLE)
   else .HSTS_NO_PRELOAD] ++
  (match x.maxAge with
   | none => if kids.any (fun k => k.1 == .HSTS_BAD_MAX_AGE) then [] else [.HSTS_NO_MAX_AGE]
   | some n => if n = 0 then [.HSTS_MAX_AGE_ZERO] else if n < 1536000 then [.HSTS_SHORT_MAX_AGE] else []) ++
  [if x.subdomains then .HSTS_SUBDOMAINS else .HSTS_NO_SUBDOMAINS] ++
  (if hsts.overHttp c then [.HSTS_OVER_HTTP] else [])

/-- field/parsers/strict_transport_security.py:84-140 `is_valid`; `self.message.notes` is the list at the time
`finish` starts (the notes `finish` itself adds before are of other classes) -/
def hsts.isValid (c : Ctx) (x : Hsts) (kids : List (NoteId × Dict Val)) : Bool :=
  x.maxAge.isSome && !hsts.overHttp c && !kids.any (fun k => hstsInvalidating.contains k.1) &&
    !c.msg.notes.any (fun n => hstsInvalidating.contains n.cls)

/-- field/parsers/strict_transport_security.py:79-151 -/
def hsts.evaluate (c : Ctx) (add : AddNote) (h : Handler) : W Unit :=
  if !h.value.truthy then pure ()
  else
    let x := Hsts.ofVal h.value
    add.addWith (if hsts.isValid c x h.aux.kids then .HSTS_VALID else .HSTS_INVALID) [] none
      (h.aux.kids ++ (hsts.notesToAdd c x h.aux.kids).map fun n => (n, []))

/-! ### X-* -/

/-- field/parsers/x_content_type_options.py:17-21 -/
def x_content_type_options.evaluate (add : AddNote) (h : Handler) : W Unit := do
  let has ← W.lift (h.value.contains (.str (str "nosniff")))
  if has then add.add .CONTENT_TYPE_OPTIONS else add.add .CONTENT_TYPE_OPTIONS_UNKNOWN

/-- `str.upper()` on Latin-1 text.  `ß`, `µ` and `ÿ` upper-case outside Latin-1 (`SS`, `Μ`, `Ÿ`). -/
def upper (s : Str) : Str := s.flatMap fun c =>
  if 97 ≤ c && c ≤ 122 then [c - 32]
  else if c == 223 then [83, 83]
  else if c == 181 then [924]
  else if c == 255 then [376]
  else if 224 ≤ c && c ≤ 254 && c != 247 then [c - 32]
  else [c]

/-- field/parsers/x_frame_options.py:37-38 -/
def x_frame_options.parse (v : Str) : W Val := pure (.str (upper v))

/-- field/parsers/x_frame_options.py:40-46: substring tests -/
def x_frame_options.evaluate (add : AddNote) (h : Handler) : W Unit := do
  let deny ← W.lift (h.value.contains (.str (str "DENY")))
  let same ← W.lift (h.value.contains (.str (str "SAMEORIGIN")))
  if deny then add.add .FRAME_OPTIONS_DENY
  else if same then add.add .FRAME_OPTIONS_SAMEORIGIN
  else add.add .FRAME_OPTIONS_UNKNOWN

end HL.F
