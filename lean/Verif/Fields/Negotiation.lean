import Verif.Fields.Common

/-! # Content negotiation, ranges, content and framing fields -/

namespace HL.F

/-- `AcceptValue(media_type, parameters, q)` as a tuple -/
def acceptValue (m : Str) (d : Dict Val) (q : Option Rat) : Val :=
  .tuple [.str m, Val.ofDict d, match q with | some q => .num q | none => .none]

/-- field/parsers/accept.py:35-60 -/
def accept.parse (env : Env) (add : AddNote) (v : Str) : W Val := do
  let (m, d) ← parseMediaType env add v (some .ACCEPT_BAD_SYNTAX) (some FieldId.accept_.info.reference)
    (allowWildcard := true) (nostar := .names [str "q"])
  match dget d (str "q") with
  | none => return acceptValue m d none
  | some qv => match qValue qv with
    | some q => return acceptValue m (derase d (str "q")) (some q)
    | none => do
      add.add .BAD_Q_VALUE_accept [(str "media_type", .str m)]
      return acceptValue m (derase d (str "q")) none

/-- field/parsers/accept_language.py:33-61 -/
def accept_language.parse (env : Env) (add : AddNote) (v : Str) : W Val := do
  let (l, ps) := splitSemi v
  let lang := lower l
  let d ← parseParams env add ps (.names [str "q"])
  let q ← match dget d (str "q") with
    | none => pure none
    | some qv => match qValue qv with
      | some q => pure (some q)
      | none => do
        add.add .BAD_Q_VALUE_accept_language [(str "language", .str lang)]
        pure none
  W.when (!(derase d (str "q")).isEmpty)
    (add.add .ACCEPT_LANGUAGE_BAD_SYNTAX [(str "ref_uri", FieldId.accept_language_.ref)])
  return .tuple [.str lang, match q with | some q => .num q | none => .none]

/-- field/parsers/accept_encoding.py:25-32, te.py:24-31 (the same code) -/
def codingParse (env : Env) (add : AddNote) (v : Str) : W Val := do
  let (e, ps) := splitSemi v
  let d ← parseParams env add ps (.names [str "q"])
  return .tuple [.str (lower e), Val.ofDict d]

/-- `(media_type, params)` -/
def mediaPair (p : Str × Dict Val) : Val := .tuple [.str p.1, Val.ofDict p.2]

/-- field/parsers/accept_patch.py:27-28 -/
def accept_patch.parse (env : Env) (add : AddNote) (v : Str) : W Val := do
  let p ← parseMediaType env add v (some .ACCEPT_PATCH_BAD_SYNTAX) (some FieldId.accept_patch_.info.reference)
  return mediaPair p

/-- field/parsers/accept_post.py:28-35 -/
def accept_post.parse (env : Env) (add : AddNote) (v : Str) : W Val := do
  let p ← parseMediaType env add v (some .ACCEPT_POST_BAD_SYNTAX) (some FieldId.accept_post_.info.reference)
    (allowWildcard := true)
  return mediaPair p

/-- field/parsers/content_type.py:29-30 -/
def content_type.parse (env : Env) (add : AddNote) (v : Str) : W Val := do
  let p ← parseMediaType env add v (nostar := .names [str "charset"])
  return mediaPair p

/-- field/parsers/accept_query.py:31-51, one item; returns the normalised item -/
def accept_query.item (c : Ctx) (add : AddNote) (item : Val) : W Val := do
  let (val, params) ← W.lift item.unpack2
  let range (s : Str) : W Unit := checkMediaType add (lower s) (some .ACCEPT_QUERY_BAD_SYNTAX)
    (some FieldId.accept_query_.info.reference) (allowWildcard := true) (checkToken := true)
  match val with
  | .token s => do range s; return .tuple [.token (lower s), params]
  | .str s => do range s; return .tuple [.str (lower s), params]
  | v => do
    let s ← W.lift (c.env.render.toStr v)
    add.add .ACCEPT_QUERY_BAD_TYPE [(str "value", .str s)]
    return item

/-- field/parsers/accept_query.py:29-52; returns the new value -/
def accept_query.evaluate (c : Ctx) (add : AddNote) (h : Handler) : W Val := do
  let items ← W.lift h.value.iter
  let l ← items.mapM (accept_query.item c add)
  return .list l

/-- field/parsers/accept_ranges.py:22-26 -/
def accept_ranges.parse (add : AddNote) (v : Str) : W Val := do
  let v := lower v
  W.when (![str "bytes", str "none"].contains v) (add.add .UNKNOWN_RANGE [(str "range", .str v)])
  return .str v

/-- a `str.lower()` parse: access_control_allow_headers.py:23, access_control_request_headers.py:24,
content_language.py:22, referrer_policy.py:18 -/
def lowerParse (v : Str) : W Val := pure (.str (lower v))

/-- field/parsers/accept_ch.py:30-38: stops at the first item that is not a Token -/
def accept_ch.evaluate (add : AddNote) (h : Handler) : W Unit := do
  let items ← W.lift h.value.iter
  let rec go : List Val → W Unit
    | [] => pure ()
    | i :: is => do
      let v ← W.lift (i.idx 0)
      if v.isToken then go is
      else add.add .ACCEPT_CH_BAD_TYPE [(str "ref_uri", FieldId.accept_ch_.ref)]
  go items

/-- the names in `items` (first components) that are not in `vary` (accept_ch.py:53-58) -/
def accept_ch.missing (c : Ctx) (vary : Val) : List Val → W (List Str)
  | [] => pure []
  | i :: is => do
    let f ← W.lift (i.idx 0)
    let present ← W.lift (vary.contains f)
    let s ← if present then pure [] else do
      let t ← W.lift (c.env.render.toStr f)
      pure [t]
    let r ← accept_ch.missing c vary is
    return s ++ r

/-- `self.message.caching.store_shared or store_private`, when there is a `caching` attribute -/
def storable (c : Ctx) : Bool := match c.msg.caching with
  | some k => k.storeShared || k.storePrivate
  | none => false

/-- field/parsers/accept_ch.py:40-64 -/
def accept_ch.postCheck (c : Ctx) (add : AddNote) (h : Handler) : W Unit := do
  match c.request.bind (·.uri) with
  | some u => W.when (startsWith (str "http:") (lower u)) (add.add .ACCEPT_CH_IN_PLAIN_HTTP)
  | none => pure ()
  if storable c then do
    let vary := (dget c.msg.headers.parsed (str "vary")).getD (.list [])
    let items ← W.lift h.value.iter
    let missing ← accept_ch.missing c vary items
    W.when (!missing.isEmpty)
      (add.add .ACCEPT_CH_MISSING_VARY [(str "missing_fields", .str (join (str ", ") missing))])
  else pure ()

/-- field/parsers/available_dictionary.py:26-29 -/
def available_dictionary.evaluate (add : AddNote) (h : Handler) : W Unit := do
  let v ← W.lift (h.value.idx 0)
  match v with
  | .bytes _ => pure ()
  | v => add.add .AVAILABLE_DICTIONARY_BAD_TYPE [(str "got", .str v.typeName)]

/-- field/parsers/available_dictionary.py:36-40: the loop stops at the first match -/
def available_dictionary.hasSupport : List Val → Except Exn Bool
  | [] => .ok false
  | v :: vs => match v.unpack2 with
    | .error e => .error e
    | .ok (enc, _) =>
      if Val.pyEq enc (.str (str "dcb")) || Val.pyEq enc (.str (str "dcz")) then .ok true
      else available_dictionary.hasSupport vs

/-- field/parsers/available_dictionary.py:31-42 -/
def available_dictionary.postCheck (c : Ctx) (add : AddNote) : W Unit :=
  if !c.isRequest then pure ()
  else do
    let ae := (dget c.msg.headers.parsed (str "accept-encoding")).getD (.list [])
    let items ← W.lift ae.iter
    let ok ← W.lift (available_dictionary.hasSupport items)
    W.when (!ok) (add.add .AVAILABLE_DICTIONARY_MISSING_AE)

/-- field/parsers/use_as_dictionary.py:50-75 `_check_value_type` -/
def use_as_dictionary.checkType (add : AddNote) (val : Val) (isT : Val → Bool) (tname : Str) : W Unit :=
  if val.isList then
    add.add .USE_AS_DICTIONARY_BAD_TYPE [(str "param", val), (str "expected", .str tname),
      (str "got", .str (str "Inner List"))]
  else do
    let v ← W.lift (val.idx 0)
    W.when (!isT v) (add.add .USE_AS_DICTIONARY_BAD_TYPE [(str "param", v), (str "expected", .str tname),
      (str "got", .str v.typeName)])

/-- `all(isinstance(i, tuple) and isinstance(i[0], str) for i in l)` -/
def use_as_dictionary.allStr : List Val → Except Exn Bool
  | [] => .ok true
  | i :: is =>
    if !i.isTuple then .ok false
    else match i.idx 0 with
      | .error e => .error e
      | .ok v => if v.isStr then use_as_dictionary.allStr is else .ok false

/-- field/parsers/use_as_dictionary.py:27-48, one member -/
def use_as_dictionary.member (add : AddNote) (key : Str) (val : Val) : W Unit :=
  if key = str "match" ∨ key = str "id" ∨ key = str "type" then
    use_as_dictionary.checkType add val Val.isStr (str "str")
  else if key = str "match-dest" then do
    let v ← W.lift (val.idx 0)
    let valid ← if v.isStr then pure true else match v with
      | .list l => W.lift (use_as_dictionary.allStr l)
      | _ => pure false
    W.when (!valid) (add.add .USE_AS_DICTIONARY_BAD_MATCH_DEST [(str "got", .str v.typeName)])
  else if key = str "ttl" then use_as_dictionary.checkType add val Val.isInt (str "int")
  else pure ()

/-- field/parsers/use_as_dictionary.py:26-48 -/
def use_as_dictionary.evaluate (add : AddNote) (h : Handler) : W Unit := do
  let items ← W.lift h.value.items
  W.forEach items fun p => use_as_dictionary.member add (p.1.text?.getD []) p.2

/-! ### Content-* -/

/-- field/parsers/content_disposition.py:27-44.  `r"\\"` is a raw string: two backslashes. -/
def content_disposition.parse (env : Env) (add : AddNote) (v : Str) : W Val := do
  let (disp, ps) := splitSemi v
  let disp := lower disp
  let d ← parseParams env add ps
  W.when (![str "inline", str "attachment"].contains disp)
    (add.add .DISPOSITION_UNKNOWN [(str "disposition", .str disp)])
  W.when (disp == str "attachment" && !dhas d (str "filename")) (add.add .DISPOSITION_OMITS_FILENAME)
  let filename := ((dget d (str "filename")).getD .none).asStr
  let filenameStar := ((dget d (str "filename*")).getD .none).asStr
  W.when (filename.contains 37) (add.add .DISPOSITION_FILENAME_PERCENT)
  W.when (filename.contains 47 || isSub [92, 92] filenameStar)
    (add.add .DISPOSITION_FILENAME_PATH_CHAR)
  return .tuple [.str disp, Val.ofDict d]

/-- field/parsers/content_encoding.py:31-44.  The related message of a response is taken to be a
request linter (`response.request.message_type == "request"` is then true). -/
def content_encoding.parse (c : Ctx) (add : AddNote) (v : Str) : W Val := do
  match c.isRequest, c.request with
  | false, some req =>
    if req.kind = .request then do
      let ae := (dget req.headers.parsed (str "accept-encoding")).getD (.list [])
      let items ← W.lift ae.iter
      let names ← items.mapM fun a => W.lift (a.idx 0)
      W.when (!names.any (Val.pyEq (.str (lower v)))) (add.add .ENCODING_UNWANTED [(str "coding", .str v)])
    else pure ()
  | _, _ => pure ()
  return .str (lower v)

/-- field/parsers/content_encoding.py:46-57 -/
def content_encoding.postCheck (c : Ctx) (add : AddNote) : W Unit :=
  if c.isRequest then pure ()
  else do
    let ce := (dget c.msg.headers.parsed (str "content-encoding")).getD (.list [])
    let items ← W.lift ce.iter
    if items.any (fun e => Val.pyEq e (.str (str "dcb")) || Val.pyEq e (.str (str "dcz"))) && storable c then do
      let vary := (dget c.msg.headers.parsed (str "vary")).getD (.set [])
      let present ← W.lift (vary.contains (.str (str "available-dictionary")))
      W.when (!present) (add.add .DICTIONARY_COMPRESSED_MISSING_VARY)
    else pure ()

/-- field/parsers/content_language.py:25-35; the order over the set `duplicates` is unspecified -/
def content_language.evaluate (add : AddNote) (h : Handler) : W Unit := do
  let items ← W.lift h.value.iter
  W.forEach (duplicatesOf (items.map Val.asStr)) fun l =>
    add.add .CONTENT_LANGUAGE_DUP [(str "lang", .str l)]

/-- field/parsers/content_length.py:27-35 -/
def content_length.parse (add : AddNote) (v : Str) : W Val :=
  match pyInt v with
  | none => do
    add.add .CL_BAD_SYNTAX
    W.throw .valueError
  | some n => do
    W.when (n > 9223372036854775807) (add.add .CL_TOO_LARGE)
    return .int n

/-- field/parsers/content_length.py:37-39 -/
def content_length.evaluate (c : Ctx) (add : AddNote) : W Unit :=
  W.when (dhas c.msg.headers.parsed (str "transfer-encoding")) (add.add .CL_AND_TE_PRESENT)

/-- field/parsers/transfer_encoding.py:37-46 -/
def transfer_encoding.parse (env : Env) (add : AddNote) (v : Str) : W Val := do
  let (coding, ps) := splitSemi v
  let d ← parseParams env add ps .all
  W.when (!d.isEmpty) (add.add .TRANSFER_CODING_PARAM)
  return .tuple [.str (lower coding), Val.ofDict d]

/-- field/parsers/transfer_encoding.py:48-65; `unwanted` is a set (order unspecified) -/
def transfer_encoding.evaluate (c : Ctx) (add : AddNote) (h : Handler) : W Unit := do
  let items ← W.lift h.value.iter
  let codings ← items.mapM fun i => do
    let v ← W.lift (i.idx 0)
    pure v.asStr
  let unwanted := dedup (codings.filter fun x => !([str "chunked", str "identity"].contains x))
  let unwanted ← if unwanted.isEmpty then pure [] else
    match c.isRequest, c.request with
    | false, some req =>
      if req.kind = .request then do
        let te := (dget req.headers.parsed (str "te")).getD (.list [])
        let ts ← W.lift te.iter
        let tes ← ts.mapM fun t => W.lift (t.idx 0)
        pure (unwanted.filter fun x => !(tes.any (Val.pyEq (.str x))))
      else pure unwanted
    | _, _ => pure unwanted
  W.forEach unwanted fun x => add.add .TRANSFER_CODING_UNWANTED [(str "coding", .str x)]
  W.when (codings.contains (str "identity")) (add.add .TRANSFER_CODING_IDENTITY)

/-! ### ranges -/

/-- `Optional[int]` -/
def optInt : Option Int → Val
  | some n => .int n
  | none => .none

/-- `int(s)` where it may still fail (e.g. superscript digits pass `isdigit()`) -/
def intOrRaise (s : Str) : W Int := match pyInt s with
  | some n => pure n
  | none => W.throw .valueError

/-- field/parsers/content_range.py:85-89 `_check_status` -/
def content_range.checkStatus (c : Ctx) (add : AddNote) : W Unit :=
  W.when (!c.isRequest && !(c.msg.statusCode == some 206 || c.msg.statusCode == some 416))
    (add.add .CONTENT_RANGE_MEANINGLESS)

/-- field/parsers/content_range.py:91-98 `_parse_length` -/
def content_range.parseLength (add : AddNote) (s : Str) : W (Option Int) :=
  if s = str "*" then do
    add.add .CONTENT_RANGE_UNKNOWN_LENGTH
    return none
  else if !isDigit s then do
    add.add .RANGE_INVALID_INTEGER [(str "value", .str s)]
    return none
  else do
    let n ← intOrRaise s
    return some n

/-- field/parsers/content_range.py:100-118 `_parse_range_spec` -/
def content_range.parseSpec (add : AddNote) (rng : Str) : W (Option (Int × Int)) :=
  if rng = str "*" then pure none
  else match split1 45 rng with
    | none => do
      add.add .RANGE_MISSING_HYPHEN [(str "value", .str rng)]
      return none
    | some (a, b) =>
      if !isDigit a then do
        add.add .RANGE_INVALID_INTEGER [(str "value", .str a)]
        return none
      else if !isDigit b then do
        add.add .RANGE_INVALID_INTEGER [(str "value", .str b)]
        return none
      else do
        let x ← intOrRaise a
        let y ← intOrRaise b
        return some (x, y)

/-- field/parsers/content_range.py:37-83; `ContentRangeValue` is a tuple -/
def content_range.parse (c : Ctx) (add : AddNote) (v : Str) : W Val := do
  content_range.checkStatus c add
  match split1 32 v with
  | none => do
    W.when (v.contains 47) (add.add .CONTENT_RANGE_MISSING_UNIT)
    W.throw .valueError
  | some (unit, rest) =>
    match split1 47 rest with
    | none => do
      add.add .CONTENT_RANGE_MISSING_SLASH
      W.throw .valueError
    | some (rng, len) =>
      if rng = str "*" ∧ len = str "*" then do
        add.add .CONTENT_RANGE_INVALID_ASTERISK
        W.throw .valueError
      else do
        let complete ← content_range.parseLength add len
        if complete = none ∧ len ≠ str "*" then W.throw .valueError
        else do
          let spec ← content_range.parseSpec add rng
          if rng = str "*" then do
            W.when (!c.isRequest && c.msg.statusCode == some 206) (add.add .CONTENT_RANGE_UNSATISFIED_BAD_SC)
            return .tuple [.str unit, .none, .none, optInt complete]
          else match spec with
            | none => W.throw .valueError
            | some (first, last) => do
              W.when (first > last) (add.add .RANGE_INVALID_content_range)
              match complete with
              | some l => W.when (last ≥ l) (add.add .RANGE_INVALID_content_range)
              | none => pure ()
              return .tuple [.str unit, .int first, .int last, optInt complete]

/-- the RANGE_BAD_SYNTAX note of range.py -/
def range.bad (add : AddNote) (problem : Str) : W Unit :=
  add.add .RANGE_BAD_SYNTAX [(str "ref_uri", FieldId.range_.ref), (str "problem", .str problem)]

/-- field/parsers/range.py:54-72: one end of a range -/
def range.parseEnd (add : AddNote) (s : Str) (problem : Str) : W (Option Int) :=
  if s.isEmpty then pure none
  else if !isDigit s then do
    range.bad add problem
    W.throw .valueError
  else do
    let n ← intOrRaise s
    return some n

/-- field/parsers/range.py:40-89: one range -/
def range.parseSpec (add : AddNote) (rng : Str) : W (Option Int × Option Int) :=
  match split1 45 (strip rng) with
  | none => do
    range.bad add (str "the range specifier must contain a hyphen")
    W.throw .valueError
  | some (a, b) => do
    let first ← range.parseEnd add a (str "the first position in the range must be an integer")
    let last ← range.parseEnd add b (str "the last position in the range must be an integer")
    match first, last with
    | none, none => do
      range.bad add (str "at least one of the first or last positions must be specified")
      W.throw .valueError
    | some x, some y => do
      W.when (x > y) (add.add .RANGE_INVALID_range)
      return (first, last)
    | _, _ => return (first, last)

/-- field/parsers/range.py:28-91; `RangeValue` is a tuple -/
def range.parse (add : AddNote) (v : Str) : W Val :=
  match split1 61 v with
  | none => do
    range.bad add (str "the range specifier must contain an equals sign")
    W.throw .valueError
  | some (unit, rest) => do
    let ranges ← (splitOn 44 rest).mapM (range.parseSpec add)
    return .tuple [.str unit, .list (ranges.map fun r => .tuple [optInt r.1, optInt r.2])]

end HL.F
