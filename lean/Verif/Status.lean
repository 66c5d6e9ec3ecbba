import Verif.Cache

/-!
# status.py: `StatusChecker`
-/

namespace HL

/-- status.py:14 `safe_methods` -/
def safeMethods : List Str := [str "GET", str "HEAD", str "OPTIONS", str "TRACE"]

/-- status.py:17-33 `get_header` -/
def getHeader (text : List (Str × Str)) (name : Str) : List Str :=
  (((text.filter fun p => lower p.1 == name).map (·.2)).flatMap (splitOn 44)).map strip

namespace Status

/-- `self.add_note(subject, cls, **vrs)` with `status` bound (status.py:51) -/
def note (c : Ctx) (subject : Str) (cls : NoteId) (vrs : Dict Val := []) : W Unit :=
  (c.msg.adder subject [(str "status", .int (c.msg.statusCode.getD 0))]).add cls vrs

/-- `name in self.response.headers.parsed` -/
def has (c : Ctx) (name : Str) : Bool := dhas c.msg.headers.parsed name

/-- `get_header(self.request.headers.text, name)` -/
def req (r : Msg) (name : Str) : List Str := getHeader r.headers.text name

/-- status.py:115-125, 148-154 -/
def redirect (c : Ctx) : W Unit :=
  W.when (!has c (str "location")) (note c (str "field-location") .REDIRECT_WITHOUT_LOCATION)

/-- status.py:59-61 `status100` -/
def s100 (c : Ctx) : W Unit :=
  match c.request with
  | some r => W.when (!(req r (str "expect")).contains (str "100-continue"))
      (note c (str "status") .UNEXPECTED_CONTINUE)
  | none => pure ()

/-- status.py:63-65 `status101` -/
def s101 (c : Ctx) : W Unit :=
  match c.request with
  | some r => W.when (req r (str "upgrade")).isEmpty (note c (str "status") .UPGRADE_NOT_REQUESTED)
  | none => pure ()

/-- status.py:79-83 `status201` -/
def s201 (c : Ctx) : W Unit := do
  match c.request.bind (·.method) with
  | some m =>
    W.when (safeMethods.contains m) (note c (str "status") .CREATED_SAFE_METHOD [(str "method", .str m)])
  | none => pure ()
  W.when (!has c (str "location")) (note c (str "field-location") .CREATED_WITHOUT_LOCATION)

/-- status.py:97-101 `status206` -/
def s206 (c : Ctx) : W Unit := do
  match c.request with
  | some r => W.when (req r (str "range")).isEmpty (note c [] .PARTIAL_NOT_REQUESTED)
  | none => pure ()
  W.when (!has c (str "content-range")) (note c (str "field-location") .PARTIAL_WITHOUT_RANGE)

/-- status.py:131-132 -/
def prohibited304 : List Str := [str "content-type", str "content-encoding", str "content-language"]

/-- status.py:127-140 `status304` -/
def s304 (c : Ctx) : W Unit := do
  W.when (!has c (str "date")) (note c (str "status") .NO_DATE_304)
  let bad := prohibited304.filter (has c)
  W.when (!bad.isEmpty)
    (note c (str "field-content-type") .HEADER_SHOULD_NOT_BE_IN_304 [(str "headers", markdownList bad (str "`"))])

/-- status.py:171-177 `status405` -/
def s405 (c : Ctx) : W Unit :=
  let method : Option Str := match c.request with
    | some r => r.method
    | none => some (str "request")
  let plain := note c [] .STATUS_METHOD_NOT_ALLOWED [(str "method", Val.ofOpt method)]
  match method, dget c.msg.headers.parsed (str "allow") with
  | some m, some allow =>
    if m.isEmpty then plain
    else do
      let listed ← W.lift (allow.contains (.str m))
      if listed then note c (str "field-allow") .STATUS_405_METHOD_IN_ALLOW [(str "method", .str m)] else plain
  | _, _ => plain

/-- status.py:181-186 -/
def negotiationHeaders : List Str :=
  [str "accept", str "accept-charset", str "accept-encoding", str "accept-language"]

/-- status.py:179-190 `status406` -/
def s406 (c : Ctx) : W Unit :=
  match c.request with
  | some r =>
    if !negotiationHeaders.any (fun h => !(req r h).isEmpty) then note c [] .STATUS_406_WITHOUT_NEGOTIATION
    else note c [] .STATUS_NOT_ACCEPTABLE
  | none => note c [] .STATUS_NOT_ACCEPTABLE

/-- status.py:209-215 -/
def matchHeaders : List Str :=
  [str "if-match", str "if-none-match", str "if-modified-since", str "if-unmodified-since", str "if-range"]

/-- status.py:207-219 `status412` -/
def s412 (c : Ctx) : W Unit :=
  match c.request with
  | some r =>
    if !matchHeaders.any (fun h => !(req r h).isEmpty) then note c [] .STATUS_412_WITHOUT_PRECONDITION
    else note c [] .STATUS_PRECONDITION_FAILED
  | none => note c [] .STATUS_PRECONDITION_FAILED

/-- status.py:224-229 `status414` -/
def s414 (c : Ctx) : W Unit :=
  let len : Str := match c.request.bind (·.uri) with
    | some u => if u.isEmpty then [] else str "(" ++ dec u.length ++ str " characters)"
    | none => []
  note c (str "uri") .STATUS_URI_TOO_LONG [(str "uri_len", .str len)]

/-- status.py:234-236 `status416` -/
def s416 (c : Ctx) : W Unit :=
  match c.request with
  | some r => W.when (req r (str "range")).isEmpty (note c [] .STATUS_416_WITHOUT_RANGE)
  | none => pure ()

/-- status.py:238-247 `status417` -/
def s417 (c : Ctx) : W Unit :=
  match c.request with
  | some r =>
    let e := req r (str "expect")
    if e.isEmpty then note c [] .STATUS_417_WITHOUT_EXPECT
    else if e.contains (str "100-continue") then note c [] .STATUS_417_WITH_100_CONTINUE
    else note c [] .STATUS_EXPECTATION_FAILED
  | none => note c [] .STATUS_EXPECTATION_FAILED

/-- the methods `status<code>` of the class (status.py:59-313); `none` when there is no such method -/
def method (c : Ctx) (code : Int) : Option (W Unit) :=
  match code with
  | 100 => some (s100 c)
  | 101 => some (s101 c)
  | 102 => some (pure ())
  | 103 => some (note c [] .STATUS_EARLY_HINTS)
  | 104 => some (note c [] .STATUS_UPLOAD_RESUMPTION_SUPPORTED)
  | 200 => some (pure ())
  | 201 => some (s201 c)
  | 202 => some (pure ())
  | 203 => some (pure ())
  | 204 => some (pure ())
  | 205 => some (pure ())
  | 206 => some (s206 c)
  | 207 => some (pure ())
  | 208 => some (note c [] .STATUS_ALREADY_REPORTED)
  | 226 => some (pure ())
  | 300 => some (pure ())
  | 301 => some (redirect c)
  | 302 => some (redirect c)
  | 303 => some (redirect c)
  | 304 => some (s304 c)
  | 305 => some (note c [] .STATUS_DEPRECATED)
  | 306 => some (note c [] .STATUS_RESERVED)
  | 307 => some (redirect c)
  | 308 => some (redirect c)
  | 400 => some (note c [] .STATUS_BAD_REQUEST)
  | 401 => some (pure ())
  | 402 => some (pure ())
  | 403 => some (note c [] .STATUS_FORBIDDEN)
  | 404 => some (note c [] .STATUS_NOT_FOUND)
  | 405 => some (s405 c)
  | 406 => some (s406 c)
  | 407 => some (pure ())
  | 408 => some (pure ())
  | 409 => some (note c [] .STATUS_CONFLICT)
  | 410 => some (note c [] .STATUS_GONE)
  | 411 => some (pure ())
  | 412 => some (s412 c)
  | 413 => some (note c [] .STATUS_REQUEST_ENTITY_TOO_LARGE)
  | 414 => some (s414 c)
  | 415 => some (note c [] .STATUS_UNSUPPORTED_MEDIA_TYPE)
  | 416 => some (s416 c)
  | 417 => some (s417 c)
  | 418 => some (note c [] .STATUS_IM_A_TEAPOT)
  | 421 => some (note c [] .STATUS_MISDIRECTED_REQUEST)
  | 422 => some (pure ())
  | 423 => some (pure ())
  | 424 => some (pure ())
  | 425 => some (note c [] .STATUS_TOO_EARLY)
  | 426 => some (pure ())
  | 428 => some (note c [] .STATUS_PRECONDITION_REQUIRED)
  | 429 => some (note c [] .STATUS_TOO_MANY_REQUESTS)
  | 431 => some (note c [] .STATUS_REQUEST_HEADER_FIELDS_TOO_LARGE)
  | 451 => some (note c [] .STATUS_UNAVAILABLE_FOR_LEGAL_REASONS)
  | 500 => some (note c [] .STATUS_INTERNAL_SERVICE_ERROR)
  | 501 => some (note c [] .STATUS_NOT_IMPLEMENTED)
  | 502 => some (note c [] .STATUS_BAD_GATEWAY)
  | 503 => some (note c [] .STATUS_SERVICE_UNAVAILABLE)
  | 504 => some (note c [] .STATUS_GATEWAY_TIMEOUT)
  | 505 => some (note c [] .STATUS_VERSION_NOT_SUPPORTED)
  | 506 => some (pure ())
  | 507 => some (pure ())
  | 508 => some (note c [] .STATUS_LOOP_DETECTED)
  | 510 => some (pure ())
  | 511 => some (note c [] .STATUS_NETWORK_AUTHENTICATION_REQUIRED)
  | _ => none

/-- status.py:44-57: `getattr(self, f"status{response.status_code}")` -/
def check (c : Ctx) : W Unit :=
  match c.msg.statusCode.bind (method c) with
  | some w => w
  | none => note c (str "status") .STATUS_NONSTANDARD

end Status
end HL
