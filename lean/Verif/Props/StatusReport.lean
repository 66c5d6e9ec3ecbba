import Verif.Props.StatusThm
import Verif.Props.Reports
import Verif.Props.TypedFields

/-!
# The whole report on the status code (C42)

`StatusThm` treats each class of note by itself; here all of them, with their order, their subjects and what they say, in one table.
-/

namespace HL.Props
open HL.F

/-! ### specification -/

/-- a request has been given, and has no field of this name (in lower case) -/
def askedWithout (related : Option Msg) (name : Str) : Bool := match related with
  | some r => r.headers.text.all fun l => lower l.1 != name
  | none => false

/-- a request has been given, and no field of this name has this among its comma-separated values -/
def askedWithoutValue (related : Option Msg) (name value : Str) : Bool := match related with
  | some r => r.headers.text.all fun l => lower l.1 != name || (splitOn 44 l.2).all fun v => strip v != value
  | none => false

/-- the method of the request; `request` if none has been given -/
def askedMethod (related : Option Msg) : Option Str := match related with
  | some r => r.method
  | none => some (str "request")

/-- a note about `s`, if `b`, that besides what `vars` says gives the status code -/
def statusSays (code : Int) (b : Bool) (s : Str) (X : NoteId) (vars : Dict Val := []) : List (Str × Report) :=
  if b then [(s, { cls := X, vars := (str "status", .int code) :: vars })] else []

/-- for each registered status code, what is reported: subject and note.  `allow` is the value of `Allow` -/
def statusTable (related : Option Msg) (m : Msg) (allow : List Str) : List (Int × List (Str × Report)) :=
  let lacks (n : Str) : Bool := !dhas m.headers.parsed n
  let listed : Bool := match askedMethod related with | some me => !me.isEmpty && allow.contains me | none => false
  let unwanted := [str "content-type", str "content-encoding", str "content-language"].filter (dhas m.headers.parsed)
  let redirect (k : Int) := (k, statusSays k (lacks (str "location")) (str "field-location") .REDIRECT_WITHOUT_LOCATION)
  let plain (k : Int) (X : NoteId) := (k, statusSays k true [] X)
  let nothing (k : Int) : Int × List (Str × Report) := (k, [])
  [(100, statusSays 100 (askedWithoutValue related (str "expect") (str "100-continue")) (str "status") .UNEXPECTED_CONTINUE),
   (101, statusSays 101 (askedWithout related (str "upgrade")) (str "status") .UPGRADE_NOT_REQUESTED),
   nothing 102, plain 103 .STATUS_EARLY_HINTS, plain 104 .STATUS_UPLOAD_RESUMPTION_SUPPORTED,
   nothing 200,
   (201, (match related.bind (·.method) with
      | some me => statusSays 201 ([str "GET", str "HEAD", str "OPTIONS", str "TRACE"].contains me) (str "status") .CREATED_SAFE_METHOD [(str "method", .str me)]
      | none => []) ++ statusSays 201 (lacks (str "location")) (str "field-location") .CREATED_WITHOUT_LOCATION),
   nothing 202, nothing 203, nothing 204, nothing 205,
   (206, statusSays 206 (askedWithout related (str "range")) [] .PARTIAL_NOT_REQUESTED ++
      statusSays 206 (lacks (str "content-range")) (str "field-location") .PARTIAL_WITHOUT_RANGE),
   nothing 207, plain 208 .STATUS_ALREADY_REPORTED, nothing 226,
   nothing 300, redirect 301, redirect 302, redirect 303,
   (304, statusSays 304 (lacks (str "date")) (str "status") .NO_DATE_304 ++
      statusSays 304 (unwanted != []) (str "field-content-type") .HEADER_SHOULD_NOT_BE_IN_304 [(str "headers", markdownList unwanted (str "`"))]),
   plain 305 .STATUS_DEPRECATED, plain 306 .STATUS_RESERVED, redirect 307, redirect 308,
   plain 400 .STATUS_BAD_REQUEST, nothing 401, nothing 402, plain 403 .STATUS_FORBIDDEN, plain 404 .STATUS_NOT_FOUND,
   (405, if listed then statusSays 405 true (str "field-allow") .STATUS_405_METHOD_IN_ALLOW [(str "method", Val.ofOpt (askedMethod related))]
      else statusSays 405 true [] .STATUS_METHOD_NOT_ALLOWED [(str "method", Val.ofOpt (askedMethod related))]),
   (406, if askedWithout related (str "accept") && askedWithout related (str "accept-charset") && askedWithout related (str "accept-encoding") &&
        askedWithout related (str "accept-language") then statusSays 406 true [] .STATUS_406_WITHOUT_NEGOTIATION
      else statusSays 406 true [] .STATUS_NOT_ACCEPTABLE),
   nothing 407, nothing 408, plain 409 .STATUS_CONFLICT, plain 410 .STATUS_GONE, nothing 411,
   (412, if askedWithout related (str "if-match") && askedWithout related (str "if-none-match") && askedWithout related (str "if-modified-since") &&
        askedWithout related (str "if-unmodified-since") && askedWithout related (str "if-range") then statusSays 412 true [] .STATUS_412_WITHOUT_PRECONDITION
      else statusSays 412 true [] .STATUS_PRECONDITION_FAILED),
   plain 413 .STATUS_REQUEST_ENTITY_TOO_LARGE,
   (414, statusSays 414 true (str "uri") .STATUS_URI_TOO_LONG [(str "uri_len", .str (match related.bind (·.uri) with
      | some [] | none => []
      | some u => str "(" ++ dec u.length ++ str " characters)"))]),
   plain 415 .STATUS_UNSUPPORTED_MEDIA_TYPE,
   (416, statusSays 416 (askedWithout related (str "range")) [] .STATUS_416_WITHOUT_RANGE),
   (417, if askedWithout related (str "expect") then statusSays 417 true [] .STATUS_417_WITHOUT_EXPECT
      else if related.isSome && !askedWithoutValue related (str "expect") (str "100-continue") then statusSays 417 true [] .STATUS_417_WITH_100_CONTINUE
      else statusSays 417 true [] .STATUS_EXPECTATION_FAILED),
   plain 418 .STATUS_IM_A_TEAPOT, plain 421 .STATUS_MISDIRECTED_REQUEST, nothing 422, nothing 423, nothing 424, plain 425 .STATUS_TOO_EARLY, nothing 426,
   plain 428 .STATUS_PRECONDITION_REQUIRED, plain 429 .STATUS_TOO_MANY_REQUESTS, plain 431 .STATUS_REQUEST_HEADER_FIELDS_TOO_LARGE,
   plain 451 .STATUS_UNAVAILABLE_FOR_LEGAL_REASONS, plain 500 .STATUS_INTERNAL_SERVICE_ERROR, plain 501 .STATUS_NOT_IMPLEMENTED,
   plain 502 .STATUS_BAD_GATEWAY, plain 503 .STATUS_SERVICE_UNAVAILABLE, plain 504 .STATUS_GATEWAY_TIMEOUT, plain 505 .STATUS_VERSION_NOT_SUPPORTED,
   nothing 506, nothing 507, plain 508 .STATUS_LOOP_DETECTED, nothing 510, plain 511 .STATUS_NETWORK_AUTHENTICATION_REQUIRED]

/-- what is reported on a status code: by the table if it is registered, else that it isn't -/
def responseReports (related : Option Msg) (m : Msg) (allow : List Str) : List (Str × Report) :=
  match m.statusCode with
  | none => statusSays 0 true (str "status") .STATUS_NONSTANDARD
  | some k => match (statusTable related m allow).lookup k with
    | some l => l
    | none => statusSays k true (str "status") .STATUS_NONSTANDARD

/-- the methods `Allow` lists; none if it wasn't sent -/
def AllowIs (m : Msg) (allow : List Str) : Prop :=
  (dget m.headers.parsed (str "allow") = none ∧ allow = []) ∨ dget m.headers.parsed (str "allow") = some (.list (allow.map .str))

/-! ### the code -/

/-- the notes of `w` say `l` -/
abbrev Gives (w : W Unit) (l : List (Str × Report)) : Prop := Each (fun (x : Note) p => Reports x p.1 p.2) w.notes l

theorem gives_note {c : Ctx} {k : Int} (hk : c.msg.statusCode.getD 0 = k) {s X vrs} (hc : (vrs.map (·.1)).Nodup) (hv : dhas vrs (str "status") = false) :
    Gives (Status.note c s X vrs) (statusSays k true s X vrs) := by
  refine .cons ?_ .nil
  have hn := Report.note_reports (add := c.msg.adder s [(str "status", .int (c.msg.statusCode.getD 0))]) (r := ⟨X, vrs, []⟩) (s := s) ⟨hc, by simp⟩ rfl
    (by simp [UniqueKeys, Msg.adder])
  refine ⟨rfl, rfl, ?_, .nil⟩
  intro p hp
  rcases List.mem_cons.1 hp with rfl | hp
  · rw [← hk]
    exact dget_statusNote c s X vrs hv _ (by rw [Status.note, AddNote.add_notes]; exact List.mem_singleton.2 rfl)
  · exact hn.vars p hp

theorem gives_when {c : Ctx} {k : Int} (hk : c.msg.statusCode.getD 0 = k) {b b' : Bool} {s X vrs} (hb : b = b') (hc : (vrs.map (·.1)).Nodup) (hv : dhas vrs (str "status") = false) :
    Gives (W.when b (Status.note c s X vrs)) (statusSays k b' s X vrs) := by
  subst hb
  cases b
  · exact .nil
  · exact gives_note hk hc hv

theorem gives_seq {x y : W Unit} {l l'} (hx : Gives x l) (hr : x.res = .ok ()) (hy : Gives y l') : Gives (x >>= fun _ => y) (l ++ l') := by
  unfold Gives
  rw [W.bind_ok hr]
  exact Each.append hx hy

theorem without_iff (r : Msg) (n : Str) : (Status.req r n).isEmpty = askedWithout (some r) n := by
  rw [Bool.eq_iff_iff, Status.req, getHeader_isEmpty]
  unfold askedWithout
  simp

theorem withoutValue_iff (r : Msg) (n v : Str) : (!(Status.req r n).contains v) = askedWithoutValue (some r) n v := by
  rw [Bool.eq_iff_iff, Status.req, Bool.not_eq_true', getHeader_contains]
  unfold askedWithoutValue
  simp only [List.all_eq_true, Bool.or_eq_true, bne_iff_ne, ne_eq]
  constructor
  · intro h l hl
    by_cases e : lower l.1 = n
    · exact .inr fun x hx => h l hl e x hx
    · exact .inl e
  · intro h l hl e x hx
    rcases h l hl with h | h
    · exact absurd e h
    · exact h x hx

theorem status_when_res {b : Bool} {c : Ctx} {s X vrs} : (W.when b (Status.note c s X vrs)).res = .ok () := by cases b <;> rfl

section
variable {c : Ctx} {allow : List Str}

theorem redirect_gives {k : Int} (hk : c.msg.statusCode.getD 0 = k) :
    Gives (Status.redirect c) (statusSays k (!dhas c.msg.headers.parsed (str "location")) (str "field-location") .REDIRECT_WITHOUT_LOCATION) :=
  gives_when hk rfl .nil rfl

/-- `status405` given the method -/
def s405By (c : Ctx) (method : Option Str) : W Unit :=
  let plain := Status.note c [] .STATUS_METHOD_NOT_ALLOWED [(str "method", Val.ofOpt method)]
  match method, dget c.msg.headers.parsed (str "allow") with
  | some m, some allow =>
    if m.isEmpty then plain
    else do
      let listed ← W.lift (allow.contains (.str m))
      if listed then Status.note c (str "field-allow") .STATUS_405_METHOD_IN_ALLOW [(str "method", .str m)] else plain
  | _, _ => plain

theorem s405_eq {c : Ctx} (hreq : c.request = c.related) : Status.s405 c = s405By c (askedMethod c.related) := by
  unfold Status.s405 s405By
  rw [hreq]
  cases c.related with
  | none => rfl
  | some r =>
    unfold askedMethod
    dsimp only
    cases r.method <;> cases dget c.msg.headers.parsed (str "allow") <;> rfl

theorem s414_eq {c : Ctx} (hreq : c.request = c.related) : Status.s414 c = Status.note c (str "uri") .STATUS_URI_TOO_LONG [(str "uri_len", .str (match c.related.bind (·.uri) with
      | some [] | none => []
      | some u => str "(" ++ dec u.length ++ str " characters)"))] := by
  unfold Status.s414
  rw [hreq]
  cases c.related.bind (·.uri) with
  | none => rfl
  | some u => cases u <;> rfl

/-- each method of the class gives the row of its code -/
theorem method_gives (hk : c.msg.kind = .response) (ha : AllowIs c.msg allow) {k : Int} (hs : c.msg.statusCode = some k) {w : W Unit} (h : Status.method c k = some w) :
    ∃ l, (statusTable c.related c.msg allow).lookup k = some l ∧ Gives w l := by
  have hg : c.msg.statusCode.getD 0 = k := by rw [hs]; rfl
  have hreq : c.request = c.related := by obtain ⟨e, m, r⟩ := c; exact request_eq hk
  have hn : ∀ {s X}, Gives (Status.note c s X) (statusSays k true s X) := gives_note hg .nil rfl
  unfold Status.method at h
  split at h <;> cases h <;> refine ⟨_, rfl, ?_⟩
  all_goals first
    | exact Each.nil
    | exact gives_note hg .nil rfl
    | exact redirect_gives hg
    | skip
  · -- 100
    unfold Status.s100
    rw [hreq]
    cases hr : c.related with
    | none => exact .nil
    | some r => exact gives_when hg (withoutValue_iff r _ _) .nil rfl
  · -- 101
    unfold Status.s101
    rw [hreq]
    cases hr : c.related with
    | none => exact .nil
    | some r => exact gives_when hg (without_iff r _) .nil rfl
  · -- 201
    unfold Status.s201
    rw [hreq]
    dsimp only
    have hloc : Gives (W.when (!Status.has c (str "location")) (Status.note c (str "field-location") .CREATED_WITHOUT_LOCATION))
        (statusSays 201 (!dhas c.msg.headers.parsed (str "location")) (str "field-location") .CREATED_WITHOUT_LOCATION) := gives_when hg rfl .nil rfl
    cases hm : c.related.bind (·.method) with
    | none => exact hloc
    | some me => exact gives_seq (gives_when hg rfl (by simp) rfl) status_when_res hloc
  · -- 206
    unfold Status.s206
    rw [hreq]
    have hrg : Gives (W.when (!Status.has c (str "content-range")) (Status.note c (str "field-location") .PARTIAL_WITHOUT_RANGE))
        (statusSays 206 (!dhas c.msg.headers.parsed (str "content-range")) (str "field-location") .PARTIAL_WITHOUT_RANGE) := gives_when hg rfl .nil rfl
    cases hr : c.related with
    | none => exact hrg
    | some r => exact gives_seq (gives_when hg (without_iff r _) .nil rfl) status_when_res hrg
  · -- 304
    unfold Status.s304
    refine gives_seq (gives_when hg rfl .nil rfl) status_when_res (gives_when hg ?_ (by simp) rfl)
    show (!(Status.prohibited304.filter (Status.has c)).isEmpty) = ([str "content-type", str "content-encoding", str "content-language"].filter (dhas c.msg.headers.parsed) != [])
    show (!([str "content-type", str "content-encoding", str "content-language"].filter (dhas c.msg.headers.parsed)).isEmpty) = _
    generalize [str "content-type", str "content-encoding", str "content-language"].filter (dhas c.msg.headers.parsed) = l
    cases l <;> rfl
  · -- 405
    rw [s405_eq hreq]
    unfold s405By
    dsimp only
    cases hm : askedMethod c.related with
    | none => exact gives_note hg (by simp) rfl
    | some me =>
      rcases ha with ⟨h1, rfl⟩ | h1
      · rw [h1]
        dsimp only
        rw [if_neg (by simp)]
        exact gives_note hg (by simp) rfl
      · rw [h1]
        dsimp only
        cases me with
        | nil => exact gives_note hg (by simp) rfl
        | cons x me =>
          have hc : (Val.list (allow.map .str)).contains (.str (x :: me)) = .ok (allow.contains (x :: me)) := by
            show Except.ok (List.any _ _) = _
            congr 1
            clear h1
            induction allow with
            | nil => rfl
            | cons a l ih =>
              rw [List.map_cons, List.any_cons, ih, List.contains_cons]
              rfl
          rw [if_neg (by simp), hc]
          show Gives (if allow.contains (x :: me) = true then _ else _) (if (true && allow.contains (x :: me)) = true then _ else _)
          cases allow.contains (x :: me)
          · exact gives_note hg (by simp) rfl
          · exact gives_note hg (by simp) rfl
  · -- 406
    unfold Status.s406
    rw [hreq]
    cases hr : c.related with
    | none => exact gives_note hg .nil rfl
    | some r =>
      dsimp only
      have e : (!Status.negotiationHeaders.any fun h => !(Status.req r h).isEmpty) = (askedWithout (some r) (str "accept") && askedWithout (some r) (str "accept-charset") &&
          askedWithout (some r) (str "accept-encoding") && askedWithout (some r) (str "accept-language")) := by
        simp only [Status.negotiationHeaders, List.any_cons, List.any_nil, without_iff, Bool.not_or, Bool.not_not, Bool.or_false, Bool.and_assoc]
      rw [e]
      split
      · exact gives_note hg .nil rfl
      · exact gives_note hg .nil rfl
  · -- 412
    unfold Status.s412
    rw [hreq]
    cases hr : c.related with
    | none => exact gives_note hg .nil rfl
    | some r =>
      dsimp only
      have e : (!Status.matchHeaders.any fun h => !(Status.req r h).isEmpty) = (askedWithout (some r) (str "if-match") && askedWithout (some r) (str "if-none-match") &&
          askedWithout (some r) (str "if-modified-since") && askedWithout (some r) (str "if-unmodified-since") && askedWithout (some r) (str "if-range")) := by
        simp only [Status.matchHeaders, List.any_cons, List.any_nil, without_iff, Bool.not_or, Bool.not_not, Bool.or_false, Bool.and_assoc]
      rw [e]
      split
      · exact gives_note hg .nil rfl
      · exact gives_note hg .nil rfl
  · -- 414
    rw [s414_eq hreq]
    exact gives_note hg (by simp) rfl
  · -- 416
    unfold Status.s416
    rw [hreq]
    cases hr : c.related with
    | none => exact .nil
    | some r => exact gives_when hg (without_iff r _) .nil rfl
  · -- 417
    unfold Status.s417
    rw [hreq]
    cases hr : c.related with
    | none => exact gives_note hg .nil rfl
    | some r =>
      dsimp only
      rw [without_iff, ← Bool.not_not ((Status.req r (str "expect")).contains _), withoutValue_iff]
      cases askedWithout (some r) (str "expect")
      · cases askedWithoutValue (some r) (str "expect") (str "100-continue")
        · exact gives_note hg .nil rfl
        · exact gives_note hg .nil rfl
      · exact gives_note hg .nil rfl

/-- the rows are those of the registered codes -/
theorem table_keys (related m) {k : Int} (h : ¬ Registered k) : (statusTable related m allow).lookup k = none := by
  rw [List.lookup_eq_none_iff]
  intro p hp
  have : p.1 ∈ (statusTable related m allow).map (·.1) := List.mem_map.2 ⟨p, hp, rfl⟩
  have hk : ∀ q ∈ (statusTable related m allow).map (·.1), Registered q := by
    show ∀ q ∈ ([100, 101, 102, 103, 104, 200, 201, 202, 203, 204, 205, 206, 207, 208, 226, 300, 301, 302, 303, 304, 305, 306, 307, 308, 400, 401, 402, 403, 404, 405, 406, 407, 408,
      409, 410, 411, 412, 413, 414, 415, 416, 417, 418, 421, 422, 423, 424, 425, 426, 428, 429, 431, 451, 500, 501, 502, 503, 504, 505, 506, 507, 508, 510, 511] : List Int), Registered q
    unfold Registered
    decide
  have h2 := hk p.1 this
  cases hb : (k == p.1) with
  | false => rw [bne, hb]; rfl
  | true => rw [beq_iff_eq.1 hb] at h; exact absurd h2 h

theorem check_gives (hk : c.msg.kind = .response) (ha : AllowIs c.msg allow) : Gives (Status.check c) (responseReports c.related c.msg allow) := by
  unfold Status.check responseReports
  cases hs : c.msg.statusCode with
  | none => exact gives_note (by rw [hs]; rfl) .nil rfl
  | some k =>
    simp only [Option.bind_some]
    cases hm : Status.method c k with
    | none =>
      rw [table_keys _ _ (by rw [← method_isSome c, hm]; simp)]
      exact gives_note (by rw [hs]; rfl) .nil rfl
    | some w =>
      obtain ⟨l, e, h⟩ := method_gives hk ha hs hm
      rw [e]
      exact h

end

section
variable {env : Env} {related : Option Msg} {co : Bool} {ts : List (Str × Str)} {m m' : Msg} {rn : List Note} {allow : List Str}

/-- **C42** (in full) what finishing a response adds on its status code is exactly what the table says, in that order: the notes, what they are about and what they say -/
theorem C42_report (hr : Reachable env m) (hk : m.kind = .response) (h : Finishes env related co ts m m' rn) (ha : AllowIs m allow) :
    ∃ vs, sel (fun c => c.origin == .status) m'.notes = sel (fun c => c.origin == .status) m.notes ++ vs ∧
      Each (fun (x : Note) p => Reports x p.1 p.2) vs (responseReports related m allow) := by
  have h1 := finish_verdicts (q := fun c => c.origin == .status) hr.good hk h ?_
  · rw [verdicts_status hr.good.mt (by intro c hc; simpa using hc)] at h1
    refine ⟨_, h1, ?_⟩
    have hall : sel (fun c => c.origin == .status) (Status.check ⟨env, m, related⟩).notes = (Status.check ⟨env, m, related⟩).notes := by
      unfold sel
      rw [List.filter_eq_self]
      intro n hn
      have := (statusCheck_emits ⟨env, m, related⟩ hr.good.mt n hn).2
      show (n.cls.origin == Origin.status) = true
      rw [this]; rfl
    rw [hall]
    exact check_gives hk ha
  · intro c hc
    rcases hc with (hc | hc | hc) | hc | hc <;> rw [hc] <;> rfl

end

/-- non-vacuity: a history with an `Allow`, and one without -/
example : AllowIs (exStatusResponse (exStatusRequest (str "GET") []) (str "405") [(str "Allow", str "PUT, GET")]) [str "PUT", str "GET"] := .inr (by decide +kernel)

example : (responseReports (exStatusRequest (str "GET") []) (exStatusResponse (exStatusRequest (str "GET") []) (str "405") [(str "Allow", str "PUT, GET")]) [str "PUT", str "GET"]).map
    (fun p => (p.1, p.2.cls, p.2.vars)) = [(str "field-allow", .STATUS_405_METHOD_IN_ALLOW, [(str "status", .int 405), (str "method", .str (str "GET"))])] := by decide +kernel

example : (responseReports (exStatusRequest (str "GET") []) (exStatusResponse (exStatusRequest (str "GET") []) (str "414") []) []).map
    (fun p => (p.1, p.2.cls, p.2.vars)) = [(str "uri", .STATUS_URI_TOO_LONG, [(str "status", .int 414), (str "uri_len", .str (str "(1 characters)"))])] := by decide +kernel

end HL.Props
