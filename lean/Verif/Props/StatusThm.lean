import Verif.Props.Finish
import Verif.Props.Strings

/-!
# C41, C42: the status checks

The theorems are about `finish_content` on any linter a user can have.  `Adds1 c m m' p` says that the call added
exactly one note of class `c` if `p`, and none otherwise.
-/

namespace HL.Props

/-! ### specification -/

/-- the status codes in the IANA registry (with 306 and 418, which are reserved there) -/
def Registered (s : Int) : Prop :=
  (100 ≤ s ∧ s ≤ 104) ∨ (200 ≤ s ∧ s ≤ 208) ∨ s = 226 ∨ (300 ≤ s ∧ s ≤ 308) ∨ (400 ≤ s ∧ s ≤ 418) ∨
    (421 ≤ s ∧ s ≤ 426) ∨ s = 428 ∨ s = 429 ∨ s = 431 ∨ s = 451 ∨ (500 ≤ s ∧ s ≤ 508) ∨ s = 510 ∨ s = 511

/-- going from `m` to `m'`, exactly one note of class `c` was added if `p`, and otherwise none -/
def Adds1 (c : NoteId) (m m' : Msg) (p : Prop) : Prop :=
  (p ∧ ∃ n, n.cls = c ∧ ofClass c m'.notes = ofClass c m.notes ++ [n]) ∨ (¬p ∧ ofClass c m'.notes = ofClass c m.notes)

/-- the request has been given and none of its field lines is named `name` (in lower case) -/
def RequestLacks (related : Option Msg) (name : Str) : Prop :=
  ∃ r, related = some r ∧ ∀ l ∈ r.headers.text, lower l.1 ≠ name

/-- the request has been given, and no field line named `name` has `value` among its comma-separated values -/
def RequestLacksValue (related : Option Msg) (name value : Str) : Prop :=
  ∃ r, related = some r ∧ ∀ l ∈ r.headers.text, lower l.1 = name → ∀ v ∈ splitOn 44 l.2, strip v ≠ value

/-! ### which notes each check adds -/

theorem getHeader_isEmpty (text : List (Str × Str)) (name : Str) :
    (getHeader text name).isEmpty = true ↔ ∀ l ∈ text, lower l.1 ≠ name := by
  unfold getHeader
  rw [List.isEmpty_iff]
  simp only [List.map_eq_nil_iff, List.flatMap_eq_nil_iff, List.mem_map, List.mem_filter, beq_iff_eq]
  constructor
  · intro h l hl e
    exact splitOn_ne_nil 44 l.2 (h l.2 ⟨l, ⟨hl, e⟩, rfl⟩)
  · rintro h _ ⟨l, ⟨hl, e⟩, rfl⟩
    exact absurd e (h l hl)

theorem getHeader_contains (text : List (Str × Str)) (name v : Str) :
    (getHeader text name).contains v = false ↔ ∀ l ∈ text, lower l.1 = name → ∀ x ∈ splitOn 44 l.2, strip x ≠ v := by
  rw [← Bool.not_eq_true, List.contains_iff_mem]
  unfold getHeader
  simp only [List.mem_map, List.mem_flatMap, List.mem_filter, beq_iff_eq]
  constructor
  · intro h l hl e x hx hs
    exact h ⟨x, ⟨l.2, ⟨l, ⟨hl, e⟩, rfl⟩, hx⟩, hs⟩
  · rintro h ⟨x, ⟨_, ⟨l, ⟨hl, e⟩, rfl⟩, hx⟩, hs⟩
    exact h l hl e x hx hs

/-- the codes under which a class of note is added (`none`: under none of them) -/
def statusCodes : NoteId → List Int
  | .UNEXPECTED_CONTINUE => [100]
  | .UPGRADE_NOT_REQUESTED => [101]
  | .STATUS_EARLY_HINTS => [103]
  | .STATUS_UPLOAD_RESUMPTION_SUPPORTED => [104]
  | .CREATED_SAFE_METHOD | .CREATED_WITHOUT_LOCATION => [201]
  | .PARTIAL_NOT_REQUESTED | .PARTIAL_WITHOUT_RANGE => [206]
  | .STATUS_ALREADY_REPORTED => [208]
  | .REDIRECT_WITHOUT_LOCATION => [301, 302, 303, 307, 308]
  | .NO_DATE_304 | .HEADER_SHOULD_NOT_BE_IN_304 => [304]
  | .STATUS_DEPRECATED => [305]
  | .STATUS_RESERVED => [306]
  | .STATUS_BAD_REQUEST => [400]
  | .STATUS_FORBIDDEN => [403]
  | .STATUS_NOT_FOUND => [404]
  | .STATUS_METHOD_NOT_ALLOWED | .STATUS_405_METHOD_IN_ALLOW => [405]
  | .STATUS_406_WITHOUT_NEGOTIATION | .STATUS_NOT_ACCEPTABLE => [406]
  | .STATUS_CONFLICT => [409]
  | .STATUS_GONE => [410]
  | .STATUS_412_WITHOUT_PRECONDITION | .STATUS_PRECONDITION_FAILED => [412]
  | .STATUS_REQUEST_ENTITY_TOO_LARGE => [413]
  | .STATUS_URI_TOO_LONG => [414]
  | .STATUS_UNSUPPORTED_MEDIA_TYPE => [415]
  | .STATUS_416_WITHOUT_RANGE => [416]
  | .STATUS_417_WITHOUT_EXPECT | .STATUS_417_WITH_100_CONTINUE | .STATUS_EXPECTATION_FAILED => [417]
  | .STATUS_IM_A_TEAPOT => [418]
  | .STATUS_MISDIRECTED_REQUEST => [421]
  | .STATUS_TOO_EARLY => [425]
  | .STATUS_PRECONDITION_REQUIRED => [428]
  | .STATUS_TOO_MANY_REQUESTS => [429]
  | .STATUS_REQUEST_HEADER_FIELDS_TOO_LARGE => [431]
  | .STATUS_UNAVAILABLE_FOR_LEGAL_REASONS => [451]
  | .STATUS_INTERNAL_SERVICE_ERROR => [500]
  | .STATUS_NOT_IMPLEMENTED => [501]
  | .STATUS_BAD_GATEWAY => [502]
  | .STATUS_SERVICE_UNAVAILABLE => [503]
  | .STATUS_GATEWAY_TIMEOUT => [504]
  | .STATUS_VERSION_NOT_SUPPORTED => [505]
  | .STATUS_LOOP_DETECTED => [508]
  | .STATUS_NETWORK_AUTHENTICATION_REQUIRED => [511]
  | _ => []

/-- a note of a status check: its class goes with the code, and its `status` is the code -/
def CodeNote (c : Ctx) (k : Int) (n : Note) : Prop :=
  (statusCodes n.cls).contains k = true ∧ dget n.vars (str "status") = some (.int (c.msg.statusCode.getD 0))

theorem dget_statusNote (c : Ctx) (s cls vrs) (hv : dhas vrs (str "status") = false) :
    ∀ n ∈ (Status.note c s cls vrs).notes, dget n.vars (str "status") = some (.int (c.msg.statusCode.getD 0)) := by
  intro n hn
  simp only [Status.note, AddNote.add_notes, List.mem_singleton] at hn
  subst hn
  show dget (HL.dupdate c.msg.defaults (HL.dupdate [(str "status", .int (c.msg.statusCode.getD 0))] vrs)) _ = _
  have h1 : dget (HL.dupdate [(str "status", Val.int (c.msg.statusCode.getD 0))] vrs) (str "status") =
      some (.int (c.msg.statusCode.getD 0)) := by
    have hn : dget vrs.reverse (str "status") = none := by
      have : dhas vrs.reverse (str "status") = false := by
        have e : dhas vrs.reverse (str "status") = dhas vrs (str "status") := by simp [dhas, List.any_reverse]
        rw [e, hv]
      rw [← dget_isSome] at this
      cases h : dget vrs.reverse (str "status") with
      | none => rfl
      | some v => rw [h] at this; exact nomatch this
    rw [dget_dupdate, hn]
    simp [dget_cons]
  rw [dget_dupdate, dget_reverse ?_, h1]
  · rfl
  · exact UniqueKeys.dupdate (by simp [UniqueKeys]) _

theorem codeNote_note {c : Ctx} {k s cls vrs} (hv : dhas vrs (str "status") = false)
    (hk : (statusCodes cls).contains k = true) : Emits (CodeNote c k) (Status.note c s cls vrs) := by
  intro n hn
  refine ⟨?_, dget_statusNote c s cls vrs hv n hn⟩
  simp only [Status.note, AddNote.add_notes, List.mem_singleton] at hn
  subst hn
  exact hk

/-- step through a status check -/
macro "codes" : tactic => `(tactic| repeat' first
  | with_reducible exact emits_pure _
  | with_reducible exact emits_lift _
  | (with_reducible refine codeNote_note ?_ ?_) <;> rfl
  | with_reducible refine emits_bind ?_ ?_
  | with_reducible refine emits_when ?_
  | with_reducible refine emits_ite ?_ ?_
  | with_reducible intro _
  | split
  | dsimp only)

theorem redirect_codes (c : Ctx) (k : Int) (h : ([301, 302, 303, 307, 308] : List Int).contains k = true) :
    Emits (CodeNote c k) (Status.redirect c) := by
  unfold Status.redirect
  refine emits_when fun _ => codeNote_note rfl h

theorem method_codes (c : Ctx) (k : Int) {w : W Unit} (h : Status.method c k = some w) : Emits (CodeNote c k) w := by
  unfold Status.method at h
  split at h <;> cases h <;> first
    | with_reducible exact emits_pure _
    | exact redirect_codes c _ rfl
    | (unfold Status.s100; codes)
    | (unfold Status.s101; codes)
    | (unfold Status.s201; codes)
    | (unfold Status.s206; codes)
    | (unfold Status.s304; codes)
    | (unfold Status.s405; codes)
    | (unfold Status.s406; codes)
    | (unfold Status.s412; codes)
    | (unfold Status.s414; codes)
    | (unfold Status.s416; codes)
    | (unfold Status.s417; codes)
    | codes

theorem method_isSome (c : Ctx) (k : Int) : (Status.method c k).isSome = true ↔ Registered k := by
  unfold Status.method Registered
  split
  all_goals first
    | (simp only [Option.isSome_some, true_iff]; decide)
    | (simp only [Option.isSome_none, Bool.false_eq_true, false_iff]; skip)
  simp only [imp_false] at *
  omega

/-! ### lifting to `finish_content` -/

theorem finish_status {env related co ts m m' rn} (hr : Reachable env m) (hk : m.kind = .response)
    (h : Finishes env related co ts m m' rn) {c : NoteId} (hc : c.origin = .status) :
    ofClass c m'.notes = ofClass c m.notes ++ ofClass c (Status.check ⟨env, m, related⟩).notes := by
  have key : ∀ d, (fun x : NoteId => x == c) d = true → d.origin = .status := by
    intro d hd
    rw [(beq_iff_eq.1 hd : d = c)]; exact hc
  have h1 := finish_verdicts (q := fun x => x == c) hr.good hk h ?_
  · rw [verdicts_status hr.good.mt key] at h1
    exact h1
  · intro d hd
    cases e : (d == c) with
    | false => rfl
    | true =>
      rw [(beq_iff_eq.1 e : d = c), hc] at hd
      rcases hd with (hd | hd | hd) | hd | hd <;> exact nomatch hd

theorem ofClass_nil {c : NoteId} {ns : List Note} (h : ∀ n ∈ ns, n.cls ≠ c) : ofClass c ns = [] := by
  unfold ofClass
  rw [List.filter_eq_nil_iff]
  intro n hn
  simp [h n hn]

theorem adds1_status {env related co ts m m' rn} (hr : Reachable env m) (hk : m.kind = .response)
    (h : Finishes env related co ts m m' rn) {c : NoteId} {p : Prop} (hc : c.origin = .status)
    (hne : c ≠ .STATUS_NONSTANDARD) (hp : p → ∃ k, (statusCodes c).contains k = true ∧ m.statusCode = some k)
    (hw : ∀ k, (statusCodes c).contains k = true → m.statusCode = some k → ∃ w, Status.method ⟨env, m, related⟩ k = some w ∧
      ((p ∧ ∃ n, n.cls = c ∧ ofClass c w.notes = [n]) ∨ (¬p ∧ ofClass c w.notes = []))) :
    Adds1 c m m' p := by
  have hf := finish_status hr hk h hc
  unfold Adds1
  rw [hf]
  by_cases hx : ∃ k, (statusCodes c).contains k = true ∧ m.statusCode = some k
  · obtain ⟨k, hkc, hs⟩ := hx
    obtain ⟨w, hm, hr⟩ := hw k hkc hs
    have : Status.check ⟨env, m, related⟩ = w := by
      unfold Status.check
      simp [hs, hm]
    rw [this]
    rcases hr with ⟨a, n, hn, e⟩ | ⟨a, e⟩
    · exact .inl ⟨a, n, hn, by rw [e]⟩
    · exact .inr ⟨a, by rw [e, List.append_nil]⟩
  · refine .inr ⟨fun hp' => hx (hp hp'), ?_⟩
    rw [ofClass_nil (ns := (Status.check _).notes), List.append_nil]
    intro n hn e
    unfold Status.check at hn
    cases hs : m.statusCode with
    | none => simp [hs, Status.note] at hn; subst hn; exact hne e.symm
    | some k =>
      simp only [hs, Option.bind_some] at hn
      cases hm : Status.method ⟨env, m, related⟩ k with
      | none => simp [hm, Status.note] at hn; subst hn; exact hne e.symm
      | some w =>
        simp only [hm] at hn
        exact hx ⟨k, e ▸ (method_codes _ k hm n hn).1, hs⟩

theorem ofClass_note (c : Ctx) (s cls vrs) : ofClass cls (Status.note c s cls vrs).notes =
    [(c.msg.adder s [(str "status", .int (c.msg.statusCode.getD 0))]).mk1 cls vrs] := by
  simp [Status.note, ofClass]

/-! ### C41 -/

/-- **C41**: STATUS_NONSTANDARD is added exactly when the status code is not registered (or not a number). -/
theorem C41_nonstandard {env related co ts m m' rn} (hr : Reachable env m) (hk : m.kind = .response)
    (h : Finishes env related co ts m m' rn) :
    Adds1 .STATUS_NONSTANDARD m m' (¬∃ s, m.statusCode = some s ∧ Registered s) := by
  unfold Adds1
  rw [finish_status hr hk h rfl]
  unfold Status.check
  cases hs : m.statusCode with
  | none =>
    exact .inl ⟨by simp, _, rfl, congrArg _ (ofClass_note _ _ _ _)⟩
  | some k =>
    simp only [Option.bind_some]
    cases hm : Status.method ⟨env, m, related⟩ k with
    | none =>
      have : ¬Registered k := by rw [← method_isSome ⟨env, m, related⟩, hm]; simp
      exact .inl ⟨by rintro ⟨s, e, hr⟩; cases e; exact this hr, _, rfl, congrArg _ (ofClass_note _ _ _ _)⟩
    | some w =>
      have : Registered k := by rw [← method_isSome ⟨env, m, related⟩, hm]; rfl
      refine .inr ⟨fun hn => hn ⟨k, rfl, this⟩, ?_⟩
      rw [ofClass_nil (ns := W.notes _), List.append_nil]
      intro n hn e
      have := (method_codes _ k hm n hn).1
      rw [e] at this
      exact nomatch this

/-- **C41**: whatever the status check adds carries the response's status code (0 if it has none) as `status`. -/
theorem C41_status_variable {env related co ts m m' rn} (hr : Reachable env m) (hk : m.kind = .response)
    (h : Finishes env related co ts m m' rn) :
    ∃ added, sel (fun c => c.origin == .status) m'.notes = sel (fun c => c.origin == .status) m.notes ++ added ∧
      ∀ n ∈ added, dget n.vars (str "status") = some (.int (m.statusCode.getD 0)) := by
  have h1 := finish_verdicts (q := fun c => c.origin == .status) hr.good hk h ?_
  · rw [verdicts_status hr.good.mt (by intro c hc; simpa using hc)] at h1
    refine ⟨_, h1, fun n hn => ?_⟩
    have hn : n ∈ (Status.check ⟨env, m, related⟩).notes := (List.mem_filter.1 hn).1
    unfold Status.check at hn
    split at hn
    · rename_i w hw
      obtain ⟨k, hs, hm⟩ := Option.bind_eq_some_iff.1 hw
      exact (method_codes _ k hm n hn).2
    · exact dget_statusNote _ _ _ _ rfl n hn
  · intro c hc
    rcases hc with (hc | hc | hc) | hc | hc <;> rw [hc] <;> rfl

/-! ### C42 -/

/-- `ns` has exactly one note of class `c` if `p`, and otherwise none -/
def One (c : NoteId) (ns : List Note) (p : Prop) : Prop :=
  (p ∧ ∃ n, n.cls = c ∧ ofClass c ns = [n]) ∨ (¬p ∧ ofClass c ns = [])

theorem One.note (c : Ctx) (s cls vrs) : One cls (Status.note c s cls vrs).notes True :=
  .inl ⟨trivial, _, rfl, ofClass_note ..⟩

theorem One.iff {c ns p q} (h : One c ns p) (e : p ↔ q) : One c ns q := by rwa [← propext e]

theorem One.when (c : Ctx) (s cls vrs) {b : Bool} {p : Prop} (h : b = true ↔ p) :
    One cls (W.when b (Status.note c s cls vrs)).notes p := by
  unfold W.when
  by_cases hp : p
  · rw [if_pos (h.2 hp)]; exact .inl ⟨hp, _, rfl, ofClass_note ..⟩
  · rw [if_neg (fun hb => hp (h.1 hb))]; exact .inr ⟨hp, rfl⟩

theorem One.none {c} {ns : List Note} {p : Prop} (hp : ¬p) (h : ∀ n ∈ ns, n.cls ≠ c) : One c ns p :=
  .inr ⟨hp, ofClass_nil h⟩

theorem One.append_right {c a b p} (h : One c a p) (hb : ∀ n ∈ b, n.cls ≠ c) : One c (a ++ b) p := by
  unfold One ofClass at *
  rw [List.filter_append]
  have : b.filter (fun n => n.cls == c) = [] := ofClass_nil hb
  rw [this, List.append_nil]
  exact h

theorem One.append_left {c a b p} (h : One c b p) (ha : ∀ n ∈ a, n.cls ≠ c) : One c (a ++ b) p := by
  unfold One ofClass at *
  rw [List.filter_append]
  have : a.filter (fun n => n.cls == c) = [] := ofClass_nil ha
  rw [this, List.nil_append]
  exact h

theorem when_cls (c : Ctx) (b s cls vrs) {d : NoteId} (h : cls ≠ d) : ∀ n ∈ (W.when b (Status.note c s cls vrs)).notes, n.cls ≠ d := by
  intro n hn
  unfold W.when at hn
  split at hn
  · simp [Status.note] at hn; subst hn; exact h
  · simp at hn

theorem note_cls (c : Ctx) (s cls vrs) {d : NoteId} (h : cls ≠ d) : ∀ n ∈ (Status.note c s cls vrs).notes, n.cls ≠ d := by
  intro n hn
  simp [Status.note] at hn; subst hn; exact h

/-- the response was sent with the status code `k` -/
abbrev CodeSent (m : Msg) (k : Int) : Prop := m.statusCode = some k

theorem adds1_code {env related co ts m m' rn} (hr : Reachable env m) (hk : m.kind = .response)
    (h : Finishes env related co ts m m' rn) {c : NoteId} {k : Int} {w : W Unit} {p : Prop} (hc : c.origin = .status)
    (hne : c ≠ .STATUS_NONSTANDARD) (hs : statusCodes c = [k]) (hm : Status.method ⟨env, m, related⟩ k = some w)
    (ho : One c w.notes p) : Adds1 c m m' (CodeSent m k ∧ p) := by
  refine adds1_status hr hk h hc hne (fun hp => ⟨k, by rw [hs]; simp, hp.1⟩) fun k' hk' e => ?_
  rw [hs] at hk'
  have : k' = k := by simpa using hk'
  subst this
  refine ⟨w, hm, ?_⟩
  rcases ho with ⟨a, b⟩ | ⟨a, b⟩
  · exact .inl ⟨⟨e, a⟩, b⟩
  · exact .inr ⟨fun hp => a hp.2, b⟩

section
variable {env : Env} {related : Option Msg} {co : Bool} {ts : List (Str × Str)} {m m' : Msg} {rn : List Note}

theorem lacks_iff (r : Msg) (name : Str) : (Status.req r name).isEmpty = true ↔ RequestLacks (some r) name := by
  unfold Status.req RequestLacks
  rw [getHeader_isEmpty]
  simp

theorem lacksValue_iff (r : Msg) (name v : Str) : (!(Status.req r name).contains v) = true ↔ RequestLacksValue (some r) name v := by
  unfold Status.req RequestLacksValue
  simp only [Bool.not_eq_true', getHeader_contains]
  simp

theorem has_iff (m : Msg) (name : Str) : (!Status.has ⟨env, m, related⟩ name) = true ↔ dhas m.headers.parsed name = false := by
  simp [Status.has]

theorem request_eq (hk : m.kind = .response) : (⟨env, m, related⟩ : Ctx).request = related := by
  simp [Ctx.request, hk]

theorem no_lacks {p : Msg → Prop} : ¬∃ r, (Option.none : Option Msg) = some r ∧ p r := by simp

/-- **C42** -/
theorem C42_unexpected_continue (hr : Reachable env m) (hk : m.kind = .response) (h : Finishes env related co ts m m' rn) :
    Adds1 .UNEXPECTED_CONTINUE m m' (CodeSent m 100 ∧ RequestLacksValue related (str "expect") (str "100-continue")) := by
  refine adds1_code hr hk h rfl (by simp) rfl rfl ?_
  unfold Status.s100
  rw [request_eq hk]
  cases related with
  | none => exact .none no_lacks (by simp)
  | some r => exact .when _ _ _ _ (lacksValue_iff r _ _)

/-- **C42** -/
theorem C42_upgrade_not_requested (hr : Reachable env m) (hk : m.kind = .response) (h : Finishes env related co ts m m' rn) :
    Adds1 .UPGRADE_NOT_REQUESTED m m' (CodeSent m 101 ∧ RequestLacks related (str "upgrade")) := by
  refine adds1_code hr hk h rfl (by simp) rfl rfl ?_
  unfold Status.s101
  rw [request_eq hk]
  cases related with
  | none => exact .none no_lacks (by simp)
  | some r => exact .when _ _ _ _ (lacks_iff r _)

theorem s201_notes (c : Ctx) : (Status.s201 c).notes =
    (match c.request.bind (·.method) with
      | some m => W.when (safeMethods.contains m) (Status.note c (str "status") .CREATED_SAFE_METHOD [(str "method", .str m)])
      | none => pure () : W Unit).notes ++
    (W.when (!Status.has c (str "location")) (Status.note c (str "field-location") .CREATED_WITHOUT_LOCATION)).notes := by
  unfold Status.s201
  dsimp only
  cases c.request.bind (·.method) with
  | none => rfl
  | some m => dsimp only; unfold W.when; split <;> rfl

/-- **C42** -/
theorem C42_created_safe_method (hr : Reachable env m) (hk : m.kind = .response) (h : Finishes env related co ts m m' rn) :
    Adds1 .CREATED_SAFE_METHOD m m' (CodeSent m 201 ∧ ∃ r, related = some r ∧
      r.method ∈ [some (str "GET"), some (str "HEAD"), some (str "OPTIONS"), some (str "TRACE")]) := by
  refine adds1_code hr hk h rfl (by simp) rfl rfl ?_
  rw [s201_notes]
  refine .append_right ?_ (when_cls _ _ _ _ _ (by simp))
  rw [request_eq hk]
  cases related with
  | none => exact .none no_lacks (by simp)
  | some r =>
    simp only [Option.bind_some]
    cases hm : r.method with
    | none => exact .none (by simp [hm]) (by simp)
    | some me =>
      refine .when _ _ _ _ ?_
      simp [hm, safeMethods]

/-- **C42** -/
theorem C42_created_without_location (hr : Reachable env m) (hk : m.kind = .response) (h : Finishes env related co ts m m' rn) :
    Adds1 .CREATED_WITHOUT_LOCATION m m' (CodeSent m 201 ∧ dhas m.headers.parsed (str "location") = false) := by
  refine adds1_code hr hk h rfl (by simp) rfl rfl ?_
  rw [s201_notes]
  refine .append_left (.when _ _ _ _ (has_iff ..)) ?_
  split
  · exact when_cls _ _ _ _ _ (by simp)
  · simp

theorem s206_notes (c : Ctx) : (Status.s206 c).notes =
    (match c.request with
      | some r => W.when (Status.req r (str "range")).isEmpty (Status.note c [] .PARTIAL_NOT_REQUESTED)
      | none => pure () : W Unit).notes ++
    (W.when (!Status.has c (str "content-range")) (Status.note c (str "field-location") .PARTIAL_WITHOUT_RANGE)).notes := by
  unfold Status.s206
  dsimp only
  cases c.request with
  | none => rfl
  | some m => dsimp only; unfold W.when; split <;> rfl

/-- **C42** -/
theorem C42_partial_not_requested (hr : Reachable env m) (hk : m.kind = .response) (h : Finishes env related co ts m m' rn) :
    Adds1 .PARTIAL_NOT_REQUESTED m m' (CodeSent m 206 ∧ RequestLacks related (str "range")) := by
  refine adds1_code hr hk h rfl (by simp) rfl rfl ?_
  rw [s206_notes]
  refine .append_right ?_ (when_cls _ _ _ _ _ (by simp))
  rw [request_eq hk]
  cases related with
  | none => exact .none no_lacks (by simp)
  | some r => exact .when _ _ _ _ (lacks_iff r _)

/-- **C42** -/
theorem C42_partial_without_range (hr : Reachable env m) (hk : m.kind = .response) (h : Finishes env related co ts m m' rn) :
    Adds1 .PARTIAL_WITHOUT_RANGE m m' (CodeSent m 206 ∧ dhas m.headers.parsed (str "content-range") = false) := by
  refine adds1_code hr hk h rfl (by simp) rfl rfl ?_
  rw [s206_notes]
  refine .append_left (.when _ _ _ _ (has_iff ..)) ?_
  split
  · exact when_cls _ _ _ _ _ (by simp)
  · simp

/-- **C42** -/
theorem C42_redirect_without_location (hr : Reachable env m) (hk : m.kind = .response) (h : Finishes env related co ts m m' rn) :
    Adds1 .REDIRECT_WITHOUT_LOCATION m m' ((CodeSent m 301 ∨ CodeSent m 302 ∨ CodeSent m 303 ∨ CodeSent m 307 ∨ CodeSent m 308) ∧
      dhas m.headers.parsed (str "location") = false) := by
  refine adds1_status hr hk h rfl (by simp) ?_ ?_
  · rintro ⟨h, -⟩
    rcases h with h | h | h | h | h <;> exact ⟨_, by rfl, h⟩
  · intro k hk hs
    have hk : k = 301 ∨ k = 302 ∨ k = 303 ∨ k = 307 ∨ k = 308 := by simpa [statusCodes] using hk
    have hm : Status.method ⟨env, m, related⟩ k = some (Status.redirect ⟨env, m, related⟩) := by
      rcases hk with rfl | rfl | rfl | rfl | rfl <;> rfl
    refine ⟨_, hm, ?_⟩
    have h1 : One .REDIRECT_WITHOUT_LOCATION (Status.redirect ⟨env, m, related⟩).notes (dhas m.headers.parsed (str "location") = false) :=
      .when _ _ _ _ (has_iff ..)
    refine h1.iff ⟨fun h => ⟨?_, h⟩, fun h => h.2⟩
    simp only [CodeSent, hs]
    rcases hk with rfl | rfl | rfl | rfl | rfl <;> simp

theorem s304_notes (c : Ctx) : (Status.s304 c).notes =
    (W.when (!Status.has c (str "date")) (Status.note c (str "status") .NO_DATE_304)).notes ++
    (W.when (!(Status.prohibited304.filter (Status.has c)).isEmpty)
    (Status.note c (str "field-content-type") .HEADER_SHOULD_NOT_BE_IN_304
      [(str "headers", markdownList (Status.prohibited304.filter (Status.has c)) (str "`"))])).notes := by
  unfold Status.s304
  rw [W.bind_ok (a := ())]
  unfold W.when; split <;> rfl

/-- **C42** -/
theorem C42_no_date_304 (hr : Reachable env m) (hk : m.kind = .response) (h : Finishes env related co ts m m' rn) :
    Adds1 .NO_DATE_304 m m' (CodeSent m 304 ∧ dhas m.headers.parsed (str "date") = false) := by
  refine adds1_code hr hk h rfl (by simp) rfl rfl ?_
  rw [s304_notes]
  exact .append_right (.when _ _ _ _ (has_iff ..)) (when_cls _ _ _ _ _ (by simp))

/-- **C42** -/
theorem C42_header_should_not_be_in_304 (hr : Reachable env m) (hk : m.kind = .response) (h : Finishes env related co ts m m' rn) :
    Adds1 .HEADER_SHOULD_NOT_BE_IN_304 m m' (CodeSent m 304 ∧ (dhas m.headers.parsed (str "content-type") = true ∨
      dhas m.headers.parsed (str "content-encoding") = true ∨ dhas m.headers.parsed (str "content-language") = true)) := by
  refine adds1_code hr hk h rfl (by simp) rfl rfl ?_
  rw [s304_notes]
  refine .append_left (.when _ _ _ _ ?_) (when_cls _ _ _ _ _ (by simp))
  simp only [Bool.not_eq_true', ← Bool.not_eq_true, List.isEmpty_iff, List.filter_eq_nil_iff, Status.prohibited304,
    Status.has]
  simp
  cases dhas m.headers.parsed (str "content-type") <;> cases dhas m.headers.parsed (str "content-encoding") <;>
    cases dhas m.headers.parsed (str "content-language") <;> simp

/-- one of the classes `a` (if `p`) and `b` (if not) -/
theorem One.ite {c : Ctx} {s s' a b vrs vrs'} {t : Bool} {p : Prop} (hab : a ≠ b) (h : t = true ↔ p) :
    One a (if t then Status.note c s a vrs else Status.note c s' b vrs').notes p ∧
    One b (if t then Status.note c s a vrs else Status.note c s' b vrs').notes (¬p) := by
  by_cases hp : p
  · rw [if_pos (h.2 hp)]
    exact ⟨(One.note ..).iff (by simp [hp]), .none (by simp [hp]) (note_cls _ _ _ _ hab)⟩
  · rw [if_neg fun ht => hp (h.1 ht)]
    exact ⟨.none hp (note_cls _ _ _ _ hab.symm), (One.note ..).iff (by simp [hp])⟩

/-- **C42**: a 405 response with an Allow header, to a request whose method is known, gets
STATUS_405_METHOD_IN_ALLOW exactly when Allow lists that method, and STATUS_METHOD_NOT_ALLOWED otherwise. -/
theorem C42_method_in_allow (hr : Reachable env m) (hk : m.kind = .response) (h : Finishes env related co ts m m' rn)
    {r : Msg} {me : Str} {allow : List Str} (hq : related = some r) (hme : r.method = some me) (hne : me ≠ [])
    (ha : dget m.headers.parsed (str "allow") = some (.list (allow.map .str))) :
    Adds1 .STATUS_405_METHOD_IN_ALLOW m m' (CodeSent m 405 ∧ me ∈ allow) ∧
    Adds1 .STATUS_METHOD_NOT_ALLOWED m m' (CodeSent m 405 ∧ me ∉ allow) := by
  have hm : Status.s405 ⟨env, m, related⟩ =
      if allow.contains me then Status.note ⟨env, m, related⟩ (str "field-allow") .STATUS_405_METHOD_IN_ALLOW [(str "method", .str me)]
      else Status.note ⟨env, m, related⟩ [] .STATUS_METHOD_NOT_ALLOWED [(str "method", .str me)] := by
    unfold Status.s405
    rw [request_eq hk, ha, hq]
    simp only [hme]
    have : me.isEmpty = false := by cases me with
      | nil => exact absurd rfl hne
      | cons => rfl
    have hc : (Val.list (allow.map .str)).contains (.str me) = .ok (allow.contains me) := by
      show Except.ok (List.any _ _) = _
      congr 1
      clear ha
      induction allow with
      | nil => rfl
      | cons a l ih =>
        rw [List.map_cons, List.any_cons, ih, List.contains_cons]
        rfl
    rw [this, hc]
    rfl
  have := One.ite (c := ⟨env, m, related⟩) (s := str "field-allow") (s' := []) (vrs := [(str "method", .str me)])
    (vrs' := [(str "method", .str me)]) (a := .STATUS_405_METHOD_IN_ALLOW) (b := .STATUS_METHOD_NOT_ALLOWED) (by simp)
    (t := allow.contains me) (p := me ∈ allow) (by simp)
  rw [← hm] at this
  exact ⟨adds1_code hr hk h rfl (by simp) rfl rfl this.1, adds1_code hr hk h rfl (by simp) rfl rfl this.2⟩

/-- **C42**: without an Allow header a 405 response always gets STATUS_METHOD_NOT_ALLOWED. -/
theorem C42_method_not_allowed (hr : Reachable env m) (hk : m.kind = .response) (h : Finishes env related co ts m m' rn)
    (ha : dget m.headers.parsed (str "allow") = none) :
    Adds1 .STATUS_405_METHOD_IN_ALLOW m m' False ∧ Adds1 .STATUS_METHOD_NOT_ALLOWED m m' (CodeSent m 405) := by
  have hm : ∃ v, Status.s405 ⟨env, m, related⟩ = Status.note ⟨env, m, related⟩ [] .STATUS_METHOD_NOT_ALLOWED v := by
    unfold Status.s405
    rw [ha]
    dsimp only
    split
    · rename_i hx; cases hx
    · exact ⟨_, rfl⟩
  obtain ⟨v, hm⟩ := hm
  have h1 : One .STATUS_405_METHOD_IN_ALLOW (Status.s405 ⟨env, m, related⟩).notes False := by
    rw [hm]; exact .none (by simp) (note_cls _ _ _ _ (by simp))
  have h2 : One .STATUS_METHOD_NOT_ALLOWED (Status.s405 ⟨env, m, related⟩).notes True := by
    rw [hm]; exact .note ..
  have a1 := adds1_code hr hk h (c := .STATUS_405_METHOD_IN_ALLOW) rfl (by simp) rfl rfl h1
  have a2 := adds1_code hr hk h (c := .STATUS_METHOD_NOT_ALLOWED) rfl (by simp) rfl rfl h2
  simp only [and_false] at a1
  simp only [and_true] at a2
  exact ⟨a1, a2⟩

/-- the request has been given and lacks all of the fields -/
def RequestLacksAll (related : Option Msg) (names : List Str) : Prop :=
  ∃ r, related = some r ∧ ∀ n ∈ names, ∀ l ∈ r.headers.text, lower l.1 ≠ n

theorem lacksAll_iff (r : Msg) (names : List Str) :
    (!names.any (fun h => !(Status.req r h).isEmpty)) = true ↔ RequestLacksAll (some r) names := by
  unfold RequestLacksAll Status.req
  rw [Bool.not_eq_true', List.any_eq_false]
  constructor
  · intro h
    refine ⟨r, rfl, fun n hn => (getHeader_isEmpty _ _).1 ?_⟩
    simpa using h n hn
  · rintro ⟨r', e, h⟩ n hn
    cases e
    rw [(getHeader_isEmpty _ _).2 (h n hn)]
    simp

theorem One.request {c : Ctx} {a b s s' vrs vrs'} {t : Msg → Bool} {names : List Str} (hab : a ≠ b)
    (h : ∀ r, t r = true ↔ RequestLacksAll (some r) names) {w : W Unit}
    (hw : w = match related with
      | .some r => if t r then Status.note c s a vrs else Status.note c s' b vrs'
      | .none => Status.note c s' b vrs') :
    One a w.notes (RequestLacksAll related names) ∧ One b w.notes (¬RequestLacksAll related names) := by
  subst hw
  cases related with
  | some r => exact One.ite hab (h r)
  | none =>
    exact ⟨.none no_lacks (note_cls _ _ _ _ hab.symm), (One.note ..).iff (by simp [RequestLacksAll])⟩

/-- **C42** -/
theorem C42_not_acceptable (hr : Reachable env m) (hk : m.kind = .response) (h : Finishes env related co ts m m' rn) :
    Adds1 .STATUS_406_WITHOUT_NEGOTIATION m m' (CodeSent m 406 ∧ RequestLacksAll related
      [str "accept", str "accept-charset", str "accept-encoding", str "accept-language"]) ∧
    Adds1 .STATUS_NOT_ACCEPTABLE m m' (CodeSent m 406 ∧ ¬RequestLacksAll related
      [str "accept", str "accept-charset", str "accept-encoding", str "accept-language"]) := by
  have := One.request (related := related) (w := Status.s406 ⟨env, m, related⟩) (c := ⟨env, m, related⟩)
    (a := .STATUS_406_WITHOUT_NEGOTIATION) (b := .STATUS_NOT_ACCEPTABLE) (s := []) (s' := []) (vrs := []) (vrs' := []) (by simp)
    (fun r => lacksAll_iff r [str "accept", str "accept-charset", str "accept-encoding", str "accept-language"])
    (by unfold Status.s406; rw [request_eq hk]; cases related <;> rfl)
  exact ⟨adds1_code hr hk h rfl (by simp) rfl rfl this.1, adds1_code hr hk h rfl (by simp) rfl rfl this.2⟩

/-- **C42** -/
theorem C42_precondition_failed (hr : Reachable env m) (hk : m.kind = .response) (h : Finishes env related co ts m m' rn) :
    Adds1 .STATUS_412_WITHOUT_PRECONDITION m m' (CodeSent m 412 ∧ RequestLacksAll related
      [str "if-match", str "if-none-match", str "if-modified-since", str "if-unmodified-since", str "if-range"]) ∧
    Adds1 .STATUS_PRECONDITION_FAILED m m' (CodeSent m 412 ∧ ¬RequestLacksAll related
      [str "if-match", str "if-none-match", str "if-modified-since", str "if-unmodified-since", str "if-range"]) := by
  have := One.request (related := related) (w := Status.s412 ⟨env, m, related⟩) (c := ⟨env, m, related⟩)
    (a := .STATUS_412_WITHOUT_PRECONDITION) (b := .STATUS_PRECONDITION_FAILED) (s := []) (s' := []) (vrs := []) (vrs' := []) (by simp)
    (fun r => lacksAll_iff r [str "if-match", str "if-none-match", str "if-modified-since", str "if-unmodified-since", str "if-range"])
    (by unfold Status.s412; rw [request_eq hk]; cases related <;> rfl)
  exact ⟨adds1_code hr hk h rfl (by simp) rfl rfl this.1, adds1_code hr hk h rfl (by simp) rfl rfl this.2⟩

/-- **C42** -/
theorem C42_416_without_range (hr : Reachable env m) (hk : m.kind = .response) (h : Finishes env related co ts m m' rn) :
    Adds1 .STATUS_416_WITHOUT_RANGE m m' (CodeSent m 416 ∧ RequestLacks related (str "range")) := by
  refine adds1_code hr hk h rfl (by simp) rfl rfl ?_
  unfold Status.s416
  rw [request_eq hk]
  cases related with
  | none => exact .none no_lacks (by simp)
  | some r => exact .when _ _ _ _ (lacks_iff r _)

/-- **C42**: a 417 response gets exactly one of three notes. -/
theorem C42_expectation_failed (hr : Reachable env m) (hk : m.kind = .response) (h : Finishes env related co ts m m' rn) :
    Adds1 .STATUS_417_WITHOUT_EXPECT m m' (CodeSent m 417 ∧ RequestLacks related (str "expect")) ∧
    Adds1 .STATUS_417_WITH_100_CONTINUE m m' (CodeSent m 417 ∧ related.isSome ∧
      ¬RequestLacksValue related (str "expect") (str "100-continue")) ∧
    Adds1 .STATUS_EXPECTATION_FAILED m m' (CodeSent m 417 ∧ ¬RequestLacks related (str "expect") ∧
      (related.isSome → RequestLacksValue related (str "expect") (str "100-continue"))) := by
  suffices key : One .STATUS_417_WITHOUT_EXPECT (Status.s417 ⟨env, m, related⟩).notes (RequestLacks related (str "expect")) ∧
      One .STATUS_417_WITH_100_CONTINUE (Status.s417 ⟨env, m, related⟩).notes (related.isSome ∧
        ¬RequestLacksValue related (str "expect") (str "100-continue")) ∧
      One .STATUS_EXPECTATION_FAILED (Status.s417 ⟨env, m, related⟩).notes (¬RequestLacks related (str "expect") ∧
        (related.isSome → RequestLacksValue related (str "expect") (str "100-continue"))) from
    ⟨adds1_code hr hk h rfl (by simp) rfl rfl key.1, adds1_code hr hk h rfl (by simp) rfl rfl key.2.1,
      adds1_code hr hk h rfl (by simp) rfl rfl key.2.2⟩
  unfold Status.s417
  rw [request_eq hk]
  cases related with
  | none =>
    refine ⟨.none no_lacks (note_cls _ _ _ _ (by simp)), .none (by simp) (note_cls _ _ _ _ (by simp)), (One.note ..).iff ?_⟩
    simp only [true_iff]
    exact ⟨no_lacks, by simp⟩
  | some r =>
    dsimp only
    have l1 := lacks_iff r (str "expect")
    have l2 := lacksValue_iff r (str "expect") (str "100-continue")
    by_cases h1 : RequestLacks (some r) (str "expect")
    · rw [if_pos (l1.2 h1)]
      have h2 : RequestLacksValue (some r) (str "expect") (str "100-continue") := by
        obtain ⟨r', e, hl⟩ := h1
        exact ⟨r', e, fun l hl' e => absurd e (hl l hl')⟩
      exact ⟨(One.note ..).iff (by simp [h1]), .none (by simp [h2]) (note_cls _ _ _ _ (by simp)),
        .none (by simp [h1]) (note_cls _ _ _ _ (by simp))⟩
    · rw [if_neg fun e => h1 (l1.1 e)]
      by_cases h2 : RequestLacksValue (some r) (str "expect") (str "100-continue")
      · have : (Status.req r (str "expect")).contains (str "100-continue") = false := by simpa using l2.2 h2
        rw [this, if_neg (by simp)]
        exact ⟨.none h1 (note_cls _ _ _ _ (by simp)), .none (by simp [h2]) (note_cls _ _ _ _ (by simp)),
          (One.note ..).iff (by simp [h1, h2])⟩
      · have : (Status.req r (str "expect")).contains (str "100-continue") = true := by
          cases e : (Status.req r (str "expect")).contains (str "100-continue") with
          | true => rfl
          | false => exact absurd (l2.1 (by rw [e]; rfl)) h2
        rw [this, if_pos rfl]
        exact ⟨.none h1 (note_cls _ _ _ _ (by simp)), (One.note ..).iff (by simp [h2]),
          .none (by simp [h2]) (note_cls _ _ _ _ (by simp))⟩

/-- the notes that go with a status code unconditionally -/
def plainNotes : List (Int × NoteId) :=
  [(103, .STATUS_EARLY_HINTS), (104, .STATUS_UPLOAD_RESUMPTION_SUPPORTED), (208, .STATUS_ALREADY_REPORTED),
   (305, .STATUS_DEPRECATED), (306, .STATUS_RESERVED), (400, .STATUS_BAD_REQUEST), (403, .STATUS_FORBIDDEN),
   (404, .STATUS_NOT_FOUND), (409, .STATUS_CONFLICT), (410, .STATUS_GONE), (413, .STATUS_REQUEST_ENTITY_TOO_LARGE),
   (414, .STATUS_URI_TOO_LONG), (415, .STATUS_UNSUPPORTED_MEDIA_TYPE), (418, .STATUS_IM_A_TEAPOT),
   (421, .STATUS_MISDIRECTED_REQUEST), (425, .STATUS_TOO_EARLY), (428, .STATUS_PRECONDITION_REQUIRED),
   (429, .STATUS_TOO_MANY_REQUESTS), (431, .STATUS_REQUEST_HEADER_FIELDS_TOO_LARGE),
   (451, .STATUS_UNAVAILABLE_FOR_LEGAL_REASONS), (500, .STATUS_INTERNAL_SERVICE_ERROR), (501, .STATUS_NOT_IMPLEMENTED),
   (502, .STATUS_BAD_GATEWAY), (503, .STATUS_SERVICE_UNAVAILABLE), (504, .STATUS_GATEWAY_TIMEOUT),
   (505, .STATUS_VERSION_NOT_SUPPORTED), (508, .STATUS_LOOP_DETECTED), (511, .STATUS_NETWORK_AUTHENTICATION_REQUIRED)]

/-- **C42**: each of these is added exactly when the response has that status code. -/
theorem C42_plain_notes (hr : Reachable env m) (hk : m.kind = .response) (h : Finishes env related co ts m m' rn)
    {k : Int} {c : NoteId} (hc : (k, c) ∈ plainNotes) : Adds1 c m m' (CodeSent m k) := by
  suffices key : Adds1 c m m' (CodeSent m k ∧ True) by simpa using key
  simp only [plainNotes, List.mem_cons, Prod.mk.injEq, List.not_mem_nil, or_false] at hc
  rcases hc with ⟨rfl, rfl⟩ | ⟨rfl, rfl⟩ | ⟨rfl, rfl⟩ | ⟨rfl, rfl⟩ | ⟨rfl, rfl⟩ | ⟨rfl, rfl⟩ | ⟨rfl, rfl⟩ | ⟨rfl, rfl⟩ | ⟨rfl, rfl⟩ | ⟨rfl, rfl⟩ |
    ⟨rfl, rfl⟩ | ⟨rfl, rfl⟩ | ⟨rfl, rfl⟩ | ⟨rfl, rfl⟩ | ⟨rfl, rfl⟩ | ⟨rfl, rfl⟩ | ⟨rfl, rfl⟩ | ⟨rfl, rfl⟩ | ⟨rfl, rfl⟩ | ⟨rfl, rfl⟩ | ⟨rfl, rfl⟩ | ⟨rfl, rfl⟩ |
    ⟨rfl, rfl⟩ | ⟨rfl, rfl⟩ | ⟨rfl, rfl⟩ | ⟨rfl, rfl⟩ | ⟨rfl, rfl⟩ | ⟨rfl, rfl⟩ <;>
  exact adds1_code hr hk h rfl (by simp) rfl rfl (One.note ..)

end

/-! Concrete histories: a response with the given status and fields, to a request with the given method and fields. -/

/-- the request linter -/
def exStatusRequest (method : Str) (fields : List (Str × Str)) : Msg :=
  (Op.runAll toyEnv [.requestTopline method (str "/") (str "1.1"), .headers fields] ⟨fresh toyEnv .request none false false, none⟩).msg

/-- the response linter before `finish_content` -/
def exStatusResponse (related : Option Msg) (status : Str) (fields : List (Str × Str)) : Msg :=
  (Op.runAll toyEnv [.responseTopline (str "1.1") status none, .headers fields] ⟨fresh toyEnv .response none false false, related⟩).msg

/-- the status notes of a finished response, with their `status`, and how `finish_content` ended -/
def exStatus (related : Option Msg) (status : Str) (fields : List (Str × Str)) : Except Exn Unit × List (NoteId × Option Val) :=
  let r := ((exStatusResponse related status fields).finishContent toyEnv related true []).1
  (r.2, (sel (fun c => c.origin == .status) r.1.notes).map fun n => (n.cls, dget n.vars (str "status")))

example : exStatus none (str "299") [] = (.ok (), [(.STATUS_NONSTANDARD, some (.int 299))]) := by decide +kernel
example : exStatus none (str "oops") [] = (.ok (), [(.STATUS_NONSTANDARD, some (.int 0))]) := by decide +kernel
example : exStatus (exStatusRequest (str "GET") []) (str "100") [] = (.ok (), [(.UNEXPECTED_CONTINUE, some (.int 100))]) := by decide +kernel
example : exStatus (exStatusRequest (str "GET") [(str "Expect", str "a, 100-continue")]) (str "100") [] = (.ok (), []) := by decide +kernel
example : exStatus (exStatusRequest (str "GET") []) (str "201") [] =
    (.ok (), [(.CREATED_SAFE_METHOD, some (.int 201)), (.CREATED_WITHOUT_LOCATION, some (.int 201))]) := by decide +kernel
example : exStatus (exStatusRequest (str "GET") []) (str "405") [(str "Allow", str "PUT, GET")] =
    (.ok (), [(.STATUS_405_METHOD_IN_ALLOW, some (.int 405))]) := by decide +kernel
example : dget (exStatusResponse (exStatusRequest (str "GET") []) (str "405") [(str "Allow", str "PUT, GET")]).headers.parsed (str "allow") =
    some (.list ([str "PUT", str "GET"].map .str)) := by decide +kernel
example : exStatus (exStatusRequest (str "GET") [(str "Expect", str "x")]) (str "417") [] =
    (.ok (), [(.STATUS_EXPECTATION_FAILED, some (.int 417))]) := by decide +kernel
example : exStatus (exStatusRequest (str "GET") []) (str "304") [(str "Content-Type", str "a/b")] =
    (.ok (), [(.NO_DATE_304, some (.int 304)), (.HEADER_SHOULD_NOT_BE_IN_304, some (.int 304))]) := by decide +kernel

end HL.Props
