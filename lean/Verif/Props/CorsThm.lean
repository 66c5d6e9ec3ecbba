import Verif.Props.ContentRangeThm
import Verif.Props.StatusThm
import Verif.Props.CachingEx

/-!
# Cross-origin requests (C44, C45)
-/

namespace HL.Props

/-! ### specification -/

/-- the field was sent -/
def HasField (m : Msg) (name : Str) : Prop := dhas m.headers.parsed name = true

/-- a CORS preflight: an OPTIONS request with `Origin` and `Access-Control-Request-Method` -/
def IsPreflight (r : Msg) : Prop :=
  r.method = some (str "OPTIONS") ∧ HasField r (str "origin") ∧ HasField r (str "access-control-request-method")

/-- the response answers a preflight -/
def AnswersPreflight (related : Option Msg) : Prop := ∃ r, related = some r ∧ IsPreflight r

/-- the fields that belong in answers to preflights -/
def preflightFields : List (Str × Str) :=
  [(str "access-control-allow-headers", str "Access-Control-Allow-Headers"),
   (str "access-control-allow-methods", str "Access-Control-Allow-Methods"),
   (str "access-control-max-age", str "Access-Control-Max-Age")]

/-- those of them that were sent, by name -/
def preflightSent (m : Msg) : List Str := (preflightFields.filter fun p => dhas m.headers.parsed p.1).map (·.2)

/-! ### proofs -/

section
variable {env : Env} {related : Option Msg} {co : Bool} {ts : List (Str × Str)} {m m' : Msg} {rn : List Note}

theorem isPreflight_iff (r : Msg) : F.isPreflight r = true ↔ IsPreflight r := by
  unfold F.isPreflight IsPreflight HasField
  rw [Bool.and_eq_true, Bool.and_eq_true, beq_iff_eq, and_assoc]

theorem finish_preflight (hr : Reachable env m) (h : Finishes env related co ts m m' rn) {X : NoteId} (hX : X.origin = .cors) :
    ofClass X m'.notes = ofClass X m.notes ++ ofClass X (match m.kind with
      | .request => (F.checkPreflightRequest ⟨env, m, related⟩ (m.adder [])).notes
      | .response => (F.checkPreflightResponse ⟨env, m, related⟩ (m.adder [])).notes) :=
  finish_cors (q := fun x => x == X) hr.good h (by intro c hc; rw [(beq_iff_eq.1 hc : c = X)]; exact hX)

theorem Adds1.of {X : NoteId} {ns : List Note} {p : Prop} (h : ofClass X m'.notes = ofClass X m.notes ++ ofClass X ns) (h1 : One X ns p) : Adds1 X m m' p := by
  unfold Adds1
  rw [h]
  rcases h1 with ⟨hp, n, hn, e⟩ | ⟨hp, e⟩
  · exact .inl ⟨hp, n, hn, by rw [e]⟩
  · exact .inr ⟨hp, by rw [e, List.append_nil]⟩

theorem One.of_count {X : NoteId} {ns : List Note} {b : Bool} {p : Prop} (hc : (ns.map (·.cls)).count X = if b then 1 else 0) (h : b = true ↔ p) : One X ns p := by
  have e : (ofClass X ns).length = if b then 1 else 0 := by
    rw [← hc]
    unfold ofClass
    rw [List.count_eq_countP, List.countP_map, ← List.countP_eq_length_filter]
    rfl
  cases b with
  | false => exact .inr ⟨fun hp => (nomatch h.2 hp), List.length_eq_zero_iff.1 e⟩
  | true =>
    obtain ⟨n, hn⟩ := List.length_eq_one_iff.1 e
    refine .inl ⟨h.1 rfl, n, ?_, hn⟩
    have : n ∈ ofClass X ns := by rw [hn]; simp
    simpa [ofClass] using (List.mem_filter.1 this).2

theorem request_notes (c : Ctx) (add : AddNote) :
    (F.checkPreflightRequest c add).notes.map (·.cls) =
      let o := c.msg.method == some (str "OPTIONS")
      let g := dhas c.msg.headers.parsed (str "origin")
      let a := dhas c.msg.headers.parsed (str "access-control-request-method")
      let b := dhas c.msg.headers.parsed (str "access-control-request-headers")
      (if o && g && a then [.CORS_PREFLIGHT_REQUEST] else []) ++
      (if a || b then (if !o then [.CORS_PREFLIGHT_REQ_METHOD_WRONG] else []) ++ (if !g then [.CORS_PREFLIGHT_REQ_NO_ORIGIN] else []) ++
        (if !a then [.CORS_PREFLIGHT_REQ_NO_METHOD] else []) else []) := by
  unfold F.checkPreflightRequest F.isPreflight
  dsimp only
  rw [show (c.msg.method != some (str "OPTIONS")) = !(c.msg.method == some (str "OPTIONS")) from rfl]
  generalize (c.msg.method == some (str "OPTIONS")) = o
  generalize dhas c.msg.headers.parsed (str "origin") = g
  generalize dhas c.msg.headers.parsed (str "access-control-request-method") = a
  generalize dhas c.msg.headers.parsed (str "access-control-request-headers") = b
  cases o <;> cases g <;> cases a <;> cases b <;> rfl

/-- **C44** (requests) finishing a request, `CORS_PREFLIGHT_REQUEST` is added exactly when it is a preflight; and if one of
the fields of preflights was sent, what it lacks to be one is reported. -/
theorem C44_preflight_request (hr : Reachable env m) (hk : m.kind = .request) (h : Finishes env related co ts m m' rn) :
    Adds1 .CORS_PREFLIGHT_REQUEST m m' (IsPreflight m) ∧
    Adds1 .CORS_PREFLIGHT_REQ_METHOD_WRONG m m'
      ((HasField m (str "access-control-request-method") ∨ HasField m (str "access-control-request-headers")) ∧ m.method ≠ some (str "OPTIONS")) ∧
    Adds1 .CORS_PREFLIGHT_REQ_NO_ORIGIN m m'
      ((HasField m (str "access-control-request-method") ∨ HasField m (str "access-control-request-headers")) ∧ ¬ HasField m (str "origin")) ∧
    Adds1 .CORS_PREFLIGHT_REQ_NO_METHOD m m'
      (HasField m (str "access-control-request-headers") ∧ ¬ HasField m (str "access-control-request-method")) := by
  have hn := request_notes ⟨env, m, related⟩ (m.adder [])
  dsimp only at hn
  have key : ∀ {X : NoteId} {b : Bool} {p : Prop}, X.origin = .cors →
      ((F.checkPreflightRequest ⟨env, m, related⟩ (m.adder [])).notes.map (·.cls)).count X = (if b then 1 else 0) → (b = true ↔ p) → Adds1 X m m' p := by
    intro X b p ho hc hp
    have := finish_preflight hr h ho
    rw [hk] at this
    exact Adds1.of this (One.of_count hc hp)
  refine ⟨key (b := F.isPreflight m) rfl ?_ (isPreflight_iff m),
    key (b := (dhas m.headers.parsed (str "access-control-request-method") || dhas m.headers.parsed (str "access-control-request-headers")) && !(m.method == some (str "OPTIONS"))) rfl ?_ ?_,
    key (b := (dhas m.headers.parsed (str "access-control-request-method") || dhas m.headers.parsed (str "access-control-request-headers")) && !dhas m.headers.parsed (str "origin")) rfl ?_ ?_,
    key (b := dhas m.headers.parsed (str "access-control-request-headers") && !dhas m.headers.parsed (str "access-control-request-method")) rfl ?_ ?_⟩
  any_goals
    rw [hn]
    try unfold F.isPreflight
    generalize (m.method == some (str "OPTIONS")) = o
    generalize dhas m.headers.parsed (str "origin") = g
    generalize dhas m.headers.parsed (str "access-control-request-method") = a
    generalize dhas m.headers.parsed (str "access-control-request-headers") = b
    cases o <;> cases g <;> cases a <;> cases b <;> rfl
  all_goals unfold HasField; simp

/-! #### responses -/

theorem preflight_canon {s : Section} (hi : IdSec env s) : ∀ p ∈ preflightFields, ∀ h, dget s.handlers p.1 = some h → h.canonicalName = p.2 := by
  intro p hp h hd
  obtain ⟨name, hn, sid⟩ := (hi.hs (p.1, h) (dget_mem hd)).1
  dsimp only at hn sid
  rw [sid.canon]
  have hc : classOf name = classOf p.1 := by
    apply classOf_lower
    rw [hn]
    have : ∀ p ∈ preflightFields, p.1 = lower p.1 := by decide
    exact this p hp
  rw [hc]
  have : ∀ p ∈ preflightFields, (classOf p.1).info.canonicalName = some p.2 ∧ classOf p.1 ≠ .deprecatedField := by decide +kernel
  obtain ⟨h1, h2⟩ := this p hp
  unfold mkHandler
  dsimp only
  split
  · rename_i e _; exact absurd e h2
  · show (classOf p.1).info.canonicalName.getD _ = _
    rw [h1]; rfl

theorem badPreflight_eq {s : Section} (hi : IdSec env s) : ∀ fs : List (Str × Str), (∀ p ∈ fs, p ∈ preflightFields) → ∀ l,
    F.badPreflightHeaders s (fs.map (·.1)) = .ok l → l = (fs.filter fun p => dhas s.parsed p.1).map (·.2)
  | [], _, l, h => by cases h; rfl
  | p :: fs, hfs, l, h => by
    rw [List.map_cons] at h
    unfold F.badPreflightHeaders at h
    rw [List.filter_cons]
    split at h
    · rename_i hd
      rw [if_pos hd]
      split at h
      · exact nomatch h
      · rename_i hh he
        cases hb : F.badPreflightHeaders s (fs.map (·.1)) with
        | error e => rw [hb] at h; exact nomatch h
        | ok l' =>
          rw [hb] at h
          cases h
          rw [badPreflight_eq hi fs (fun q hq => hfs q (by simp [hq])) l' hb, preflight_canon hi p (hfs p (by simp)) hh he]
          rfl
    · rename_i hd
      rw [if_neg hd]
      exact badPreflight_eq hi fs (fun q hq => hfs q (by simp [hq])) l h

def answersPre (r : Option Msg) : Bool := match r with | some r => F.isPreflight r | none => false

/-- the notes of `check_preflight_response`, when it returns -/
theorem response_notes {c : Ctx} {add : AddNote} (hi : IdSec env c.msg.headers) (hres : (F.checkPreflightResponse c add).res = .ok ()) :
    (F.checkPreflightResponse c add).notes =
      (if answersPre c.request then [(add.on []).mk1 .CORS_PREFLIGHT_RESPONSE]
       else if (preflightSent c.msg).isEmpty then [] else
        [(add.on (str "header-access-control-allow-headers")).mk1 .CORS_PREFLIGHT_ONLY [(str "headers", .str (join (str ", ") (preflightSent c.msg)))]]) ++
      (match dget c.msg.headers.parsed (str "access-control-allow-origin") with
       | some (.str v) => if v.contains 32 || v.contains 44 then [(add.on (str "header-access-control-allow-origin")).mk1 .ACAO_MULTIPLE_VALUES] else []
       | _ => []) := by
  have hb : ∀ l, F.badPreflightHeaders c.msg.headers F.preflightOnly = .ok l → l = preflightSent c.msg :=
    badPreflight_eq hi preflightFields (fun p hp => hp)
  have tail : ∀ w : W Unit, w = (match dget c.msg.headers.parsed (str "access-control-allow-origin") with
      | some (.str v) => W.when (v.contains 32 || v.contains 44) ((add.on (str "header-access-control-allow-origin")).add .ACAO_MULTIPLE_VALUES)
      | _ => pure ()) → w.notes = (match dget c.msg.headers.parsed (str "access-control-allow-origin") with
       | some (.str v) => if v.contains 32 || v.contains 44 then [(add.on (str "header-access-control-allow-origin")).mk1 .ACAO_MULTIPLE_VALUES] else []
       | _ => []) := by
    rintro w rfl
    split
    · unfold W.when; split <;> rfl
    · rfl
  have key : ∀ (pre : Bool) (w : W Unit), w = (do
      if pre then (add.on []).add .CORS_PREFLIGHT_RESPONSE
      else do
        let bad ← W.lift (F.badPreflightHeaders c.msg.headers F.preflightOnly)
        W.when (!bad.isEmpty) ((add.on (str "header-access-control-allow-headers")).add .CORS_PREFLIGHT_ONLY [(str "headers", .str (join (str ", ") bad))])
      match dget c.msg.headers.parsed (str "access-control-allow-origin") with
      | some (.str v) => W.when (v.contains 32 || v.contains 44) ((add.on (str "header-access-control-allow-origin")).add .ACAO_MULTIPLE_VALUES)
      | _ => pure ()) → w.res = .ok () → w.notes =
      (if pre then [(add.on []).mk1 .CORS_PREFLIGHT_RESPONSE]
       else if (preflightSent c.msg).isEmpty then [] else
        [(add.on (str "header-access-control-allow-headers")).mk1 .CORS_PREFLIGHT_ONLY [(str "headers", .str (join (str ", ") (preflightSent c.msg)))]]) ++
      (match dget c.msg.headers.parsed (str "access-control-allow-origin") with
       | some (.str v) => if v.contains 32 || v.contains 44 then [(add.on (str "header-access-control-allow-origin")).mk1 .ACAO_MULTIPLE_VALUES] else []
       | _ => []) := by
    rintro pre w rfl hres
    cases pre with
    | true =>
      rw [if_pos rfl] at hres ⊢
      rw [if_pos rfl]
      exact congrArg (_ :: ·) (tail _ rfl)
    | false =>
      rw [if_neg (by decide)] at hres ⊢
      rw [if_neg (by decide)]
      cases hl : F.badPreflightHeaders c.msg.headers F.preflightOnly with
      | error e => rw [hl] at hres; exact nomatch hres
      | ok l =>
        rw [hb l hl]
        rw [W.bind_ok (a := preflightSent c.msg) rfl]
        cases he : (preflightSent c.msg).isEmpty with
        | true =>
          rw [if_pos rfl]
          exact tail _ rfl
        | false =>
          rw [if_neg (by decide)]
          exact congrArg (_ :: ·) (tail _ rfl)
  refine key (answersPre c.request) _ ?_ hres
  unfold F.checkPreflightResponse answersPre
  dsimp only
  cases c.request with
  | none => rfl
  | some r =>
    dsimp only
    by_cases hp : F.isPreflight r = true
    · rw [if_pos hp, if_pos hp]
      rfl
    · rw [if_neg hp, if_neg hp]
      rfl

theorem answersPre_iff (r : Option Msg) : answersPre r = true ↔ AnswersPreflight r := by
  unfold answersPre AnswersPreflight
  cases r with
  | none => simp
  | some r =>
    constructor
    · exact fun h => ⟨r, rfl, (isPreflight_iff r).1 h⟩
    · rintro ⟨_, ⟨⟩, h⟩
      exact (isPreflight_iff r).2 h

/-- the origin a response allows, as text -/
def SeveralOrigins (m : Msg) : Prop :=
  ∃ v : Str, dget m.headers.parsed (str "access-control-allow-origin") = some (.str v) ∧ (32 ∈ v ∨ 44 ∈ v)

theorem mk1_class {X Y : NoteId} {a : AddNote} {vs} (h : X ≠ Y) : ofClass X [a.mk1 Y vs] = [] := by
  unfold ofClass
  rw [List.filter_eq_nil_iff]
  intro n hn
  rw [List.mem_singleton.1 hn]
  intro e
  exact h (beq_iff_eq.1 e).symm

/-- finishing a response, what the CORS check adds -/
theorem finish_response_cors (hr : Reachable env m) (hk : m.kind = .response) (h : Finishes env related co ts m m' rn) {X : NoteId} (hX : X.origin = .cors) :
    ofClass X m'.notes = ofClass X m.notes ++ ofClass X (
      (if answersPre related then [((m.adder []).on []).mk1 .CORS_PREFLIGHT_RESPONSE]
       else if (preflightSent m).isEmpty then [] else
        [((m.adder []).on (str "header-access-control-allow-headers")).mk1 .CORS_PREFLIGHT_ONLY [(str "headers", .str (join (str ", ") (preflightSent m)))]]) ++
      (match dget m.headers.parsed (str "access-control-allow-origin") with
       | some (.str v) => if v.contains 32 || v.contains 44 then [((m.adder []).on (str "header-access-control-allow-origin")).mk1 .ACAO_MULTIPLE_VALUES] else []
       | _ => [])) := by
  obtain ⟨_, _, _, _, _, _, _, _, hran⟩ := finish_response_full env related co ts m m' rn hr.good hk h
  have h1 := finish_preflight hr h hX
  rw [hk] at h1
  dsimp only at h1
  rw [response_notes ((idInv env).reachable hr trivial false) hran.1, request_eq hk] at h1
  exact h1

theorem ofClass_append' {X : NoteId} (a b : List Note) : ofClass X (a ++ b) = ofClass X a ++ ofClass X b := List.filter_append ..

theorem acao_other {X : NoteId} (h : X ≠ .ACAO_MULTIPLE_VALUES) (o : Option Val) (a : AddNote) : ofClass X (match o with
       | some (.str v) => if v.contains 32 || v.contains 44 then [a.mk1 .ACAO_MULTIPLE_VALUES] else []
       | _ => []) = [] := by
  split
  · split
    · exact mk1_class h
    · rfl
  · rfl

/-- **C44** (responses) finishing a response, `CORS_PREFLIGHT_RESPONSE` is added exactly when it answers a preflight;
`CORS_PREFLIGHT_ONLY` exactly when it does not and yet has fields that belong in answers to preflights, which it names in
order; and `ACAO_MULTIPLE_VALUES` exactly when `Access-Control-Allow-Origin` contains a space or a comma. -/
theorem C44_preflight_response (hr : Reachable env m) (hk : m.kind = .response) (h : Finishes env related co ts m m' rn) :
    Adds1 .CORS_PREFLIGHT_RESPONSE m m' (AnswersPreflight related) ∧
    Adds1 .CORS_PREFLIGHT_ONLY m m' (¬ AnswersPreflight related ∧ ∃ f ∈ preflightFields, HasField m f.1) ∧
    Adds1 .ACAO_MULTIPLE_VALUES m m' (SeveralOrigins m) := by
  have hA := answersPre_iff related
  refine ⟨.of (finish_response_cors hr hk h rfl) ?_, .of (finish_response_cors hr hk h rfl) ?_, .of (finish_response_cors hr hk h rfl) ?_⟩
  · unfold One
    rw [ofClass_append', acao_other (by decide), List.append_nil, ← hA]
    cases answersPre related with
    | true => exact .inl ⟨rfl, _, rfl, rfl⟩
    | false =>
      refine .inr ⟨by decide, ?_⟩
      rw [if_neg (by decide)]
      split
      · rfl
      · exact mk1_class (by decide)
  · unfold One
    rw [ofClass_append', acao_other (by decide), List.append_nil, ← hA]
    have he : (preflightSent m).isEmpty = false ↔ ∃ f ∈ preflightFields, HasField m f.1 := by
      unfold preflightSent HasField
      rw [Bool.eq_false_iff, ne_eq, List.isEmpty_iff, List.map_eq_nil_iff, List.filter_eq_nil_iff]
      constructor
      · intro hn
        apply Classical.byContradiction
        intro hc
        exact hn fun a ha hd => hc ⟨a, ha, hd⟩
      · rintro ⟨a, ha, hd⟩ hn
        exact hn a ha hd
    rw [← he]
    cases answersPre related with
    | true =>
      refine .inr ⟨by simp, ?_⟩
      rw [if_pos rfl]
      exact mk1_class (by decide)
    | false =>
      rw [if_neg (by decide)]
      cases (preflightSent m).isEmpty with
      | true => exact .inr ⟨by simp, rfl⟩
      | false => exact .inl ⟨⟨by decide, rfl⟩, _, rfl, rfl⟩
  · unfold One
    rw [ofClass_append']
    have h1 : ofClass .ACAO_MULTIPLE_VALUES (if answersPre related then [((m.adder []).on []).mk1 .CORS_PREFLIGHT_RESPONSE]
       else if (preflightSent m).isEmpty then [] else
        [((m.adder []).on (str "header-access-control-allow-headers")).mk1 .CORS_PREFLIGHT_ONLY [(str "headers", .str (join (str ", ") (preflightSent m)))]]) = [] := by
      split
      · exact mk1_class (by decide)
      · split
        · rfl
        · exact mk1_class (by decide)
    rw [h1, List.nil_append]
    unfold SeveralOrigins
    split
    · rename_i v hv
      have hb : (v.contains 32 || v.contains 44) = true ↔ (32 ∈ v ∨ 44 ∈ v) := by simp
      by_cases hc : (v.contains 32 || v.contains 44) = true
      · rw [if_pos hc]
        exact .inl ⟨⟨v, hv, hb.1 hc⟩, _, rfl, rfl⟩
      · rw [if_neg hc]
        refine .inr ⟨?_, rfl⟩
        rintro ⟨w, hw, hs⟩
        rw [hv] at hw
        injection hw with hw; injection hw with hw; injection hw with hw
        exact hc (hb.2 (hw ▸ hs))
    · rename_i hn
      refine .inr ⟨?_, rfl⟩
      rintro ⟨w, hw, hs⟩
      exact hn w hw

/-- **C44** (which fields) the names in `CORS_PREFLIGHT_ONLY` are those of the fields sent -/
theorem C44_preflight_only_names (hr : Reachable env m) (hk : m.kind = .response) (h : Finishes env related co ts m m' rn)
    (ha : ¬ AnswersPreflight related) (hs : ∃ f ∈ preflightFields, HasField m f.1) :
    ∃ n, ofClass .CORS_PREFLIGHT_ONLY m'.notes = ofClass .CORS_PREFLIGHT_ONLY m.notes ++ [n] ∧
      n.subject = str "header-access-control-allow-headers" ∧ dget n.vars (str "headers") = some (.str (join (str ", ") (preflightSent m))) := by
  have h1 := finish_response_cors hr hk h (X := .CORS_PREFLIGHT_ONLY) rfl
  rw [ofClass_append', acao_other (by decide), List.append_nil] at h1
  have hb : answersPre related = false := by
    rw [Bool.eq_false_iff, ne_eq, answersPre_iff]; exact ha
  have he : (preflightSent m).isEmpty = false := by
    obtain ⟨f, hf, hd⟩ := hs
    rw [Bool.eq_false_iff, ne_eq, List.isEmpty_iff]
    unfold preflightSent
    rw [List.map_eq_nil_iff, List.filter_eq_nil_iff]
    exact fun hn => hn f hf hd
  rw [hb, he, if_neg (by decide), if_neg (by decide)] at h1
  exact ⟨_, h1, rfl, by rw [dget_mk1_nobase rfl]; rfl⟩

end

/-! ### C45: the origin a response allows -/

/-- an origin as text: `null`, or scheme, host and perhaps port -/
def originText : Val → Option Str
  | .none => some (str "null")
  | .origin scheme host port => some (scheme ++ str "://" ++ host ++ (match port with | some n => str ":" ++ decI n | none => []))
  | _ => none

/-- what to say of the origin allowed, given that of the request -/
def originVerdict (allowed origin : Str) : NoteId :=
  if allowed = str "null" then .CORS_ORIGIN_NULL
  else if allowed = str "*" then .CORS_ORIGIN_STAR
  else if allowed = origin then .CORS_ORIGIN_MATCH
  else .CORS_ORIGIN_MISMATCH

def originVerdicts : List NoteId := [.CORS_ORIGIN_NULL, .CORS_ORIGIN_STAR, .CORS_ORIGIN_MATCH, .CORS_ORIGIN_MISMATCH]

theorem dhas_isSome {β} (d : Dict β) (k : Str) : (dhas d k = true) = ((dget d k).isSome = true) := by
  induction d with
  | nil => rfl
  | cons p d ih =>
    unfold dhas dget at *
    rw [List.any_cons]
    cases h : p.1 == k with
    | true => simp [h]
    | false => simpa [h] using ih

section
variable {env : Env} {related : Option Msg} {t : Bool} {ls : List Line} {m m' : Msg}

theorem acao_only : ∀ X ∈ originVerdicts, EvalOnly X .access_control_allow_origin_ := by
  intro X hX
  simp only [originVerdicts, List.mem_cons, List.not_mem_nil, or_false] at hX
  rcases hX with rfl | rfl | rfl | rfl <;> own_only

theorem acao_value (env related m) {ls : List Line} {n : Str} (hn : n ∈ namesFor .access_control_allow_origin_ ls) :
    valueOf env related m .access_control_allow_origin_ ls n = .str (textOf ls n) := by
  have hne := valuesOf_ne (mem_namesFor.1 hn).1
  unfold valueOf textOf
  cases hx : valuesOf ls n with
  | nil => exact absurd hx hne
  | cons first rest => rfl

theorem acao_run {c : Ctx} {add : AddNote} {hd : Handler} (hf : hd.fid = .access_control_allow_origin_) {v : Str} (hv : hd.value = .str v) :
    evalNotes c add hd = (F.checkAllowOrigin c add v).notes := by
  unfold evalNotes
  rw [hv, if_neg (by simp)]
  have : (hd.evaluate c add).2 = F.access_control_allow_origin.evaluate c add hd := by
    unfold Handler.evaluate
    rw [hf]; rfl
  rw [this]
  unfold F.access_control_allow_origin.evaluate
  rw [hv]
  rfl

theorem ofClass_add {X Y : NoteId} {a : AddNote} {vs} : (ofClass X (a.add Y vs).notes).map (·.subject) = if Y = X then [a.subject] else [] := by
  show (ofClass X [a.mk1 Y vs]).map _ = _
  by_cases h : Y = X
  · rw [if_pos h]
    have : ofClass X [a.mk1 Y vs] = [a.mk1 Y vs] := by
      unfold ofClass
      rw [List.filter_eq_self]
      intro n hn
      rw [List.mem_singleton.1 hn]
      exact beq_iff_eq.2 h
    rw [this]; rfl
  · rw [if_neg h, mk1_class (fun e => h e.symm)]; rfl

/-- the notes of checking it -/
theorem acao_check {c : Ctx} {add : AddNote} {v o : Str} {q : Val} {X : NoteId} (hq : (c.request.bind fun r => dget r.headers.parsed (str "origin")) = some q)
    (ho : originText q = some o) : (ofClass X (F.checkAllowOrigin c add v).notes).map (·.subject) =
      if originVerdict v o = X then [str "header-access-control-allow-origin"] else [] := by
  unfold F.checkAllowOrigin
  rw [hq]
  have hs : F.originStr c q = .ok o := by
    unfold originText at ho
    split at ho
    · cases ho; rfl
    · cases ho
      unfold F.originStr
      rfl
    · exact nomatch ho
  dsimp only
  rw [hs, W.bind_ok (a := o) rfl]
  dsimp only
  unfold originVerdict
  refine Eq.trans (b := (ofClass X ([] ++ _)).map (·.subject)) rfl ?_
  rw [List.nil_append]
  split
  · exact ofClass_add
  · split
    · exact ofClass_add
    · split <;> exact ofClass_add

theorem acao_none {c : Ctx} {add : AddNote} {v : Str} (hq : (c.request.bind fun r => dget r.headers.parsed (str "origin")) = none) :
    (F.checkAllowOrigin c add v).notes = [] := by
  unfold F.checkAllowOrigin
  rw [hq]; rfl

/-- **C45** if the request had an `Origin`, an `Access-Control-Allow-Origin` in the response gets exactly one verdict. -/
theorem C45_verdict (P : Processed env related t ls m m') (hk : m.kind = .response) {r : Msg} (hrel : related = some r) {q : Val} {o : Str}
    (hq : dget r.headers.parsed (str "origin") = some q) (ho : originText q = some o) (X : NoteId) (hX : X ∈ originVerdicts) :
    AddedAbout X m m' (((namesFor .access_control_allow_origin_ ls).filter fun n => originVerdict (textOf ls n) o = X).map
      fun _ => str "header-access-control-allow-origin") := by
  obtain ⟨added, ctx, e, hd, ht⟩ := eval_notes (acao_only X hX) P.linting P.new P.ok
  refine ⟨added, e, ?_⟩
  rw [ht, if_pos (by rw [hk]; rfl), ← flatMap_ite_map]
  apply flatMap_congr_mem
  intro n hn
  obtain ⟨hn', hc⟩ := mem_namesFor.1 hn
  have hok : okName m.kind n = true := by rw [okName_class hc (by decide), hk]; rfl
  have hv := evalSetup_value P.linting P.ok hn' hok (hd n hn')
  have hv2 := acao_value env related m hn
  unfold valueOf at hv2
  rw [hc, hv2] at hv
  rw [acao_run (by rw [evalSetup_fid hn', hc]) hv,
    acao_check (q := q) (by show (ctx n).related.bind _ = _; rw [(hd n hn').related, hrel]; exact hq) ho]
  by_cases h : originVerdict (textOf ls n) o = X <;> simp [h]

/-- **C45** and none if there was no request, or it had no `Origin`. -/
theorem C45_no_origin (P : Processed env related t ls m m') (hk : m.kind = .response) (hq : ∀ r, related = some r → ¬ HasField r (str "origin"))
    (X : NoteId) (hX : X ∈ originVerdicts) : AddedAbout X m m' [] := by
  obtain ⟨added, ctx, e, hd, ht⟩ := eval_notes (acao_only X hX) P.linting P.new P.ok
  refine ⟨added, e, ?_⟩
  rw [ht, if_pos (by rw [hk]; rfl), ← flatMap_nil' (namesFor .access_control_allow_origin_ ls)]
  apply flatMap_congr_mem
  intro n hn
  obtain ⟨hn', hc⟩ := mem_namesFor.1 hn
  have hok : okName m.kind n = true := by rw [okName_class hc (by decide), hk]; rfl
  have hv := evalSetup_value P.linting P.ok hn' hok (hd n hn')
  have hv2 := acao_value env related m hn
  unfold valueOf at hv2
  rw [hc, hv2] at hv
  rw [acao_run (by rw [evalSetup_fid hn', hc]) hv, acao_none]
  · rfl
  · show (ctx n).related.bind _ = _
    rw [(hd n hn').related]
    cases hrel : related with
    | none => rfl
    | some r =>
      have := hq r hrel
      unfold HasField at this
      show dget r.headers.parsed (str "origin") = none
      rw [dhas_isSome] at this
      cases hg : dget r.headers.parsed (str "origin") with
      | none => rfl
      | some v => rw [hg] at this; exact absurd rfl this

end

/-! ### examples -/

def exPreflight : Msg := exRequest (str "OPTIONS") [(str "Origin", str "https://A.example:8443"), (str "Access-Control-Request-Method", str "PUT")]

/-- non-vacuity: a preflight, and a request that has one of its fields only -/
example : F.isPreflight exPreflight = true ∧
    ((Msg.finishContent toyEnv none true [] exPreflight).1.1.notes.map (·.cls)).contains .CORS_PREFLIGHT_REQUEST = true ∧
    ((Msg.finishContent toyEnv none true [] (exRequest (str "GET") [(str "Access-Control-Request-Headers", str "a")])).1.1.notes.map (·.cls)).filter (·.origin = .cors) =
      [.CORS_PREFLIGHT_REQ_METHOD_WRONG, .CORS_PREFLIGHT_REQ_NO_ORIGIN, .CORS_PREFLIGHT_REQ_NO_METHOD] := by
  decide +kernel

/-- non-vacuity: its answer; the same fields in another response -/
example : let fs : List Line := [(str "Access-Control-Max-Age", str "5"), (str "access-control-allow-methods", str "GET"), (str "Access-Control-Allow-Origin", str "https://a.example:8443")]
    let r := Msg.finishContent toyEnv (some exPreflight) true [] (exResponse (str "200") fs (some exPreflight))
    let q := Msg.finishContent toyEnv none true [] (exResponse (str "200") fs none)
    r.1.2 = .ok () ∧ q.1.2 = .ok () ∧
    (r.1.1.notes.map (·.cls)).filter (·.origin = .cors) = [.CORS_PREFLIGHT_RESPONSE] ∧
    (q.1.1.notes.filter (·.cls.origin = .cors)).map (fun n => (n.cls, dget n.vars (str "headers"))) =
      [(NoteId.CORS_PREFLIGHT_ONLY, some (.str (str "Access-Control-Allow-Methods, Access-Control-Max-Age")))] ∧
    (dget exPreflight.headers.parsed (str "origin")).bind originText = some (str "https://a.example:8443") ∧
    (r.1.1.notes.map (·.cls)).contains .CORS_ORIGIN_MATCH = true ∧ (q.1.1.notes.map (·.cls)).contains .CORS_ORIGIN_MATCH = false := by
  decide +kernel

end HL.Props
