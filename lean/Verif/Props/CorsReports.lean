import Verif.Props.CorsThm
import Verif.Props.CookieReports

/-!
# What is reported on CORS, in full (C44, C45)
-/

namespace HL.Props
open HL.F

/-! ### specification -/

/-- a note about `s`, if `b` -/
def sayAbout (b : Bool) (s : Str) (X : NoteId) (vars : Dict Val := []) : List (Str × Report) := if b then [(s, { cls := X, vars })] else []

/-- what is reported on a request at its end: that it is a preflight; and, if it has one of the fields of preflights, what it lacks to be one -/
def preflightReports (m : Msg) : List (Str × Report) :=
  let has (n : Str) : Bool := dhas m.headers.parsed n
  let options := m.method == some (str "OPTIONS")
  let requestMethod := has (str "access-control-request-method")
  let meant := requestMethod || has (str "access-control-request-headers")
  sayAbout (options && has (str "origin") && requestMethod) (str "method field-access-control-request-method field-access-control-request-headers") .CORS_PREFLIGHT_REQUEST ++
  sayAbout (meant && !options) (str "method") .CORS_PREFLIGHT_REQ_METHOD_WRONG
    [(str "field_name", .str (str "Access-Control-Request-Method")), (str "method", Val.ofOpt m.method)] ++
  sayAbout (meant && !has (str "origin")) (str "field-origin") .CORS_PREFLIGHT_REQ_NO_ORIGIN [(str "field_name", .str (str "Access-Control-Request-Method"))] ++
  sayAbout (meant && !requestMethod) (str "field-access-control-request-headers") .CORS_PREFLIGHT_REQ_NO_METHOD [(str "field_name", .str (str "Access-Control-Request-Headers"))]

/-- a preflight, of which one can tell -/
def preflight (r : Msg) : Bool :=
  r.method == some (str "OPTIONS") && dhas r.headers.parsed (str "origin") && dhas r.headers.parsed (str "access-control-request-method")

/-- what is reported on a response at its end: that it answers a preflight, or that it has fields only for that; and that several origins are allowed -/
def preflightAnswerReports (related : Option Msg) (m : Msg) : List (Str × Report) :=
  let answers := match related with | some r => preflight r | none => false
  let only := (preflightFields.filter fun p => dhas m.headers.parsed p.1).map (·.2)
  let several := match dget m.headers.parsed (str "access-control-allow-origin") with | some (.str v) => v.contains 32 || v.contains 44 | _ => false
  sayAbout answers [] .CORS_PREFLIGHT_RESPONSE ++
  sayAbout (!answers && only != []) (str "header-access-control-allow-headers") .CORS_PREFLIGHT_ONLY [(str "headers", .str (join (str ", ") only))] ++
  sayAbout several (str "header-access-control-allow-origin") .ACAO_MULTIPLE_VALUES

/-- the verdict on the origin that is allowed, given that of the request -/
def originReport (allowed origin : Str) : Report :=
  if allowed = str "null" then { cls := .CORS_ORIGIN_NULL }
  else if allowed = str "*" then { cls := .CORS_ORIGIN_STAR }
  else if allowed = origin then { cls := .CORS_ORIGIN_MATCH, vars := [(str "origin", .str origin)] }
  else { cls := .CORS_ORIGIN_MISMATCH, vars := [(str "origin", .str origin), (str "acao_value", .str allowed)] }

/-! ### proofs -/

/-- the notes of CORS at the end of a message -/
def isCors (c : NoteId) : Bool := c.origin == .cors

theorem on_reports {add : AddNote} {s X vrs} (hc : (vrs.map (·.1)).Nodup) : Reports ((add.on s).mk1 X vrs) s ⟨X, vrs, []⟩ :=
  Report.note_reports (add := add.on s) (r := ⟨X, vrs, []⟩) ⟨hc, by simp⟩ rfl List.nodup_nil

/-- the notes of `w` say `l`, and it returns -/
structure Voices (w : W Unit) (l : List (Str × Report)) : Prop where
  notes : Each (fun (x : Note) p => Reports x p.1 p.2) w.notes l
  res : w.res = .ok ()

theorem Voices.when {add : AddNote} {b b' : Bool} {s X vrs} (hb : b = b') (hc : (vrs.map (·.1)).Nodup) :
    Voices (W.when b ((add.on s).add X vrs)) (sayAbout b' s X vrs) := by
  subst hb
  cases b
  · exact ⟨.nil, rfl⟩
  · exact ⟨.cons (on_reports hc) .nil, rfl⟩

theorem Voices.seq {x y : W Unit} {l l'} (hx : Voices x l) (hy : Voices y l') : Voices (x >>= fun _ => y) (l ++ l') := by
  constructor
  · rw [W.bind_ok hx.res]; exact Each.append hx.notes hy.notes
  · rw [W.bind_ok hx.res]; exact hy.res

theorem preflight_voices (c : Ctx) (add : AddNote) : Voices (checkPreflightRequest c add) (preflightReports c.msg) := by
  unfold checkPreflightRequest preflightReports isPreflight
  dsimp only
  rw [List.append_assoc, List.append_assoc]
  refine Voices.seq (.when rfl .nil) ?_
  cases hm : (dhas c.msg.headers.parsed (str "access-control-request-method") || dhas c.msg.headers.parsed (str "access-control-request-headers")) with
  | false => exact ⟨.nil, rfl⟩
  | true =>
    rw [if_pos rfl]
    refine Voices.seq (.when rfl (show ([str "field_name", str "method"] : List Str).Nodup by decide)) (Voices.seq (.when rfl (by simp)) (.when rfl (by simp)))

theorem each_isCors {ns : List Note} {l : List (Str × Report)} (h : Each (fun (x : Note) p => Reports x p.1 p.2) ns l) (hl : ∀ p ∈ l, isCors p.2.cls = true) : sel isCors ns = ns := by
  unfold sel
  rw [List.filter_eq_self]
  induction h with
  | nil => intro n hn; exact absurd hn (by simp)
  | @cons a b as bs h _ ih =>
    intro n hn
    rcases List.mem_cons.1 hn with rfl | hn
    · show isCors n.cls = true
      rw [h.cls]; exact hl b (by simp)
    · exact ih (fun p hp => hl p (by simp [hp])) n hn

theorem mem_sayAbout {b s X vrs p} : p ∈ sayAbout b s X vrs ↔ b = true ∧ p = (s, { cls := X, vars := vrs }) := by
  unfold sayAbout
  cases b <;> simp

section
variable {env : Env} {related : Option Msg} {t co : Bool} {ts : List (Str × Str)} {ls : List Line} {m m' : Msg} {rn : List Note}


/-- **C44** (requests, in full) what finishing a request adds on CORS -/
theorem C44_request_report (hr : Reachable env m) (hk : m.kind = .request) (h : Finishes env related co ts m m' rn) :
    ∃ vs, sel isCors m'.notes = sel isCors m.notes ++ vs ∧ Each (fun (x : Note) p => Reports x p.1 p.2) vs (preflightReports m) := by
  have h1 := finish_cors (q := isCors) hr.good h (by intro c hc; simpa [isCors] using hc)
  rw [hk] at h1
  dsimp only at h1
  have hv := (preflight_voices ⟨env, m, related⟩ (m.adder [])).notes
  refine ⟨_, h1, ?_⟩
  rw [each_isCors hv]
  · exact hv
  · intro p hp
    unfold preflightReports at hp
    simp only [List.mem_append, mem_sayAbout] at hp
    rcases hp with ((⟨_, rfl⟩ | ⟨_, rfl⟩) | ⟨_, rfl⟩) | ⟨_, rfl⟩ <;> rfl

/-- **C44** (responses, in full) what finishing a response adds on CORS -/
theorem C44_response_report (hr : Reachable env m) (hk : m.kind = .response) (h : Finishes env related co ts m m' rn) :
    ∃ vs, sel isCors m'.notes = sel isCors m.notes ++ vs ∧ Each (fun (x : Note) p => Reports x p.1 p.2) vs (preflightAnswerReports related m) := by
  obtain ⟨_, _, _, _, _, _, _, _, hran⟩ := finish_response_full env related co ts m m' rn hr.good hk h
  have h1 := finish_cors (q := isCors) hr.good h (by intro c hc; simpa [isCors] using hc)
  rw [hk] at h1
  dsimp only at h1
  have hv : Each (fun (x : Note) p => Reports x p.1 p.2) (F.checkPreflightResponse ⟨env, m, related⟩ (m.adder [])).notes (preflightAnswerReports related m) := by
    rw [response_notes ((idInv env).reachable hr trivial false) hran.1, request_eq hk]
    unfold preflightAnswerReports
    dsimp only
    refine Each.append ?_ ?_
    · show Each _ _ (sayAbout (answersPre related) _ _ ++ sayAbout (!answersPre related && preflightSent m != []) _ _ [(_, .str (join _ (preflightSent m)))])
      cases answersPre related
      · cases preflightSent m with
        | nil => exact .nil
        | cons a l => exact .cons (on_reports (by simp)) .nil
      · exact .cons (on_reports (by simp)) .nil
    · generalize dget m.headers.parsed (str "access-control-allow-origin") = d
      split
      · rename_i v
        show Each _ _ (sayAbout (v.contains 32 || v.contains 44) _ _)
        unfold sayAbout
        split
        · exact .cons (on_reports List.nodup_nil) .nil
        · exact .nil
      · rename_i hn
        split
        · rename_i v
          exact absurd rfl (hn v)
        · exact .nil
  refine ⟨_, h1, ?_⟩
  rw [each_isCors hv]
  · exact hv
  · intro p hp
    unfold preflightAnswerReports at hp
    simp only [List.mem_append, mem_sayAbout] at hp
    rcases hp with (⟨_, rfl⟩ | ⟨_, rfl⟩) | ⟨_, rfl⟩ <;> rfl

theorem origin_voices {c : Ctx} {add : AddNote} {v o : Str} {q : Val} (hq : (c.request.bind fun r => dget r.headers.parsed (str "origin")) = some q)
    (ho : originText q = some o) :
    Each (fun (x : Note) p => Reports x p.1 p.2) (checkAllowOrigin c add v).notes [(str "header-access-control-allow-origin", originReport v o)] := by
  unfold checkAllowOrigin
  rw [hq]
  have hs : originStr c q = .ok o := by
    unfold originText at ho
    split at ho
    · cases ho; rfl
    · cases ho
      unfold originStr
      rfl
    · exact nomatch ho
  dsimp only
  rw [hs, W.bind_ok (a := o) rfl]
  dsimp only
  unfold originReport
  show Each _ ([] ++ _) _
  rw [List.nil_append]
  split
  · exact .cons (on_reports (by simp)) .nil
  · split
    · exact .cons (on_reports (by simp)) .nil
    · split
      · exact .cons (on_reports (by simp)) .nil
      · exact .cons (on_reports (show ([str "origin", str "acao_value"] : List Str).Nodup by decide)) .nil

/-- **C45** (in full) if the request had an `Origin`, each `Access-Control-Allow-Origin` of the response gets one verdict, which says what the origins are -/
theorem C45_report (P : Processed env related t ls m m') (hk : m.kind = .response) {r : Msg} (hrel : related = some r) {q : Val} {o : Str}
    (hq : dget r.headers.parsed (str "origin") = some q) (ho : originText q = some o) :
    Reported originVerdicts m m' ((namesFor .access_control_allow_origin_ ls).map fun n => (str "header-access-control-allow-origin", originReport (textOf ls n) o)) := by
  have hX : EvalAmong originVerdicts [.access_control_allow_origin_] := by eval_among
  obtain ⟨added, ctx, e, hd, h⟩ := evals_among hX P (by rw [hk]; rfl)
  refine ⟨added, e, ?_⟩
  show Each _ (amongClass originVerdicts added) _
  rw [h, List.map_eq_flatMap]
  apply Each.flatMap
  intro n hn
  obtain ⟨hn', hc⟩ := mem_namesFor.1 hn
  have hok : okName m.kind n = true := by rw [okName_class hc (by decide), hk]; rfl
  have hv := evalSetup_value P.linting P.ok hn' hok (hd n hn')
  have hv2 := acao_value env related m hn
  unfold valueOf at hv2
  rw [hc, hv2] at hv
  rw [acao_run (by rw [evalSetup_fid hn', hc]) hv]
  refine each_among (origin_voices (q := q) (by show (ctx n).related.bind _ = _; rw [(hd n hn').related, hrel]; exact hq) ho) ?_
  · intro p hp
    rw [List.mem_singleton] at hp
    subst hp
    unfold originReport
    dsimp only
    split
    · rfl
    · split
      · rfl
      · split <;> rfl

end

/-- non-vacuity: a request meant as a preflight -/
example : preflightReports (exStatusRequest (str "GET") [(str "Access-Control-Request-Headers", str "a")]) =
    [(str "method", { cls := .CORS_PREFLIGHT_REQ_METHOD_WRONG, vars := [(str "field_name", .str (str "Access-Control-Request-Method")), (str "method", .str (str "GET"))] }),
     (str "field-origin", { cls := .CORS_PREFLIGHT_REQ_NO_ORIGIN, vars := [(str "field_name", .str (str "Access-Control-Request-Method"))] }),
     (str "field-access-control-request-headers", { cls := .CORS_PREFLIGHT_REQ_NO_METHOD, vars := [(str "field_name", .str (str "Access-Control-Request-Headers"))] })] := by
  kernel_rfl

example : (preflightAnswerReports none (exStatusResponse none (str "200") [(str "Access-Control-Max-Age", str "5"), (str "Access-Control-Allow-Origin", str "a, b")])).map (fun p => (p.1, p.2.cls)) =
    [(str "header-access-control-allow-headers", .CORS_PREFLIGHT_ONLY), (str "header-access-control-allow-origin", .ACAO_MULTIPLE_VALUES)] := by
  decide +kernel

end HL.Props
