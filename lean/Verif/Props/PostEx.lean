import Verif.Props.NelThm
import Verif.Props.EndThm
import Verif.Props.CspEndThm
import Verif.Props.JsonEx
import Verif.Props.CachingEx
/-! Non-vacuity of C99–C104. -/
namespace HL.Props
open HL

/-- does none of these calls raise? -/
def ranOk (env : Env) : List Op → World → Bool
  | [], _ => true
  | op :: ops, w => (match (op.run env w).2 with | .ok () => true | .error _ => false) && ranOk env ops (op.run env w).1

theorem runs_of_ranOk {env : Env} {ops : List Op} {w : World} (h : ranOk env ops w = true) : RunsTo env ops w (Op.runAll env ops w) := by
  induction ops generalizing w with
  | nil => rfl
  | cons op ops ih =>
    unfold ranOk at h
    rw [Bool.and_eq_true] at h
    refine ⟨(op.run env w).1, ?_, ih h.2⟩
    have h1 := h.1
    revert h1
    generalize op.run env w = r
    obtain ⟨a, b⟩ := r
    cases b with
    | ok u => intro _; rfl
    | error e => intro h; cases h

/-- the calls for a whole message -/
def wholeCalls (top : Op) (ls : List Line) (chunks : List Str) (ts : List Line) : List Op := [top, .headers ls] ++ chunks.map .feed ++ [.finish true ts]

/-- lint a whole response, in reply to `related`: does nothing raise, and which notes of classes `Xs` are there at the end? -/
def ending (env : Env) (kind : MsgKind) (related : Option Msg) (Xs : List NoteId) (top : Op) (ls : List Line) (chunks : List Str) (ts : List Line) : Bool × List (NoteId × Str) :=
  (ranOk env (wholeCalls top ls chunks ts) ⟨fresh env kind none false false, related⟩,
    (amongClass Xs (Op.runAll env (wholeCalls top ls chunks ts) ⟨fresh env kind none false false, related⟩).msg.notes).map fun x => (x.cls, x.subject))

/-- the first line of a response -/
def okLine : Op := .responseTopline (str "HTTP/1.1") (str "200") (str "OK")
/-- the first line of a request -/
def getLine : Op := .requestTopline (str "GET") (str "/") (str "HTTP/1.1")

/-- a whole message whose calls don't raise has ended: the hypotheses of C100–C103 are met -/
theorem ending_ended {env : Env} {kind related Xs a b c ls chunks ts} (h : (ending env kind related Xs (.responseTopline a b c) ls chunks ts).1 = true) :
    ∃ m0 m, m0.kind = kind ∧ Ended env related ls chunks true ts m0 m (Op.runAll env (wholeCalls (.responseTopline a b c) ls chunks ts) ⟨fresh env kind none false false, related⟩).msg := by
  obtain ⟨m0, m, _, hk, hE⟩ := Ended.of_calls (.inr ⟨a, b, c, rfl⟩) (runs_of_ranOk h)
  exact ⟨m0, m, hk, hE⟩

/-- C99: content in a request with GET, and no `User-Agent` -/
example : ending toyEnv .request none [.MISSING_USER_AGENT, .REQUEST_CONTENT_NOT_DEFINED] getLine [(str "Host", str "a")] [str "abc"] [] =
    (true, [(.MISSING_USER_AGENT, str "field-user-agent"), (.REQUEST_CONTENT_NOT_DEFINED, str "message")]) := by decide +kernel

/-- C100: an endpoint that is defined, and one that isn't -/
example : ending structEnv .response none [.COEP_REPORT_TO_MISSING, .COOP_REPORT_TO_MISSING] okLine
      [(str "Cross-Origin-Embedder-Policy", str "require-corp;report-to=b"), (str "Cross-Origin-Opener-Policy", str "same-origin;report-to=\"a\""), (str "Reporting-Endpoints", str "a=\"https:x\"")] [] [] =
    (true, [(.COEP_REPORT_TO_MISSING, str "field-cross-origin-embedder-policy")]) := by decide +kernel

/-- a request in the clear -/
def clearRequest : Msg := (Op.runAll structEnv [.requestTopline (str "GET") (str "http://a/") (str "HTTP/1.1"), .headers [(str "Host", str "a")]] ⟨fresh structEnv .request none false false, none⟩).msg

/-- C101: of two fields, one is listed by `Vary` -/
example : ending structEnv .response (some clearRequest) [.ACCEPT_CH_IN_PLAIN_HTTP, .ACCEPT_CH_MISSING_VARY] okLine
      [(str "Accept-CH", str "dpr, width"), (str "Vary", str "DPR, Accept")] [] [] =
    (true, [(.ACCEPT_CH_IN_PLAIN_HTTP, str "field-accept-ch"), (.ACCEPT_CH_MISSING_VARY, str "field-accept-ch")]) := by decide +kernel

/-- C102 -/
example : ending structEnv .request none [.AVAILABLE_DICTIONARY_MISSING_AE] getLine [(str "Host", str "a"), (str "Available-Dictionary", str "x"), (str "Accept-Encoding", str "gzip;q=1, br")] [] [] =
    (true, [(.AVAILABLE_DICTIONARY_MISSING_AE, str "field-available-dictionary")]) ∧
  ending structEnv .request none [.AVAILABLE_DICTIONARY_MISSING_AE] getLine [(str "Host", str "a"), (str "Available-Dictionary", str "x"), (str "Accept-Encoding", str "gzip, DCB")] [] [] = (true, []) ∧
  ending structEnv .response none [.DICTIONARY_COMPRESSED_MISSING_VARY] okLine [(str "Content-Encoding", str "dcb"), (str "Vary", str "Accept-Encoding")] [] [] =
    (true, [(.DICTIONARY_COMPRESSED_MISSING_VARY, str "field-content-encoding")]) := ⟨by decide +kernel, by decide +kernel, by decide +kernel⟩

/-- policies, for the example: a faultless one for each of three endpoints, and one with a fault -/
def nelEnv : Env := { structEnv with
  jsonLoads := fun _ => .ok (.list [
    Val.ofDict [(str "report_to", .str (str "a")), (str "max_age", .int 5)], Val.ofDict [(str "report_to", .str (str "b")), (str "max_age", .int 5)],
    Val.ofDict [(str "report_to", .str (str "c")), (str "max_age", .int 5)], Val.ofDict [(str "report_to", .str (str "d"))], .int 7]) }

theorem nelEnv_json : JsonShape nelEnv := fun _ _ h => by injection h with h; exact ⟨_, h.symm⟩

/-- C103: `a` and `d` can be used, `b` isn't secure, `c` isn't defined; the policy for `d` has a fault -/
example : ending nelEnv .response none [.NEL_REPORT_TO_MISSING, .NEL_CONFIGURED] okLine [(str "NEL", str "x"), (str "Reporting-Endpoints", str "a=\"https:x\", b=\"http:x\", d=\"https:x\"")] [] [] =
    (true, [(.NEL_REPORT_TO_MISSING, str "field-nel"), (.NEL_CONFIGURED, str "field-nel")]) := by decide +kernel

/-- and how that is said -/
example : (Op.runAll nelEnv (wholeCalls okLine [(str "NEL", str "x"), (str "Reporting-Endpoints", str "a=\"https:x\", b=\"http:x\", d=\"https:x\"")] [] []) ⟨fresh nelEnv .response none false false, none⟩).msg.notes.filterMap
      (fun x => if x.cls = .NEL_CONFIGURED then dget x.vars (str "endpoints") else if x.cls = .NEL_REPORT_TO_MISSING then dget x.vars (str "value") else none) = [.str (str "c"), .str (str "`a`")] := by decide +kernel

/-- the policies of a response, for the example: `a` is defined, `b` and `c` aren't -/
def cspLines : List Line := [(str "Reporting-Endpoints", str "a=\"https:x\""), (str "Content-Security-Policy", str "report-to a; script-src *, report-to b; report-to d"),
  (str "Content-Security-Policy-Report-Only", str "REPORT-TO c")]

/-- C104: the hypotheses are met, -/
example : ranOk structEnv (wholeCalls okLine cspLines [] []) ⟨fresh structEnv .response none false false, none⟩ = true ∧ Unpadded cspLines ∧ DictShape structEnv :=
  ⟨by decide +kernel, by unfold Unpadded; decide +kernel, structEnv_dicts⟩

/-- and what comes out: also the endpoint of the report-only policy is reported with the first of the notes -/
example : (Op.runAll structEnv (wholeCalls okLine cspLines [] []) ⟨fresh structEnv .response none false false, none⟩).msg.notes.filterMap
      (fun x => if x.cls = .CONTENT_SECURITY_POLICY then some (x.subject, x.subnotes.map fun k => (k.cls, dget k.vars (str "endpoint"))) else none) =
    [(str "field-content-security-policy", [(.CSP_DUPLICATE_DIRECTIVE, none), (.CSP_WIDE_OPEN, none), (.CSP_REPORT_TO_MISSING, some (.str (str "b"))), (.CSP_REPORT_TO_MISSING, some (.str (str "c")))]),
     (str "field-content-security-policy-report-only", [])] := by decide +kernel

end HL.Props
