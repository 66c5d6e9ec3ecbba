import Verif.Props.CspThm
/-! Non-vacuity of C74–C77: sections that meet the hypotheses, and what is reported on them. -/
namespace HL.Props
open HL

/-- an environment whose Structured Fields parser reads a bare token -/
def tokenEnv : Env := { toyEnv with
  sfParse := fun ty s => if ty = str "item" ∧ s ≠ [] then .ok (.tuple [.token s, .dict []]) [] else .error [] [] }

theorem tokenEnv_items : ItemShape tokenEnv := by
  intro s v dups h
  unfold tokenEnv at h
  dsimp only at h
  split at h
  · injection h with h1 h2; exact ⟨_, _, h1.symm⟩
  · exact nomatch h

/-- the outcome of a header section, as classes, subjects and classes of sub-notes -/
def outcome (env : Env) (ls : List Line) : Bool × List (NoteId × Str × List NoteId) :=
  let r := processSection env none false ls (fresh env .response none false false)
  ((match r.2 with | .ok () => true | .error _ => false), r.1.notes.map fun x => (x.cls, x.subject, x.subnotes.map (·.cls)))

/-- C74: two lines, an unknown value and a known one last -/
example : outcome toyEnv [(str "Referrer-Policy", str "Foo"), (str "referrer-policy", str "no-referrer, ORIGIN")] =
    (true, [(.REFERRER_POLICY_UNKNOWN, str "field-referrer-policy", []), (.REFERRER_POLICY_MULTIPLE, str "field-referrer-policy", [])]) := by decide +kernel

/-- C75: both of the fields; the report-only one is a duplicate -/
example : outcome tokenEnv [(str "Cross-Origin-Embedder-Policy-Report-Only", str "credentialless"), (str "Cross-Origin-Embedder-Policy", str "wrong"),
      (str "Cross-Origin-Opener-Policy", str "same-origin")] =
    (true, [(.COEP_REPORT_ONLY_DUPLICATE, str "field-cross-origin-embedder-policy-report-only", []),
      (.COEP_CREDENTIALLESS, str "field-cross-origin-embedder-policy-report-only", []),
      (.CROSS_ORIGIN_EMBEDDER_POLICY_BAD_VALUE, str "field-cross-origin-embedder-policy", []),
      (.COOP_SAME_ORIGIN, str "field-cross-origin-opener-policy", [])]) := by decide +kernel

/-- C76 -/
example : outcome toyEnv [(str "Clear-Site-Data", str "\"cache\", cookies, \"x\"")] =
    (true, [(.BAD_SYNTAX, str "offset-0", []), (.CSD_UNKNOWN_VALUE, str "offset-0", []), (.CSD_UNQUOTED, str "field-clear-site-data", []), (.CSD_PRESENT, str "field-clear-site-data", [])]) := by decide +kernel

/-- C77 -/
example : outcome toyEnv [(str "Content-Security-Policy", str "script-src *; Script-Src x; style-src 'unsafe-inline'; report-uri /r, default-src http: 'unsafe-eval'")] =
    (true, [(.CONTENT_SECURITY_POLICY, str "field-content-security-policy",
      [.CSP_DUPLICATE_DIRECTIVE, .CSP_DEPRECATED_REPORT_URI, .CSP_WIDE_OPEN, .CSP_UNSAFE_INLINE, .CSP_UNSAFE_EVAL, .CSP_HTTP_URI])]) := by decide +kernel

end HL.Props
