import Verif.Props.OrderAll
import Verif.Props.PostEx
import Verif.Props.SessionEx

/-!
# C128: what does depend on the order, and cases that meet the hypotheses
-/

namespace HL.Props

/-- is it the call for the first line? -/
def isTopline : Op → Bool
  | .requestTopline _ _ _ | .responseTopline _ _ _ => true
  | _ => false

theorem topline_keeps {env : Env} {top : Op} (ht : isTopline top = true) (w : World) :
    (top.run env w).1.msg.headers = w.msg.headers ∧ (top.run env w).1.msg.trailers = w.msg.trailers ∧ (top.run env w).1.related = w.related := by
  cases top with
  | requestTopline me i v =>
    have := requestTopline_sections env me i v w.msg
    exact ⟨this.1, this.2.1, rfl⟩
  | responseTopline v s p =>
    have := responseTopline_sections v s p w.msg
    exact ⟨this.1, this.2.1, rfl⟩
  | _ => exact nomatch ht

/-- **C128** of a whole message whose calls are ordinary (`C07`), from a new linter: none of its calls raises, in the one order or the
other, and the linters are the same in the end, but for the order of the headers and of the notes, the numbers of lines and sub-notes
that tell of missing endpoints -/
theorem C128_whole_partial {env : Env} (hC : Contract env) {kind : MsgKind} {start : Option Rat} {noContent head : Bool} {related : Option Msg} {top : Op} {ls₁ ls₂ : List Line} {rest : List Op}
    (ht : isTopline top = true) (ho : ∀ op ∈ rest, afterHeaders op = true) (hu : Unpadded ls₁) (h : ∀ n, ls₁.filter (matters n) = ls₂.filter (matters n))
    (hrel : ∀ r, related = some r → Reachable env r ∧ TidyNames r.headers ∧ (kind = .response → r.kind = .request))
    (hO₁ : OrdinaryCalls env kind start related (top :: .headers ls₁ :: rest)) (hO₂ : OrdinaryCalls env kind start related (top :: .headers ls₂ :: rest)) :
    ∃ w₁ w₂, RunsTo env (top :: .headers ls₁ :: rest) ⟨fresh env kind start noContent head, related⟩ w₁ ∧
      RunsTo env (top :: .headers ls₂ :: rest) ⟨fresh env kind start noContent head, related⟩ w₂ ∧ SameButOrder w₁ w₂ ∧
      (w₁.msg.notes.map brief).Perm (w₂.msg.notes.map brief) := by
  obtain ⟨w₁, x, hx, h₁⟩ := C07_calls_return_partial hC kind start noContent head related _ hrel hO₁
  obtain ⟨y, x', hx', z, hz, _⟩ := C07_calls_return_partial hC kind start noContent head related _ hrel hO₂
  rw [hx, Prod.mk.injEq] at hx'
  obtain ⟨rfl, _⟩ := hx'
  have keep := topline_keeps (env := env) ht ⟨fresh env kind start noContent head, related⟩
  have hl : Linting env x.msg := ⟨x.msg, ⟨kind, start, noContent, head, related, [top], by show x.msg = (top.run env _).1.msg; rw [hx]⟩, .inl rfl⟩
  rw [hx] at keep
  obtain ⟨w₂, r1, r2, r3⟩ := C128_order_partial hl (by rw [keep.1]; rfl) hu h ho (rel := x.related) h₁ ⟨z, hz, rfl⟩
  exact ⟨w₁, w₂, ⟨x, hx, h₁⟩, ⟨x, hx, r1⟩, r2, r3⟩

/-- **C128** of a whole message, with the sub-notes, when neither of the two Content-Security-Policy fields was sent -/
theorem C128_whole_sub_notes {env : Env} (hC : Contract env) {kind : MsgKind} {start : Option Rat} {noContent head : Bool} {related : Option Msg} {top : Op} {ls₁ ls₂ : List Line} {rest : List Op}
    (ht : isTopline top = true) (ho : ∀ op ∈ rest, afterHeaders op = true) (hu : Unpadded ls₁) (h : ∀ n, ls₁.filter (matters n) = ls₂.filter (matters n))
    (hcsp : NoCsp ls₁) (hlate : NoLatePolicies rest)
    (hrel : ∀ r, related = some r → Reachable env r ∧ TidyNames r.headers ∧ (kind = .response → r.kind = .request))
    (hO₁ : OrdinaryCalls env kind start related (top :: .headers ls₁ :: rest)) (hO₂ : OrdinaryCalls env kind start related (top :: .headers ls₂ :: rest)) :
    ∃ w₁ w₂, RunsTo env (top :: .headers ls₁ :: rest) ⟨fresh env kind start noContent head, related⟩ w₁ ∧
      RunsTo env (top :: .headers ls₂ :: rest) ⟨fresh env kind start noContent head, related⟩ w₂ ∧ SameButOrder w₁ w₂ ∧
      (w₁.msg.notes.map unnumbered).Perm (w₂.msg.notes.map unnumbered) := by
  obtain ⟨w₁, x, hx, h₁⟩ := C07_calls_return_partial hC kind start noContent head related _ hrel hO₁
  obtain ⟨y, x', hx', z, hz, _⟩ := C07_calls_return_partial hC kind start noContent head related _ hrel hO₂
  rw [hx, Prod.mk.injEq] at hx'
  obtain ⟨rfl, _⟩ := hx'
  have keep := topline_keeps (env := env) ht ⟨fresh env kind start noContent head, related⟩
  have hl : Linting env x.msg := ⟨x.msg, ⟨kind, start, noContent, head, related, [top], by show x.msg = (top.run env _).1.msg; rw [hx]⟩, .inl rfl⟩
  rw [hx] at keep
  obtain ⟨w₂, r1, r2, r3⟩ := C128_sub_notes hl (by rw [keep.1]; rfl) (by rw [keep.1, keep.2.1]; exact ⟨rfl, rfl⟩) hu hcsp hlate h ho (rel := x.related) h₁ ⟨z, hz, rfl⟩
  exact ⟨w₁, w₂, ⟨x, hx, h₁⟩, ⟨x, hx, r1⟩, r2, r3⟩

/-- the policies of a response: `a` is defined, `b` and `c` aren't -/
def policyLines : List Line := [(str "Reporting-Endpoints", str "a=\"https:x\"")] ++ (str "Content-Security-Policy", str "report-to b") ::
  (str "Content-Security-Policy-Report-Only", str "report-to c") :: []
/-- the same with the two policies swapped -/
def policyLinesMoved : List Line := [(str "Reporting-Endpoints", str "a=\"https:x\"")] ++ (str "Content-Security-Policy-Report-Only", str "report-to c") ::
  (str "Content-Security-Policy", str "report-to b") :: []

/-- a response of which the first line has been read -/
def startedResponse (env : Env) : Msg := (okLine.run env ⟨fresh env .response none false false, none⟩).1.msg

theorem started_linting (env : Env) : Linting env (startedResponse env) :=
  ⟨_, ⟨.response, none, false, false, none, [okLine], rfl⟩, .inl rfl⟩

/-- **C128**: the order of the two Content-Security-Policy fields shows in the notes: a missing endpoint is reported under the note of
whichever came first, also when it is the other's -/
theorem C128_order_fails : ∃ (env : Env) (m : Msg) (ls₁ ls₂ : List Line) (rest : List Op) (w₁ w₂ : World),
    Linting env m ∧ m.headers.handlers = [] ∧ m.trailers.handlers = [] ∧ Unpadded ls₁ ∧ (∀ n, ls₁.filter (matters n) = ls₂.filter (matters n)) ∧
    (∀ op ∈ rest, afterHeaders op = true) ∧ RunsTo env (.headers ls₁ :: rest) ⟨m, none⟩ w₁ ∧ RunsTo env (.headers ls₂ :: rest) ⟨m, none⟩ w₂ ∧
    ¬ (w₁.msg.notes.map unnumbered).Perm (w₂.msg.notes.map unnumbered) := by
  refine ⟨structEnv, startedResponse structEnv, policyLines, policyLinesMoved, [.finish true []], _, _, started_linting _, rfl, rfl, by unfold Unpadded; decide +kernel,
    apart_filter (by unfold Apart; decide +kernel) _ _, by decide, runs_of_ranOk (by decide +kernel), runs_of_ranOk (by decide +kernel), fun hp => ?_⟩
  let q : Note → Bool := fun x => decide (x.cls = .CONTENT_SECURITY_POLICY) && x.subject == str "field-content-security-policy-report-only" && !x.subnotes.isEmpty
  have yes : ((Op.runAll structEnv [.headers policyLinesMoved, .finish true []] ⟨startedResponse structEnv, none⟩).msg.notes.map unnumbered).any q = true := by decide +kernel
  have no : ((Op.runAll structEnv [.headers policyLines, .finish true []] ⟨startedResponse structEnv, none⟩).msg.notes.map unnumbered).any q = false := by decide +kernel
  obtain ⟨x, hx, hq⟩ := List.any_eq_true.1 yes
  exact absurd hq (List.any_eq_false.1 no x (hp.mem_iff.2 hx))

/-- trailers with mistakes in them -/
def exTrailers : List Line := [(str "Date", str "yesterday"), (str "Content-Length", str "1"), (str "Age", str "-")]

/-- the hypotheses of `C128_order_partial` are met by these, -/
example : Linting structEnv (startedResponse structEnv) ∧ (startedResponse structEnv).headers.handlers = [] ∧ Unpadded policyLines ∧
    (∀ n, policyLines.filter (matters n) = policyLinesMoved.filter (matters n)) ∧ (∀ op ∈ [Op.feed (str "x"), .finish true exTrailers], afterHeaders op = true) ∧
    (∃ w, RunsTo structEnv (.headers policyLines :: [.feed (str "x"), .finish true exTrailers]) ⟨startedResponse structEnv, none⟩ w) ∧
    ∃ x, RunsTo structEnv [.headers policyLinesMoved] ⟨startedResponse structEnv, none⟩ x :=
  ⟨started_linting _, rfl, by unfold Unpadded; decide +kernel, apart_filter (by unfold Apart; decide +kernel) _ _, by decide, ⟨_, runs_of_ranOk (by decide +kernel)⟩,
    ⟨_, runs_of_ranOk (by decide +kernel)⟩⟩

theorem late_example : NoLatePolicies [.feed (str "x"), .finish true exTrailers] := by
  intro co ts h
  simp at h
  obtain ⟨_, rfl⟩ := h
  unfold NoCsp
  decide +kernel

/-- … and of `C128_sub_notes` by `Vary` and `Set-Cookie`; the notes differ in their order -/
example : NoCsp linesOrdered ∧ NoLatePolicies [.feed (str "x"), .finish true exTrailers] ∧
    ((startedResponse toyEnv).headers.text = [] ∧ (startedResponse toyEnv).trailers.text = []) ∧
    (∃ w, RunsTo toyEnv (.headers linesOrdered :: [.feed (str "x"), .finish true exTrailers]) ⟨startedResponse toyEnv, none⟩ w) ∧
    (∃ x, RunsTo toyEnv [.headers linesMoved] ⟨startedResponse toyEnv, none⟩ x) ∧
    (∀ n, linesOrdered.filter (matters n) = linesMoved.filter (matters n)) := by
  refine ⟨by unfold NoCsp; decide +kernel, late_example, ⟨rfl, rfl⟩, ⟨_, runs_of_ranOk (by decide +kernel)⟩, ⟨_, runs_of_ranOk (by decide +kernel)⟩, ?_⟩
  exact apart_filter (x := (str "Vary", str "a b")) (y := (str "Set-Cookie", str "c=d; Max-Age=z")) (by unfold Apart; decide +kernel) [(str "ETag", str "x")] [(str "ETAG", str "\"y\"")]

/-- `exMessy` with its `Age` after its `Set-Cookie` -/
def exMessyMoved : List Line := exMessy.take 1 ++ exMessy[2]! :: exMessy[1]! :: exMessy.drop 3

theorem messy_ordinary {ls : List Line} (hc : CalmLines ls) (ha : (pyInt (textOf ls (str "age"))) = some 10) :
    OrdinaryCalls toyEnv .response (some 5) (some (fresh toyEnv .request (some 4) false false)) [.responseTopline (str "x") (str "2O0") (some [255]), .headers ls, .feed [31, 139, 0], .finish false exTrailers] where
  headerLines := by intro l hl; simp at hl; subst hl; exact hc
  trailerLines := by intro co ts hl; simp at hl; obtain ⟨_, rfl⟩ := hl; decide +kernel
  headersOnce := Nat.le_refl 1
  trailersOnce := Nat.le_refl 1
  charset := by intro l _ _ cs _; exact toy_usable cs
  age := by
    intro _
    right; right
    intro l hl _
    simp at hl
    subst hl
    exact ⟨10, pyInt_iff.1 ha, by decide⟩

/-- the hypotheses of `C128_whole_partial` and `C128_whole_sub_notes` are met by messy lines -/
example : isTopline (.responseTopline (str "x") (str "2O0") (some [255])) = true ∧ (∀ op ∈ [Op.feed [31, 139, 0], .finish false exTrailers], afterHeaders op = true) ∧ Unpadded exMessy ∧ NoCsp exMessy ∧
    (∀ n, exMessy.filter (matters n) = exMessyMoved.filter (matters n)) ∧
    OrdinaryCalls toyEnv .response (some 5) (some (fresh toyEnv .request (some 4) false false)) (.responseTopline (str "x") (str "2O0") (some [255]) :: .headers exMessy :: [.feed [31, 139, 0], .finish false exTrailers]) ∧
    OrdinaryCalls toyEnv .response (some 5) (some (fresh toyEnv .request (some 4) false false)) (.responseTopline (str "x") (str "2O0") (some [255]) :: .headers exMessyMoved :: [.feed [31, 139, 0], .finish false exTrailers]) :=
  ⟨rfl, by decide, by unfold Unpadded; decide +kernel, by unfold NoCsp; decide +kernel,
    apart_filter (x := (str "Age", str "1_0")) (y := (str "Set-Cookie", str "=;;expires")) (by unfold Apart; decide +kernel) (exMessy.take 1) (exMessy.drop 3),
    messy_ordinary (by decide +kernel) (by decide +kernel), messy_ordinary (by decide +kernel) (by decide +kernel)⟩

end HL.Props
