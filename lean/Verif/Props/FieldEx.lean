import Verif.Props.CombineThm
import Verif.Props.ServiceEx
import Verif.Props.SyntaxThm
import Verif.Props.TypedFields
import Verif.Props.CachingEx
import Verif.Props.Facts
import Verif.Props.AbnfThm
/-! Non-vacuity of C01, C13-C15, C17, C18, C20, C22 and C33: the theorems applied to one header section. -/
namespace HL.Props
open HL

/-- a response with one of everything: a request field, a name that is no token, an unknown field, repeated fields,
lists over several lines, and fields that do not parse -/
def exSent : List Line := [(str "Host", str "a"), (str "a b", str "x"), (str "X-Foo", str "1"), (str "ETag", str "\"a\""), (str "Via", str "1.1 a, 1.0 b"),
  (str "etag", str "\"b\""), (str "VIA", str "1.1 c"), (str "Vary", str "Accept, Host"), (str "vary", str "accept"), (str "Allow", str "a b, GET"),
  (str "Accept-CH", str "("), (str "NEL", str "{")]

/-- what processing it ends in -/
def exEnd : Msg × Except Exn Unit := processSection toyEnv none false exSent (fresh toyEnv .response none false false)

theorem returned {α} {p : α × Except Exn Unit} (h : p.2 = .ok ()) : p = (p.1, .ok ()) := by cases p; cases h; rfl

theorem exEnd_run : processSection toyEnv none false exSent (fresh toyEnv .response none false false) = (exEnd.1, .ok ()) := by
  have h : exEnd.2 = .ok () := by decide +kernel
  exact returned h

theorem exSent_unpadded : Unpadded exSent := by unfold Unpadded; decide +kernel

/-- C13: `Host` is not for responses -/
example : dget (exEnd.1.section false).parsed (str "host") = some .none :=
  C13_value_partial _ _ false _ _ _ exLinting rfl exSent_unpadded exEnd_run _ (by decide +kernel) (by decide +kernel) (by decide +kernel)

/-- C14: `a b` is no token -/
example : dget (exEnd.1.section false).parsed (str "a b") = some (.list []) :=
  C14_value _ _ false _ _ _ exLinting rfl exSent_unpadded exEnd_run _ (by decide +kernel) (.inr ⟨32, by decide, by decide +kernel⟩)

/-- C15: `X-Foo` is unknown -/
example : dget (exEnd.1.section false).parsed (str "x-foo") = some (.list []) :=
  C15_entry _ _ false _ _ _ exLinting rfl exSent_unpadded exEnd_run _ (by decide +kernel) (by decide +kernel)

/-- C17: `ETag` is given twice; the first one counts -/
example : dget (exEnd.1.section false).parsed (str "etag") = some (.tuple [.bool false, .str (str "a")]) :=
  (C17_value _ _ false _ _ _ exLinting rfl exSent_unpadded exEnd_run _ (by decide +kernel) (by decide +kernel) (str "\"a\"") [str "\"b\""] (by decide +kernel)).trans
    (by decide +kernel)

example : ∃ added, exEnd.1.notes = [] ++ added ∧ (ofClass .SINGLE_HEADER_REPEAT added).map (·.subject) = [str "field-etag"] := by
  obtain ⟨added, e, h⟩ := C17_repeat _ _ false _ _ _ exLinting rfl exEnd_run
  exact ⟨added, e, h.trans (by decide +kernel)⟩

/-- C18: `Via` over two lines, in two cases; `Vary` without repetitions -/
example : dget (exEnd.1.section false).parsed (str "via") = some (.list [.str (str "1.1 a"), .str (str "1.0 b"), .str (str "1.1 c")]) :=
  (C18_value _ _ false _ _ _ exLinting rfl exSent_unpadded exEnd_run _ (by decide +kernel) (by decide +kernel) (by decide +kernel) (by decide +kernel)).trans
    (by decide +kernel)

example : dget (exEnd.1.section false).parsed (str "vary") = some (.list [.str (str "accept"), .str (str "host")]) :=
  (C18_vary _ _ false _ _ _ exLinting rfl exSent_unpadded exEnd_run (by decide +kernel) (by decide +kernel)).trans (by decide +kernel)

/-- C18: the same elements on one line -/
def exJoined : List Line := [(str "Via", str "1.1 a, 1.0 b,1.1 c")]

example : dget (exEnd.1.section false).parsed (str "via") =
    dget ((processSection toyEnv none false exJoined (fresh toyEnv .response none false false)).1.section false).parsed (str "via") := by
  refine C18_division _ _ false _ exJoined _ _ _ exLinting rfl exSent_unpadded (by unfold Unpadded; decide +kernel) exEnd_run (returned ?_) _
    (by decide +kernel) (by decide +kernel) (by decide +kernel) (by decide +kernel)
  decide +kernel

/-- C20: `a b` begins like a method but is not one -/
example : ∃ added, exEnd.1.notes = [] ++ added ∧ (added.filter isSyntax).map tag = [(.BAD_SYNTAX_DETAILED, str "offset-7")] := by
  obtain ⟨added, e, h⟩ := C20_syntax_notes _ _ false _ _ _ exLinting rfl exEnd_run
  exact ⟨added, e, h.trans (by decide +kernel)⟩

/-- C123: the note on the `Allow` line is there because `a b` is no token -/
example : ∃ added, exEnd.1.notes = [] ++ added ∧ ∃ n ∈ added, (n.cls = .BAD_SYNTAX ∨ n.cls = .BAD_SYNTAX_DETAILED) ∧ n.subject = str "offset-7" := by
  obtain ⟨added, e, h⟩ := C123_notes _ _ false _ _ _ exLinting rfl exEnd_run
  refine ⟨added, e, (h _).2 ⟨.allow_, str "a b", by decide +kernel, rfl, ?_⟩⟩
  unfold InSyntax
  rw [← C123_in_grammar]
  decide +kernel

/-- C22: `Accept-CH` and `NEL` do not parse -/
example : dget (exEnd.1.section false).parsed (str "accept-ch") = some .none ∧ dget (exEnd.1.section false).parsed (str "nel") = some .none :=
  ⟨(C22_sf_value _ _ false _ _ _ exLinting rfl exSent_unpadded exEnd_run _ (by decide +kernel) (str "list") (by decide +kernel) (by decide +kernel)).trans rfl,
   (C22_json_value _ _ false _ _ _ exLinting rfl exSent_unpadded exEnd_run _ (by decide +kernel) (by decide +kernel) (by decide +kernel)).trans rfl⟩

example : ∃ added, exEnd.1.notes = [] ++ added ∧ (ofClass .STRUCTURED_FIELD_PARSE_ERROR added).map (·.subject) = [str "field-accept-ch"] := by
  obtain ⟨added, e, h⟩ := C22_sf_error _ _ false _ _ _ exLinting rfl exEnd_run
  exact ⟨added, e, h.trans (by decide +kernel)⟩

example : ∃ added, exEnd.1.notes = [] ++ added ∧ (ofClass .BAD_JSON added).map (·.subject) = [str "field-nel"] := by
  obtain ⟨added, e, h⟩ := C22_json_error _ _ false _ _ _ exLinting rfl exEnd_run
  exact ⟨added, e, h.trans (by decide +kernel)⟩

/-- C01: a message with notes, and a call after which they are still there -/
example : (exResponse (str "404") [(str "X Y", str "1")] none).notes.map (·.cls) = [.FIELD_NAME_BAD_SYNTAX] ∧
    Grows (exResponse (str "404") [(str "X Y", str "1")] none).notes
      (Op.runAll toyEnv [.feed (str "ab"), .finish true []] ⟨exResponse (str "404") [(str "X Y", str "1")] none, none⟩).msg.notes ∧
    ((Op.runAll toyEnv [.feed (str "ab"), .finish true []] ⟨exResponse (str "404") [(str "X Y", str "1")] none, none⟩).msg.notes.map (·.cls)).contains .STATUS_NOT_FOUND = true :=
  ⟨by decide +kernel, C01_notes_only_grow _ _ _, by decide +kernel⟩

theorem exFresh_tidy : TidyNames exFresh.headers := by
  have h : ∀ p ∈ exFresh.headers.text, strip p.1 = p.1 := by decide +kernel
  exact h

/-- C33: the facts of a response that is reachable -/
example : ∃ f, FactsOf exFresh (some (exRequest (str "GET") [])) f := C33_facts (env := toyEnv) (exResponse_reachable _ _ _) (by decide +kernel) exFresh_tidy

/-! ### C18 and C22 (CombineThm) -/

/-- C18: three lines and one -/
example : let ls₁ : List Line := [(str "Allow", str "GET, POST"), (str "X-Other", str "1"), (str "allow", str " HEAD")]
    let ls₂ : List Line := [(str "Allow", str "GET, POST, HEAD")]
    let lines : List (List Slot) := [[⟨[], str "GET", []⟩, ⟨str " ", str "POST", []⟩], [⟨str " ", str "HEAD", []⟩]]
    (∀ l ∈ lines, l ≠ [] ∧ ∀ s ∈ l, s.Good) ∧
    valuesOf ls₁ (str "allow") = lines.map (fun l => join (str ",") (l.map Slot.text)) ∧
    valuesOf ls₂ (str "allow") = [join (str ",") (lines.map fun l => join (str ",") (l.map Slot.text))] ∧
    dget (processSection toyEnv none false ls₁ (fresh toyEnv .response none false false)).1.headers.parsed (str "allow") =
      some (.list [.str (str "GET"), .str (str "POST"), .str (str "HEAD")]) ∧
    (outcome toyEnv ls₁).1 = true ∧ (outcome toyEnv ls₂).1 = true := by
  intro ls₁ ls₂ lines
  refine ⟨?_, by decide +kernel, by decide +kernel, by decide +kernel, by decide +kernel, by decide +kernel⟩
  have sp : ∀ w : Str, (w.all isSpace) = true → AllSpace w := fun w h c hc => (List.all_eq_true.1 h) c hc
  have sg : ∀ w : Str, (w.all fun c => c != 34 && c != 44) = true → Segment w := by
    intro w
    induction w with
    | nil => intro _; exact .nil
    | cons c w ih =>
      intro h
      simp only [List.all_cons, Bool.and_eq_true, bne_iff_ne] at h
      exact .char h.1.1 h.1.2 (ih h.2)
  have good : ∀ b w a : Str, b.all isSpace = true → a.all isSpace = true → (w.all fun c => c != 34 && c != 44) = true → Stripped w →
      Slot.Good ⟨b, w, a⟩ := fun b w a hb ha hw hs => ⟨sp _ hb, sp _ ha, .inr ⟨sg _ hw, hs⟩⟩
  intro l hl
  simp only [lines, List.mem_cons, List.not_mem_nil, or_false] at hl
  rcases hl with rfl | rfl
  · refine ⟨by simp, fun s hs => ?_⟩
    simp only [List.mem_cons, List.not_mem_nil, or_false] at hs
    rcases hs with rfl | rfl
    · exact good _ _ _ rfl rfl (by decide) ⟨⟨_, rfl, by decide⟩, _, rfl, by decide⟩
    · exact good _ _ _ (by decide) rfl (by decide) ⟨⟨_, rfl, by decide⟩, _, rfl, by decide⟩
  · refine ⟨by simp, fun s hs => ?_⟩
    simp only [List.mem_cons, List.not_mem_nil, or_false] at hs
    subst hs
    exact good _ _ _ (by decide) rfl (by decide) ⟨⟨_, rfl, by decide⟩, _, rfl, by decide⟩

/-- C22: a field that does not parse gets one note and is not checked; one that parses is checked -/
example : outcome toyEnv [(str "Deprecation", str "1"), (str "NEL", str "]")] =
    (true, [(.STRUCTURED_FIELD_PARSE_ERROR, str "field-deprecation", []), (.BAD_JSON, str "field-nel", [])]) ∧
    outcome structEnv [(str "Deprecation", str "1")] = (true, [(.DEPRECATION_BAD_TYPE, str "field-deprecation", [])]) := by decide +kernel

end HL.Props
