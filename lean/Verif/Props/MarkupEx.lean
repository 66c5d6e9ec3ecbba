import Verif.Props.MarkupThm
import Verif.Props.StructuredThm

/-!
# C114: Structured Fields that can't be parsed, examples and counterexamples
-/

namespace HL.Props

/-- no line break -/
def single (s : Str) : Bool := s.all fun c => !isBreak c

theorem oneLine_strip {s : Str} (h : single s = true) : oneLine (removeC 96 s) = true := by
  unfold oneLine
  rw [List.all_eq_true]
  intro c hc
  have h1 := List.mem_filter.1 hc
  have h2 := List.all_eq_true.1 h c h1.1
  simp only [Bool.and_eq_true]
  exact ⟨h2, h1.2⟩

theorem removeC_append (c : Nat) (a b : Str) : removeC c (a ++ b) = removeC c a ++ removeC c b := by
  simp [removeC]

/-- from anywhere outside code spans, a blank line and four spaces lead into a code block -/
theorem into_block {q : Place} (hq : q.inSpan = false) (out : Str) :
    (str "\n\n    ").foldl Reading.step ⟨q, [], out⟩ = ⟨.block, [], out⟩ := by
  cases q with
  | text f => cases f <;> rfl
  | start k => rfl
  | block => rfl
  | span f => exact nomatch hq

/-- the pieces of the text of STRUCTURED_FIELD_PARSE_ERROR -/
def parseErrorPieces : Str × Str × Str :=
  match tpl NoteId.STRUCTURED_FIELD_PARSE_ERROR.text with
  | some [.text a, .var _, .text b, .var _, .text c, .var _] => (a, b, c)
  | _ => ([], [], [])

theorem parseError_tpl : tpl NoteId.STRUCTURED_FIELD_PARSE_ERROR.text =
    some [.text parseErrorPieces.1, .var (str "field_name"), .text parseErrorPieces.2.1, .var (str "problem"),
      .text parseErrorPieces.2.2, .var (str "context")] := by decide +kernel

/-- **C114**, Structured Fields that can't be parsed: the note shows the problem in a code span and the surroundings of
the offending character, over two lines, in a code block; whatever these are, they add no markup. -/
theorem C114_parse_error_stays_in_code (e : RenderEnv) (vars : Dict Val) (name problem context : Str)
    (ht : ∀ s, e.translate s = s) (hn : dget vars (str "field_name") = some (.str name))
    (hp : dget vars (str "problem") = some (.str problem)) (hx : dget vars (str "context") = some (.str context))
    (h1 : plainText (removeC 96 name) = true) (h2 : single problem = true)
    (h3 : context = [] ∨ ∃ a b, context = str "\n\n    " ++ a ++ str "\n    " ++ b ∧ single a = true ∧ single b = true)
    (src mk : Str) (hs : e.detailSource .STRUCTURED_FIELD_PARSE_ERROR vars = .ok src) (hm : markup src = some mk) :
    ownMarkup .STRUCTURED_FIELD_PARSE_ERROR = some mk := by
  unfold RenderEnv.detailSource at hs
  simp only [bind, Except.bind] at hs
  split at hs
  · exact nomatch hs
  rename_i safe hsafe
  have get : ∀ k s, dget vars k = some (.str s) → dget safe k = some (.str (removeC 96 s)) := by
    intro k s hk
    have := coerceAll_get e hsafe k
    rw [hk] at this
    obtain ⟨t, h, hg⟩ := this
    simp only [RenderEnv.coerce, RenderEnv.toStr, bind, Except.bind, pure, Except.pure, Except.ok.injEq] at h
    rw [hg, h]
  have e1 := get _ _ hn
  have e2 := get _ _ hp
  have e3 := get _ _ hx
  unfold percent at hs
  rw [ht, parseError_tpl] at hs
  dsimp only at hs
  generalize hA : parseErrorPieces.1 = A at hs
  generalize hB : parseErrorPieces.2.1 = B at hs
  generalize hC : parseErrorPieces.2.2 = C at hs
  simp only [renderSegs, e1, e2, e3, RenderEnv.toStr, bind, Except.bind, pure, Except.pure, Except.ok.injEq,
    List.append_nil] at hs
  obtain ⟨p1, r1, k1⟩ := scanText_ok (p := .start 0) (s := A) (q := .text false) (o := []) (by rw [← hA]; decide +kernel) [] []
    (fun _ => rfl)
  have sB : scanText (.text false) B = some (str "[]", .span false) := by rw [← hB]; decide +kernel
  have sC : scanText (.span false) C = some ([], .start 0) := by rw [← hC]; decide +kernel
  have r2 := plain_value h1 (not_mem_removeC name) (p := .text false) rfl []
  obtain ⟨p3, r3, k3⟩ := scanText_ok sB [] [] (fun _ => rfl)
  obtain ⟨p4, r4⟩ := span_value (oneLine_strip h2) p3 (str "[]")
  obtain ⟨p5, r5, k5⟩ := scanText_ok sC p4 (str "[]") (fun e => nomatch e)
  have k5' : p5 = [] := k5 rfl
  subst k5'
  rw [ite_self] at r2
  rw [List.nil_append] at r3
  rw [List.append_nil] at r5
  have tail : ∃ q, (removeC 96 context).foldl Reading.step ⟨.start 0, [], str "[]"⟩ = ⟨q, [], str "[]"⟩ := by
    rcases h3 with rfl | ⟨a, b, rfl, ha, hb⟩
    · exact ⟨_, rfl⟩
    · refine ⟨.block, ?_⟩
      rw [removeC_append, removeC_append, removeC_append, List.foldl_append, List.foldl_append, List.foldl_append]
      rw [show removeC 96 (str "\n\n    ") = str "\n\n    " from rfl, into_block rfl,
        block_value (oneLine_strip ha)]
      show (removeC 96 b).foldl Reading.step ⟨.block, [], str "[]"⟩ = _
      exact block_value (oneLine_strip hb) _
  obtain ⟨q, tail⟩ := tail
  have k1' : p1 = [] := k1 rfl
  subst k1'
  have all : src.foldl Reading.step ⟨.start 0, [], []⟩ = ⟨q, [], str "[]"⟩ := by
    rw [← hs, List.foldl_append, r1, List.append_nil, List.foldl_append, r2, List.foldl_append, r3, List.foldl_append, r4,
      List.foldl_append, r5, tail]
  unfold markup at hm
  split at hm
  · exact nomatch hm
  · dsimp only at hm
    rw [all] at hm
    have hm : some (str "[]") = some mk := hm
    rw [← hm]
    decide +kernel

/-- a pointer into the text, as the notes on syntax show it -/
theorem excerpt_value {q : Place} (hq : q.inSpan = false) {a b : Str} (ha : single a = true) (hb : single b = true) (out : Str) :
    (removeC 96 (str "\n\n    " ++ a ++ str "\n    " ++ b)).foldl Reading.step ⟨q, [], out⟩ = ⟨.block, [], out⟩ := by
  rw [removeC_append, removeC_append, removeC_append, List.foldl_append, List.foldl_append, List.foldl_append,
    show removeC 96 (str "\n\n    ") = str "\n\n    " from rfl, into_block hq, block_value (oneLine_strip ha)]
  show (removeC 96 b).foldl Reading.step ⟨.block, [], out⟩ = _
  exact block_value (oneLine_strip hb) _

/-- the pieces of the text of BAD_SYNTAX_DETAILED -/
def badSyntaxPieces : Str × Str :=
  match tpl NoteId.BAD_SYNTAX_DETAILED.text with
  | some [.text a, .var _, .text b, .var _, .text _] => (a, b)
  | _ => ([], [])

theorem badSyntax_tpl : tpl NoteId.BAD_SYNTAX_DETAILED.text =
    some [.text badSyntaxPieces.1, .var (str "ref_uri"), .text badSyntaxPieces.2, .var (str "problem"), .text (str "`")] := by
  decide +kernel

/-- what is said of the character -/
def aboutCharacter (ch : Nat) (position : Nat) : Str :=
  str "The invalid character '" ++ [ch] ++ str "' was found at position " ++ dec position ++ str ":"

/-- in a code span, anything on one line without backticks stays pending -/
theorem span_value_exact {s : Str} (h : oneLine s = true) (pend out : Str) :
    s.foldl Reading.step ⟨.span false, pend, out⟩ = ⟨.span false, pend ++ s.filter special, out⟩ := by
  induction s generalizing pend with
  | nil => simp
  | cons c s ih =>
    simp only [oneLine, List.all_cons, Bool.and_eq_true, Bool.not_eq_true', bne_iff_ne, ne_eq] at h
    have hn : Place.next (.span false) c = .span false := by
      unfold Place.next
      dsimp only
      rw [if_neg (c := c = 96) h.1.2, h.1.1]
      by_cases hb : isBlank c = true <;> simp [hb]
    rw [List.foldl_cons]
    have hs : Reading.step ⟨.span false, pend, out⟩ c =
        ⟨.span false, if special c then pend ++ [c] else pend, out⟩ := by
      unfold Reading.step
      dsimp only
      rw [hn]
    rw [hs, ih (by simpa [oneLine] using h.2)]
    by_cases hc : special c = true <;> simp [hc]

theorem about_specials (ch position : Nat) :
    (removeC 96 (aboutCharacter ch position)).filter special = if special ch then [ch] else [] := by
  have hd : (dec position).filter special = [] := by
    rw [List.filter_eq_nil_iff]
    intro c hc
    have := List.all_eq_true.1 (dec_ordinary position) c hc
    simp only [ordinary, Bool.and_eq_true, Bool.not_eq_true'] at this
    simp [this.1.1.1]
  have hcomm : ∀ s : Str, (removeC 96 s).filter special = s.filter special := by
    intro s
    unfold removeC
    rw [List.filter_filter]
    refine List.filter_congr fun c _ => ?_
    by_cases h : c = 96
    · subst h; rfl
    · simp [h]
  rw [hcomm]
  unfold aboutCharacter
  rw [List.filter_append, List.filter_append, List.filter_append, List.filter_append, hd]
  rw [show (str "The invalid character '").filter special = [] from rfl,
    show (str "' was found at position ").filter special = [] from rfl, show (str ":").filter special = [] from rfl]
  by_cases h : special ch = true <;> simp [h]

theorem about_single {ch : Nat} (h : isBreak ch = false) (position : Nat) : single (aboutCharacter ch position) = true := by
  unfold aboutCharacter single
  rw [List.all_append, List.all_append, List.all_append, List.all_append]
  have hd : (dec position).all (fun c => !isBreak c) = true := by
    rw [List.all_eq_true]
    intro c hc
    have := List.all_eq_true.1 (dec_ordinary position) c hc
    simp only [ordinary, Bool.and_eq_true] at this
    exact this.1.1.2
  rw [hd]
  simp only [List.all_cons, List.all_nil, h]
  rfl

/-- **C114**, list fields with bad syntax: their note puts a text of several paragraphs into a code span, which therefore
isn't one; nevertheless nothing gets out but the one offending character. -/
theorem C114_bad_syntax_shows_one_character (e : RenderEnv) (vars : Dict Val) (uri a b : Str) (ch position : Nat)
    (ht : ∀ s, e.translate s = s) (hn : dget vars (str "ref_uri") = some (.str uri))
    (hp : dget vars (str "problem") =
      some (.str (aboutCharacter ch position ++ (str "\n\n    " ++ a ++ str "\n    " ++ b))))
    (h1 : plainText (removeC 96 uri) = true) (hch : isBreak ch = false) (ha : single a = true) (hb : single b = true)
    (src mk : Str) (hs : e.detailSource .BAD_SYNTAX_DETAILED vars = .ok src) (hm : markup src = some mk) :
    ∃ own, ownMarkup .BAD_SYNTAX_DETAILED = some own ∧ mk = own ++ (if special ch then [ch] else []) := by
  refine ⟨str "[][]", by decide +kernel, ?_⟩
  unfold RenderEnv.detailSource at hs
  simp only [bind, Except.bind] at hs
  split at hs
  · exact nomatch hs
  rename_i safe hsafe
  have get : ∀ k s, dget vars k = some (.str s) → dget safe k = some (.str (removeC 96 s)) := by
    intro k s hk
    have := coerceAll_get e hsafe k
    rw [hk] at this
    obtain ⟨t, h, hg⟩ := this
    simp only [RenderEnv.coerce, RenderEnv.toStr, bind, Except.bind, pure, Except.pure, Except.ok.injEq] at h
    rw [hg, h]
  have e1 := get _ _ hn
  have e2 := get _ _ hp
  unfold percent at hs
  rw [ht, badSyntax_tpl] at hs
  dsimp only at hs
  generalize hA : badSyntaxPieces.1 = A at hs
  generalize hB : badSyntaxPieces.2 = B at hs
  simp only [renderSegs, e1, e2, RenderEnv.toStr, bind, Except.bind, pure, Except.pure, Except.ok.injEq,
    List.append_nil] at hs
  obtain ⟨p1, r1, k1⟩ := scanText_ok (p := .start 0) (s := A) (q := .text false) (o := str "[][]") (by rw [← hA]; decide +kernel) [] []
    (fun _ => rfl)
  have k1' : p1 = [] := k1 rfl
  subst k1'
  rw [List.nil_append] at r1
  have r3 : B.foldl Reading.step ⟨.text false, [], str "[][]"⟩ = ⟨.span false, [], str "[][]"⟩ := by
    rw [← hB]; decide +kernel
  have r2 := plain_value h1 (not_mem_removeC uri) (p := .text false) rfl (str "[][]")
  rw [ite_self] at r2
  have r4 := span_value_exact (oneLine_strip (about_single hch position)) [] (str "[][]")
  rw [about_specials, List.nil_append] at r4
  have r5 : (removeC 96 (str "\n\n    " ++ a ++ str "\n    " ++ b)).foldl Reading.step
      ⟨.span false, if special ch then [ch] else [], str "[][]"⟩ = ⟨.block, [], str "[][]" ++ if special ch then [ch] else []⟩ := by
    have := excerpt_value (q := .start 0) rfl ha hb (str "[][]" ++ if special ch then [ch] else [])
    rw [← this]
    rw [List.append_assoc, List.append_assoc, removeC_append, List.foldl_append, List.foldl_append]
    rfl
  have all : src.foldl Reading.step ⟨.start 0, [], []⟩ = ⟨.block, [], str "[][]" ++ if special ch then [ch] else []⟩ := by
    rw [← hs, List.foldl_append, r1, List.foldl_append, r2, List.foldl_append, r3, List.foldl_append, removeC_append,
      List.foldl_append, r4, r5]
    rfl
  unfold markup at hm
  split at hm
  · exact nomatch hm
  · dsimp only at hm
    rw [all, List.append_nil, Option.some.injEq] at hm
    exact hm.symm

/-- what the linter says of an element on one line has that form (`C21_pinpoint`: these are the notes it makes) -/
theorem C114_syntax_problem_form {value problem : Str} {i : Nat} (hv : single value = true)
    (h : syntaxProblem value i = .ok problem) :
    ∃ ch position a b, problem = aboutCharacter ch position ++ (str "\n\n    " ++ a ++ str "\n    " ++ b) ∧
      isBreak ch = false ∧ single a = true ∧ single b = true := by
  unfold syntaxProblem at h
  split at h
  · exact nomatch h
  · rename_i ch hch
    cases h
    refine ⟨ch, i + 1, (value.take (min value.length (i + 20))).drop (i - 20), List.replicate (i - (i - 20)) 32 ++ str "^", ?_, ?_, ?_, ?_⟩
    · unfold aboutCharacter
      simp only [List.append_assoc]
      rfl
    · have := List.all_eq_true.1 hv ch (List.mem_of_getElem? hch)
      simpa using this
    · exact all_of_mem (fun c hc => List.mem_of_mem_take (List.mem_of_mem_drop hc)) hv
    · unfold single
      rw [List.all_append, List.all_replicate]
      split <;> rfl

/-! ### examples -/

/-- a library that reads a quoted text as a List of one String -/
def quoteEnv : Env := { toyEnv with
  sfParse := fun ty s => match ty == str "list", s with
    | true, 34 :: r => .ok (ofMembers [(.str r.dropLast, .dict [])]) []
    | _, _ => .error [] [] }

/-- a request that asks for gzip -/
def exAsking : Msg :=
  (Op.runAll quoteEnv [.requestTopline (str "GET") (str "/") (str "1.1"), .headers [(str "Accept-Encoding", str "gzip")]]
    ⟨fresh quoteEnv .request none false false, none⟩).msg

/-- a response to it, with some header fields -/
def exShown (ls : List (Str × Str)) : Msg :=
  (Op.runAll quoteEnv [.responseTopline (str "1.1") (str "200") none, .headers ls, .finish true []]
    ⟨fresh quoteEnv .response none false false, some exAsking⟩).msg

theorem exShown_reachable (ls : List (Str × Str)) : Reachable quoteEnv (exShown ls) := ⟨_, _, _, _, _, _, rfl⟩

/-- the markup outside code in the detail of a linter's notes of a class -/
def shownMarkup (env : Env) (m : Msg) (cls : NoteId) : List (Option Str) :=
  (m.notes.filter (·.cls == cls)).map fun n =>
    match env.render.detailSource n.cls n.vars with
    | .ok s => markup s
    | .error _ => none

theorem shown_note {env : Env} {m : Msg} {cls : NoteId} {mk : Str} (h : shownMarkup env m cls = [some mk]) :
    ∃ n ∈ m.notes, n.cls = cls ∧ ∃ src, env.render.detailSource n.cls n.vars = .ok src ∧ markup src = some mk := by
  have hm : some mk ∈ shownMarkup env m cls := by rw [h]; exact List.mem_cons_self ..
  obtain ⟨n, hn, e⟩ := List.mem_map.1 hm
  have hn := List.mem_filter.1 hn
  refine ⟨n, hn.1, by simpa using hn.2, ?_⟩
  cases hs : env.render.detailSource n.cls n.vars with
  | error x => rw [hs] at e; exact nomatch e
  | ok src => rw [hs] at e; exact ⟨src, rfl, e⟩

/-- **C114 fails for Cache-Status.**  A response `Cache-Status: "<script>"` (the same goes for `Proxy-Status`) makes a
note whose detail has `<script>` outside code: the names of caches, which are Strings, go into the text as they are. -/
theorem C114_status_is_exposed : ∃ m, Reachable quoteEnv m ∧ ∃ n ∈ m.notes, n.cls = .CACHE_STATUS ∧
    ownMarkup n.cls = some [] ∧ ∃ src, quoteEnv.render.detailSource n.cls n.vars = .ok src ∧ markup src = some (str "<>") := by
  have h : shownMarkup quoteEnv (exShown [(str "Cache-Status", str "\"<script>\"")]) .CACHE_STATUS = [some (str "<>")] := by
    decide +kernel
  obtain ⟨n, hn, hc, hs⟩ := shown_note h
  exact ⟨_, exShown_reachable _, n, hn, hc, by rw [hc]; decide +kernel, hs⟩

/-- the same for `Proxy-Status` -/
example : shownMarkup quoteEnv (exShown [(str "Proxy-Status", str "\"<script>\"")]) .PROXY_STATUS = [some (str "<>")] := by
  decide +kernel

/-- **C114 fails for Accept-CH.**  The members that are missing from Vary are listed as they are; a member that is a
String is reported, but is in the list nevertheless. -/
theorem C114_missing_fields_are_exposed : ∃ m, Reachable quoteEnv m ∧ ∃ n ∈ m.notes, n.cls = .ACCEPT_CH_MISSING_VARY ∧
    ownMarkup n.cls = some [] ∧ ∃ src, quoteEnv.render.detailSource n.cls n.vars = .ok src ∧ markup src = some (str "<>") := by
  have h : shownMarkup quoteEnv (exShown [(str "Accept-CH", str "\"<b>\""), (str "Cache-Control", str "max-age=5")])
      .ACCEPT_CH_MISSING_VARY = [some (str "<>")] := by
    decide +kernel
  obtain ⟨n, hn, hc, hs⟩ := shown_note h
  exact ⟨_, exShown_reachable _, n, hn, hc, by rw [hc]; decide +kernel, hs⟩

/-- **C114 fails for ENCODING_UNWANTED.**  Its text opens a code span that it doesn't close, so a content coding that
was not asked for is shown outside code. -/
theorem C114_unclosed_span : ∃ m, Reachable quoteEnv m ∧ ∃ n ∈ m.notes, n.cls = .ENCODING_UNWANTED ∧
    ownMarkup n.cls = some [] ∧ ∃ src, quoteEnv.render.detailSource n.cls n.vars = .ok src ∧ markup src = some (str "<>") := by
  have h : shownMarkup quoteEnv (exShown [(str "Content-Encoding", str "<b>")]) .ENCODING_UNWANTED = [some (str "<>")] := by
    decide +kernel
  obtain ⟨n, hn, hc, hs⟩ := shown_note h
  exact ⟨_, exShown_reachable _, n, hn, hc, by rw [hc]; decide +kernel, hs⟩

/-- the assumption, by computation -/
def oneLinersB (e : RenderEnv) (cls : NoteId) (vars : Dict Val) : Bool :=
  ((textVars cls).all fun k => match dget vars k with
    | some (.md t) => cls.bare.contains k && tight t
    | some v => match e.coerce v with
      | .ok t => k == str "report_only_text" || single t
      | .error _ => true
    | none => true) &&
  cls.exposed.all fun k => match dget vars k with
    | some v => match e.coerce v with
      | .ok t => plainText t
      | .error _ => true
    | none => true

/-- times are shown as plain text in the toy environment -/
theorem toy_timedelta (us : Int) (dir : Bool) (tail : Str) (h : tail.all (fun c => !special c && !isBreak c) = true) :
    plainText (removeC 96 (quoteEnv.render.timedelta us dir ++ tail)) = true := by
  have hdec : ∀ n : Nat, (dec n).all (fun c => !special c && !isBreak c) = true := fun n => List.all_eq_true.2 fun c hc => by
    have := List.all_eq_true.1 (dec_ordinary n) c hc
    simp only [ordinary, Bool.and_eq_true] at this ⊢
    exact this.1.1
  have hd : ∀ n : Nat, decI (n : Int) = dec n := fun n => by
    unfold decI
    rw [if_neg (by omega), Int.natAbs_natCast]
  have hform : quoteEnv.render.timedelta us dir = (if dir then (if us < 0 then [] else str "in ") else []) ++ dec (us.natAbs / 1000000) ++ str " seconds" ++
      (if dir && us < 0 then str " ago" else []) := by
    rw [← hd]; rfl
  have hrest : ∀ suf : Str, suf.all (fun c => !special c && !isBreak c) = true →
      plainText (removeC 96 (dec (us.natAbs / 1000000) ++ (str " seconds" ++ (suf ++ tail)))) = true := fun suf hs =>
    plainText_append (dec_ordinary _) (dec_ne_nil _) (by rw [List.all_append, List.all_append, hs, h]; rfl)
  rw [hform]
  cases dir with
  | false => simpa using hrest [] rfl
  | true =>
    by_cases hn : us < 0
    · simpa [hn] using hrest (str " ago") (by decide)
    · rw [if_pos rfl, if_neg hn]
      simp only [hn, decide_false, Bool.and_false, Bool.false_eq_true, if_false, List.append_nil, List.append_assoc]
      exact plainText_append (a := str "in") (b := str " " ++ (dec (us.natAbs / 1000000) ++ (str " seconds" ++ tail))) (by decide) (by decide)
        (by rw [List.all_append, List.all_append, List.all_append, hdec, h]; rfl)

theorem toy_relative (u n : Rat) (k : Nat) (t : Str) (h : quoteEnv.render.relative u n k = .ok t) : plainText (removeC 96 t) = true := by
  unfold RenderEnv.relative at h
  dsimp only at h
  cases hd : timedeltaOf (u - n) with
  | error => rw [hd] at h; exact nomatch h
  | ok us =>
    rw [hd] at h
    simp only [bind, Except.bind, pure, Except.pure] at h
    have hr : ∀ d, plainText (removeC 96 (quoteEnv.render.timedelta us d)) = true := fun d => by
      simpa using toy_timedelta us d [] rfl
    split at h
    · cases h; exact hr _
    · split at h
      · split at h
        · cases h; rw [List.append_assoc]; exact toy_timedelta _ _ _ (by decide)
        · cases h; rw [List.append_assoc]; exact toy_timedelta _ _ _ (by decide)
      · cases h; exact hr _

theorem oneLiners_of {cls : NoteId} {vars : Dict Val} (h : oneLinersB quoteEnv.render cls vars = true) :
    OneLiners quoteEnv.render cls vars := by
  unfold oneLinersB at h
  rw [Bool.and_eq_true, List.all_eq_true, List.all_eq_true] at h
  refine ⟨fun k hk t hv => ?_, fun k hk v t hv hm ht hr c hc => ?_, fun k hk v t hv ht => ?_, fun u n s t ht => ?_⟩
  · have := h.1 k hk
    rw [hv] at this
    simpa using this
  · have := h.1 k hk
    rw [hv] at this
    split at this
    · rename_i he
      cases he
      exact absurd rfl (hm _)
    · rename_i he
      cases he
      rw [ht] at this
      simp only [Bool.or_eq_true, beq_iff_eq] at this
      have := List.all_eq_true.1 (this.resolve_left hr) c hc
      simpa using this
    · rename_i he
      exact nomatch he
  · have := h.2 k hk
    rw [hv] at this
    dsimp only at this
    rw [ht] at this
    exact this
  · exact toy_relative u n s t ht

/-- a response full of attempts -/
def exAttempts : Msg := exShown [(str "ETag", str "<b>`"), (str "X-`<i>", str "\\[x](y)"),
  (str "Content-Security-Policy", str "`<b> a; `<b> b; script-src http://`<i> 'unsafe-inline'"),
  (str "Set-Cookie", str "`<b>`=1; Secure; HttpOnly; SameSite=Strict"), (str "Cache-Control", str "no-store, max-age=5"),
  (str "Link", str "<`<b>>; rel=preload")]

/-- it has such notes, one of them with a list of what the message says -/
example : exAttempts.notes.any (fun n => n.cls == .SET_COOKIE_HARDENED) = true := by decide +kernel
example : exAttempts.notes.any (fun n => (n.cls :: n.subnotes.map (·.cls)).any fun c => c == .CSP_DUPLICATE_DIRECTIVE) = true := by decide +kernel
/-- all its notes satisfy the assumptions of the theorem -/
example : ∀ n ∈ exAttempts.notes, (n.cls ∉ unfenced ∧ OneLiners quoteEnv.render n.cls n.vars) ∧
    ∀ s ∈ n.subnotes, s.cls ∉ unfenced ∧ OneLiners quoteEnv.render s.cls s.vars := by
  have h : (exAttempts.notes.all fun n => (!unfenced.contains n.cls && oneLinersB quoteEnv.render n.cls n.vars) &&
      n.subnotes.all fun s => !unfenced.contains s.cls && oneLinersB quoteEnv.render s.cls s.vars) = true := by decide +kernel
  intro n hn
  have := List.all_eq_true.1 h n hn
  rw [Bool.and_eq_true, Bool.and_eq_true, List.all_eq_true] at this
  refine ⟨⟨by simpa using this.1.1, oneLiners_of this.1.2⟩, fun s hs => ?_⟩
  have := this.2 s hs
  rw [Bool.and_eq_true] at this
  exact ⟨by simpa using this.1, oneLiners_of this.2⟩
/-- and have the markup of their classes' texts -/
example : (exAttempts.notes.all fun n => match quoteEnv.render.detailSource n.cls n.vars with
    | .ok src => markup src == ownMarkup n.cls
    | .error _ => false) = true := by decide +kernel

/-- what a note on syntax shows, and its parts -/
example : shownMarkup quoteEnv (exShown [(str "Cache-Control", str "`<b>=`<i>`")]) .BAD_SYNTAX_DETAILED = [some (str "[][]<")] := by
  decide +kernel
example : syntaxProblem (str "`<b>=`<i>`") 1 =
    .ok (aboutCharacter 60 2 ++ (str "\n\n    " ++ str "`<b>=`<i>`" ++ str "\n    " ++ str " ^")) := by rfl

/-- what a parse error's note shows -/
example : (quoteEnv.render.detailSource .STRUCTURED_FIELD_PARSE_ERROR [(str "field_name", .str (str "Accept-CH")), (str "problem", .str (str "`<b>")),
    (str "context", .str (str "\n\n    <b>`<i>\n    ^"))]).toOption.bind markup = some (str "[]") := by decide +kernel

end HL.Props
