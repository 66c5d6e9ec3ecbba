import Verif.Props.SectionNotes

/-!
# C08, C09, C10, C11, C14, C16: what `process_headers` records and says about field lines
-/

namespace HL.Props

/-- a linter in the state in which a field section is processed: `process_headers` is called on it, or
`finish_content(complete, trailers)` has just recorded the end of the content -/
def Linting (env : Env) (m : Msg) : Prop := ∃ r, Reachable env r ∧ (m = r ∨ ∃ co, m = finishStart env co r)

theorem Linting.ready {env m} (h : Linting env m) (t : Bool) : Ready env t m := by
  obtain ⟨r, hr, h⟩ := h
  have h1 := hr.good
  have h2 := (idInv env).reachable hr trivial
  rcases h with rfl | ⟨co, rfl⟩
  · exact ⟨h1.mt, h1.sec t, h2 t⟩
  · cases t
    · exact ⟨h1.mt, h1.sec false, h2 false⟩
    · exact ⟨h1.mt, h1.sec true, h2 true⟩

/-- `process_headers` is `FieldSection.process` on the header section (it then also looks for a charset, adding no
notes), and `finish_content` processes the trailers, if there are any, in the same way -/
theorem processHeaders_process {env related ls} {m m' : Msg} (h : m.processHeaders env related ls = (m', .ok ())) :
    ∃ m1, processSection env related false ls m = (m1, .ok ()) ∧ m'.notes = m1.notes ∧ m'.headers = m1.headers := by
  unfold Msg.processHeaders at h
  obtain ⟨m1, _, h1, h2⟩ := andThen_ok h
  obtain ⟨ce, e⟩ := setCharset_same env m1
  rw [h2] at e
  dsimp only at e
  exact ⟨m1, h1, by rw [e], by rw [e]⟩

/-! ### C08 -/

/-- **C08** All field lines are kept, in order: `headers.text` grows by the lines given, names without their
non-ASCII octets (when an exception ends the call, by those looked at so far). -/
theorem C08_headers (env : Env) (related : Option Msg) (m : Msg) (ls : List Line) :
    ∃ k, k ≤ ls.length ∧ ((m.processHeaders env related ls).2 = .ok () → k = ls.length) ∧
      (m.processHeaders env related ls).1.headers.text =
        m.headers.text ++ (ls.take k).map fun l => (l.1.filter (· < 128), l.2) := by
  obtain ⟨k, hk, hok, ht, _⟩ := processSection_text env related false ls m
  have hs := processHeaders_sections env related ls m
  refine ⟨k, hk, ?_, ?_⟩
  · intro h
    apply hok
    obtain ⟨m1, e, _⟩ := processHeaders_process (m' := (m.processHeaders env related ls).1) (by rw [← h])
    rw [e]
  · rw [hs.1]
    exact ht

/-- **C08**, trailers. -/
theorem C08_trailers (env : Env) (related : Option Msg) (m : Msg) (co : Bool) (ls : List Line) :
    ∃ k, k ≤ ls.length ∧ ((m.finishContent env related co ls).1.2 = .ok () → k = ls.length) ∧
      (m.finishContent env related co ls).1.1.trailers.text =
        m.trailers.text ++ (ls.take k).map fun l => (l.1.filter (· < 128), l.2) := by
  have hs := finishContent_sections env related co ls m
  cases ls with
  | nil =>
    refine ⟨0, by simp, by simp, ?_⟩
    rw [hs.2.1]
    simp [finishStart]
  | cons l ls =>
    obtain ⟨k, hk, hok, ht, _⟩ := processSection_text env related true (l :: ls) (finishStart env co m)
    refine ⟨k, hk, ?_, ?_⟩
    · intro h
      apply hok
      unfold Msg.finishContent at h
      dsimp only at h
      cases hr : (processSection env related true (l :: ls) (finishStart env co m)).2 with
      | ok u => rfl
      | error e =>
        have : processSection env related true (l :: ls) { m with complete := co, contentHash := some (env.md5 m.hashed) } =
            ((processSection env related true (l :: ls) (finishStart env co m)).1, .error e) := by rw [← hr]; rfl
        simp only [List.isEmpty_cons, Bool.false_eq_true, if_false] at h
        rw [this] at h
        simp at h
    · rw [hs.2.1]
      exact ht

/-- neither an invalid name nor an unknown field is dropped -/
example : ((fresh toyEnv .response none false false).processHeaders toyEnv none
    [(str "Sp ace", str "1"), (str "X-Unknown" ++ [200], [255])]).1.headers.text = [(str "Sp ace", str "1"), (str "X-Unknown", [255])] := by
  decide +kernel

/-! ### C09 -/

/-- **C09** The size of a section is the number of octets in all names and values. -/
theorem C09_size (env : Env) (related : Option Msg) (t : Bool) (ls : List Line) (m m' : Msg)
    (h : processSection env related t ls m = (m', .ok ())) :
    (m'.section t).size = (m.section t).size + (ls.map fun l => l.1.length + l.2.length).sum := by
  obtain ⟨k, _, hk, _, hs⟩ := processSection_text env related t ls m
  rw [h] at hk hs
  have := hk rfl
  subst this
  simpa [totalSize] using hs

theorem section_class {env related t} {ls : List Line} {m m' : Msg} (hm : Linting env m)
    (h : processSection env related t ls m = (m', .ok ())) (x : NoteId) (hx : x.origin = .line) (hx' : x ≠ .FIELD_SECTION_TOO_LARGE) :
    ∃ added, m'.notes = m.notes ++ added ∧ (ofClass x added).map (·.subject) =
      ((numbered m.kind 0 ls).filter fun p => decide (x ∈ lineClasses m.kind p.2)).map fun p => offsetSubject p.1 := by
  obtain ⟨added, e, ht⟩ := processSection_notes (hm.ready t) h
  refine ⟨added, e, line_class x hx ?_ ht⟩
  intro p hp
  split at hp
  · simp only [List.mem_singleton] at hp
    subst hp
    exact hx'.symm
  · simp at hp

/-- **C09** FIELD_SECTION_TOO_LARGE is added (once) exactly when the size exceeds 32768. -/
theorem C09_section (env : Env) (related : Option Msg) (t : Bool) (ls : List Line) (m m' : Msg) (hm : Linting env m)
    (h : processSection env related t ls m = (m', .ok ())) :
    ∃ added, m'.notes = m.notes ++ added ∧
      (ofClass .FIELD_SECTION_TOO_LARGE added).length = if (m'.section t).size > 32768 then 1 else 0 := by
  obtain ⟨added, e, ht⟩ := processSection_notes (hm.ready t) h
  refine ⟨added, e, ?_⟩
  have e1 : ofClass .FIELD_SECTION_TOO_LARGE added = (added.filter isLine).filter (·.cls == .FIELD_SECTION_TOO_LARGE) := by
    unfold ofClass
    rw [List.filter_filter]
    congr 1
    funext n
    by_cases hn : n.cls = .FIELD_SECTION_TOO_LARGE
    · have ho : NoteId.FIELD_SECTION_TOO_LARGE.origin = .line := rfl
      simp [isLine, hn, ho]
    · simp [hn]
  have e2 : (ofClass .FIELD_SECTION_TOO_LARGE added).length = (((added.filter isLine).map tag).filter (·.1 == .FIELD_SECTION_TOO_LARGE)).length := by
    rw [e1]
    generalize added.filter isLine = l
    induction l with
    | nil => rfl
    | cons n l ih =>
      by_cases hn : n.cls = .FIELD_SECTION_TOO_LARGE
      · rw [List.filter_cons_of_pos (by simpa using hn), List.map_cons, List.filter_cons_of_pos (by simpa [tag] using hn), List.length_cons, List.length_cons, ih]
      · rw [List.filter_cons_of_neg (by simpa using hn), List.map_cons, List.filter_cons_of_neg (by simpa [tag] using hn), ih]
  rw [e2, ht, List.filter_append, List.length_append]
  have e3 : (((numbered m.kind 0 ls).flatMap fun p => (lineClasses m.kind p.2).map (·, offsetSubject p.1)).filter (·.1 == .FIELD_SECTION_TOO_LARGE)) = [] := by
    rw [List.filter_eq_nil_iff]
    intro p hp
    obtain ⟨q, _, hq⟩ := List.mem_flatMap.1 hp
    obtain ⟨x, hx, rfl⟩ := List.mem_map.1 hq
    have : .FIELD_SECTION_TOO_LARGE ∉ lineClasses m.kind q.2 := by
      unfold lineClasses
      cases m.kind <;> (repeat' split) <;> decide
    intro hc
    exact this (by rw [← beq_iff_eq.1 hc]; exact hx)
  rw [e3]
  split <;> rfl

/-- **C09** A line gets FIELD_TOO_LARGE exactly when its name and value have more than 8192 octets, its field is
allowed in this kind of message and its name is a token: these are the notes' subjects, in order. -/
theorem C09_field (env : Env) (related : Option Msg) (t : Bool) (ls : List Line) (m m' : Msg) (hm : Linting env m)
    (h : processSection env related t ls m = (m', .ok ())) :
    ∃ added, m'.notes = m.notes ++ added ∧ (ofClass .FIELD_TOO_LARGE added).map (·.subject) =
      ((numbered m.kind 0 ls).filter fun p => decide (p.2.1.length + p.2.2.length > 8192) && accepted m.kind p.2).map fun p => offsetSubject p.1 := by
  obtain ⟨added, e, ht⟩ := section_class hm h .FIELD_TOO_LARGE rfl (by decide)
  refine ⟨added, e, ht.trans ?_⟩
  congr 2
  funext p
  rw [Bool.eq_iff_iff, decide_eq_true_eq]
  unfold lineClasses accepted
  cases m.kind <;> (repeat' split) <;> simp_all

/-! ### C10 -/

/-- **C10** FIELD_NAME_ENCODING is added for the lines whose name has an octet above 0x7F, and for no others. -/
theorem C10_name (env : Env) (related : Option Msg) (t : Bool) (ls : List Line) (m m' : Msg) (hm : Linting env m)
    (h : processSection env related t ls m = (m', .ok ())) :
    ∃ added, m'.notes = m.notes ++ added ∧ (ofClass .FIELD_NAME_ENCODING added).map (·.subject) =
      ((numbered m.kind 0 ls).filter fun p => p.2.1.any (· > 127)).map fun p => offsetSubject p.1 := by
  obtain ⟨added, e, ht⟩ := section_class hm h .FIELD_NAME_ENCODING rfl (by decide)
  refine ⟨added, e, ht.trans ?_⟩
  congr 2
  funext p
  rw [Bool.eq_iff_iff, decide_eq_true_eq]
  have e3 : p.2.1.any (fun x => decide (x > 127)) = p.2.1.any (fun x => decide (x ≥ 128)) := rfl
  rw [e3]
  unfold lineClasses
  cases m.kind <;> (repeat' split) <;> simp_all

/-- **C10** FIELD_VALUE_ENCODING likewise. -/
theorem C10_value (env : Env) (related : Option Msg) (t : Bool) (ls : List Line) (m m' : Msg) (hm : Linting env m)
    (h : processSection env related t ls m = (m', .ok ())) :
    ∃ added, m'.notes = m.notes ++ added ∧ (ofClass .FIELD_VALUE_ENCODING added).map (·.subject) =
      ((numbered m.kind 0 ls).filter fun p => p.2.2.any (· > 127)).map fun p => offsetSubject p.1 := by
  obtain ⟨added, e, ht⟩ := section_class hm h .FIELD_VALUE_ENCODING rfl (by decide)
  refine ⟨added, e, ht.trans ?_⟩
  congr 2
  funext p
  rw [Bool.eq_iff_iff, decide_eq_true_eq]
  have e3 : p.2.2.any (fun x => decide (x > 127)) = p.2.2.any (fun x => decide (x ≥ 128)) := rfl
  rw [e3]
  unfold lineClasses
  cases m.kind <;> (repeat' split) <;> simp_all

/-! ### C13, C14, C16: which lines get which line-level note -/

/-- **C13** (the notes) The lines of fields not allowed in this kind of message, and no others, get
RESPONSE_HDR_IN_REQUEST (in requests). -/
theorem C13_notes_request (env : Env) (related : Option Msg) (t : Bool) (ls : List Line) (m m' : Msg) (hm : Linting env m)
    (h : processSection env related t ls m = (m', .ok ())) :
    ∃ added, m'.notes = m.notes ++ added ∧ (ofClass .RESPONSE_HDR_IN_REQUEST added).map (·.subject) =
      ((numbered m.kind 0 ls).filter fun p => m.kind == .request && !(classOf (decodeName p.2.1)).info.validReq).map fun p => offsetSubject p.1 := by
  obtain ⟨added, e, ht⟩ := section_class hm h .RESPONSE_HDR_IN_REQUEST rfl (by decide)
  refine ⟨added, e, ht.trans ?_⟩
  congr 2
  funext p
  rw [Bool.eq_iff_iff, decide_eq_true_eq]
  unfold lineClasses FieldId.validIn
  cases m.kind <;> (repeat' split) <;> simp_all

/-- **C13** (the notes) Symmetrically in responses. -/
theorem C13_notes_response (env : Env) (related : Option Msg) (t : Bool) (ls : List Line) (m m' : Msg) (hm : Linting env m)
    (h : processSection env related t ls m = (m', .ok ())) :
    ∃ added, m'.notes = m.notes ++ added ∧ (ofClass .REQUEST_HDR_IN_RESPONSE added).map (·.subject) =
      ((numbered m.kind 0 ls).filter fun p => m.kind == .response && !(classOf (decodeName p.2.1)).info.validResp).map fun p => offsetSubject p.1 := by
  obtain ⟨added, e, ht⟩ := section_class hm h .REQUEST_HDR_IN_RESPONSE rfl (by decide)
  refine ⟨added, e, ht.trans ?_⟩
  congr 2
  funext p
  rw [Bool.eq_iff_iff, decide_eq_true_eq]
  unfold lineClasses FieldId.validIn
  cases m.kind <;> (repeat' split) <;> simp_all

/-- **C14** FIELD_NAME_BAD_SYNTAX is added for the lines whose name, without surrounding white space, is not a token
(RFC 9110 5.6.2) although the field is allowed here, and for no others. -/
theorem C14_notes (env : Env) (related : Option Msg) (t : Bool) (ls : List Line) (m m' : Msg) (hm : Linting env m)
    (h : processSection env related t ls m = (m', .ok ())) :
    ∃ added, m'.notes = m.notes ++ added ∧ (ofClass .FIELD_NAME_BAD_SYNTAX added).map (·.subject) =
      ((numbered m.kind 0 ls).filter fun p => (classOf (decodeName p.2.1)).validIn m.kind &&
        !(strip (decodeName p.2.1) != [] && (strip (decodeName p.2.1)).all isTchar)).map fun p => offsetSubject p.1 := by
  obtain ⟨added, e, ht⟩ := section_class hm h .FIELD_NAME_BAD_SYNTAX rfl (by decide)
  refine ⟨added, e, ht.trans ?_⟩
  congr 2
  funext p
  have e3 : isToken (strip (decodeName p.2.1)) = (strip (decodeName p.2.1) != [] && (strip (decodeName p.2.1)).all isTchar) := by
    rw [Bool.eq_iff_iff, isToken_strip]
    simp
  rw [← e3, Bool.eq_iff_iff, decide_eq_true_eq]
  unfold lineClasses FieldId.validIn
  cases m.kind <;> (repeat' split) <;> simp_all

/-- **C16** FIELD_DEPRECATED is added for each accepted line of a field whose class is marked deprecated, and for no
other line. -/
theorem C16_notes (env : Env) (related : Option Msg) (t : Bool) (ls : List Line) (m m' : Msg) (hm : Linting env m)
    (h : processSection env related t ls m = (m', .ok ())) :
    ∃ added, m'.notes = m.notes ++ added ∧ (ofClass .FIELD_DEPRECATED added).map (·.subject) =
      ((numbered m.kind 0 ls).filter fun p => accepted m.kind p.2 && isDeprecated (classOf (decodeName p.2.1))).map fun p => offsetSubject p.1 := by
  obtain ⟨added, e, ht⟩ := section_class hm h .FIELD_DEPRECATED rfl (by decide)
  refine ⟨added, e, ht.trans ?_⟩
  congr 2
  funext p
  rw [Bool.eq_iff_iff, decide_eq_true_eq]
  unfold lineClasses accepted
  cases m.kind <;> (repeat' split) <;> simp_all

/-- **C16** Every field in the table of deprecated fields (deprecated.py) that no parser module claims has such a class. -/
theorem C16_table : ∀ p ∈ deprecatedTable, isDeprecated (classOf p.1) = true := by
  have : deprecatedTable.all (fun p => isDeprecated (classOf p.1)) = true := by decide +kernel
  exact fun p hp => (List.all_eq_true.1 this) p hp

/-! ### C11 -/

/-- **C11** (in part) When every line is accepted, the line-level notes about the i-th line, and no others, have the
subject `offset-i`.  Missing: the notes of the parsers of list and broken fields (they are given the same number);
with rejected lines the claim is false, see `C11_violated`. -/
theorem C11_offsets_partial (env : Env) (related : Option Msg) (t : Bool) (ls : List Line) (m m' : Msg) (hm : Linting env m)
    (h : processSection env related t ls m = (m', .ok ())) (hall : ∀ l ∈ ls, accepted m.kind l = true) :
    ∃ added, m'.notes = m.notes ++ added ∧ (added.filter isLine).map tag =
      ((ls.zipIdx).flatMap fun p => (lineClasses m.kind p.1).map (·, offsetSubject p.2)) ++
        (if (m'.section t).size > 32768 then [(.FIELD_SECTION_TOO_LARGE, str "field-block")] else []) := by
  obtain ⟨added, e, ht⟩ := processSection_notes (hm.ready t) h
  refine ⟨added, e, ht.trans ?_⟩
  congr 1
  have key : ∀ (o : Nat) (ls : List Line), (∀ l ∈ ls, accepted m.kind l = true) →
      ((numbered m.kind o ls).flatMap fun p => (lineClasses m.kind p.2).map (·, offsetSubject p.1)) =
      ((ls.zipIdx o).flatMap fun p => (lineClasses m.kind p.1).map (·, offsetSubject p.2)) := by
    intro o ls
    induction ls generalizing o with
    | nil => intro _; rfl
    | cons l ls ih =>
      intro hall
      unfold numbered
      rw [hall l (by simp), if_pos rfl, List.zipIdx_cons, List.flatMap_cons, List.flatMap_cons, ih _ fun x hx => hall x (by simp [hx])]
  exact key 0 ls hall

/-- **C11** fails: after a rejected line the numbers no longer index `headers.text`.  Here `Host` (line 0) is not
allowed in a response; the note about the value of line 1, `X-A: \xff`, has the subject `offset-0`. -/
theorem C11_violated :
    let m := (fresh toyEnv .response none false false).processHeaders toyEnv none [(str "Host", str "a"), (str "X-A", [255])]
    m.2 = .ok () ∧ m.1.headers.text = [(str "Host", str "a"), (str "X-A", [255])] ∧
      m.1.notes.map tag = [(.REQUEST_HDR_IN_RESPONSE, str "offset-0"), (.FIELD_VALUE_ENCODING, str "offset-0")] := by
  decide +kernel

/-! ### a concrete case for all of these -/

/-- six lines: unknown with a non-ASCII name, wrong kind of message, bad name, deprecated, long, plain -/
def exLines : List Line := [(str "X-" ++ [233], str "a"), (str "Host", str "a"), (str "A b", str "c"),
  (str "Content-MD5", str "x"), (str "X-B", List.replicate 8190 97), (str "X-C", [200])]

/-- a new response linter -/
theorem exLinting : Linting toyEnv (fresh toyEnv .response none false false) :=
  ⟨_, ⟨.response, none, false, false, none, [], rfl⟩, .inl rfl⟩

example : (processSection toyEnv none false exLines (fresh toyEnv .response none false false)).2 = .ok () ∧
    (lineClasses .response <$> exLines) = [[.FIELD_NAME_ENCODING], [.REQUEST_HDR_IN_RESPONSE], [.FIELD_NAME_BAD_SYNTAX],
      [.FIELD_DEPRECATED], [.FIELD_TOO_LARGE], [.FIELD_VALUE_ENCODING]] ∧
    (numbered .response 0 exLines).map (·.1) = [0, 1, 1, 1, 2, 3] := by
  refine ⟨by decide +kernel, by decide +kernel, by decide +kernel⟩

end HL.Props
