import Verif.Props.Identity

/-!
# What processing a field section adds for each line
-/

namespace HL.Props

/-- a field line: name and value, as octets -/
abbrev Line := Str × Str

/-- is the line's field allowed in this kind of message, and its name a token? -/
def accepted (kind : MsgKind) (l : Line) : Bool :=
  (classOf (decodeName l.1)).validIn kind && isToken (strip (decodeName l.1))

/-- is the line's field marked as deprecated? -/
def isDeprecated (f : FieldId) : Bool := f == .deprecatedField || f.info.deprecated

/-- the line-level notes a line deserves -/
def lineClasses (kind : MsgKind) (l : Line) : List NoteId :=
  (if l.1.any (· ≥ 128) then [.FIELD_NAME_ENCODING] else []) ++
  (if l.2.any (· ≥ 128) then [.FIELD_VALUE_ENCODING] else []) ++
  (if !(classOf (decodeName l.1)).validIn kind then
     [match kind with | .request => .RESPONSE_HDR_IN_REQUEST | .response => .REQUEST_HDR_IN_RESPONSE]
   else if !isToken (strip (decodeName l.1)) then [.FIELD_NAME_BAD_SYNTAX]
   else (if isDeprecated (classOf (decodeName l.1)) then [.FIELD_DEPRECATED] else []) ++
     (if l.1.length + l.2.length > 8192 then [.FIELD_TOO_LARGE] else []))

/-- the lines with the number used for them in subjects: the number of accepted lines before -/
def numbered (kind : MsgKind) : Nat → List Line → List (Nat × Line)
  | _, [] => []
  | o, l :: ls => (o, l) :: numbered kind (if accepted kind l then o + 1 else o) ls

/-- is the note about a line as such (rather than about a value)? -/
def isLine (n : Note) : Bool := n.cls.origin == .line

/-- class and subject -/
def tag (n : Note) : NoteId × Str := (n.cls, n.subject)

theorem parNote_notLine {n} (h : ParNote n) : isLine n = false := by
  unfold isLine
  rcases h.2 with h | h <;> rw [h] <;> rfl

theorem filter_notLine {ns : List Note} (h : ∀ n ∈ ns, isLine n = false) : ns.filter isLine = [] := by
  rw [List.filter_eq_nil_iff]
  intro n hn
  rw [h n hn]; decide

theorem SecRun.kind {t m m'} (h : SecRun t m m') : m'.kind = m.kind := by
  obtain ⟨ns, s, rfl, _⟩ := h
  cases t <;> rfl

/-- what the model needs of a message to process a section -/
structure Ready (env : Env) (t : Bool) (m : Msg) : Prop where
  mt : HasMT m.defaults
  sec : SecOK (m.section t)
  ids : IdSec env (m.section t)

theorem preCheck_shape (h : Handler) (kind : MsgKind) (add : AddNote) :
    (h.preCheck kind add).2.1 = (h.fid.validIn kind && isToken h.wireName) ∧
    ((h.preCheck kind add).2.2.filter isLine).map tag =
      (if !h.fid.validIn kind then
        [((match kind with | .request => .RESPONSE_HDR_IN_REQUEST | .response => .REQUEST_HDR_IN_RESPONSE : NoteId), add.subject)]
      else if !isToken h.wireName then [(.FIELD_NAME_BAD_SYNTAX, add.subject)]
      else if isDeprecated h.fid then [(.FIELD_DEPRECATED, add.subject)] else []) := by
  unfold Handler.preCheck
  by_cases hv : h.fid.validIn kind = true
  · by_cases ht : isToken h.wireName = true
    · simp only [hv, ht, Bool.not_true, Bool.false_eq_true, if_false, Bool.and_self]
      split
      · rename_i hf
        refine ⟨rfl, ?_⟩
        rw [hf]; rfl
      · rename_i hf
        refine ⟨rfl, ?_⟩
        have : isDeprecated h.fid = h.fid.info.deprecated := by
          unfold isDeprecated
          have : (h.fid == .deprecatedField) = false := by simpa using hf
          rw [this, Bool.false_or]
        rw [this]
        split <;> rfl
    · simp only [Bool.not_eq_true] at ht
      simp only [hv, ht, Bool.not_true, Bool.false_eq_true, if_false, Bool.not_false, if_true, Bool.and_false]
      exact ⟨trivial, rfl⟩
  · simp only [Bool.not_eq_true] at hv
    simp only [hv, Bool.not_false, if_true, Bool.false_and]
    cases kind <;> exact ⟨trivial, rfl⟩

theorem encNotes_tags (m : Msg) (o : Nat) (name value : Str) :
    ((encNotes m o name value).filter isLine).map tag =
      (((if name.any (· ≥ 128) then [.FIELD_NAME_ENCODING] else []) ++
        (if value.any (· ≥ 128) then [.FIELD_VALUE_ENCODING] else []) : List NoteId)).map (·, offsetSubject o) := by
  unfold encNotes nonAscii
  split <;> split <;> rfl

theorem bigNotes_tags (m : Msg) (o : Nat) (name value : Str) (h : Handler) :
    ((bigNotes m o name value h).filter isLine).map tag =
      (if name.length + value.length > 8192 then [NoteId.FIELD_TOO_LARGE] else []).map (·, offsetSubject o) := by
  unfold bigNotes maxFieldSize
  split <;> rfl

/-- one line that does not raise -/
theorem processLine_notes {env related t} {m m' : Msg} {o o' : Nat} {l : Line} (hr : Ready env t m)
    (h : processLine env related t m o l = (m', .ok o')) :
    o' = (if accepted m.kind l then o + 1 else o) ∧
    ∃ added, m'.notes = m.notes ++ added ∧ (added.filter isLine).map tag = (lineClasses m.kind l).map (·, offsetSubject o) := by
  obtain ⟨name, value⟩ := l
  have hid := hr.ids.handler (decodeName name)
  have hp := preCheck_shape (lineHandler t m name) m.kind (m.adder (offsetSubject o) [(str "field_name", .str (lineHandler t m name).canonicalName)])
  have hfid : (lineHandler t m name).fid = classOf (decodeName name) := hid.1
  have htok : isToken (lineHandler t m name).wireName = isToken (strip (decodeName name)) := hid.2.1
  change (lineCheck t m o name).2.1 = _ ∧ ((lineCheck t m o name).2.2.filter isLine).map tag = _ at hp
  rw [hfid, htok] at hp
  have hacc : (lineCheck t m o name).2.1 = accepted m.kind (name, value) := hp.1
  rw [processLine_eq] at h
  by_cases hok : (lineCheck t m o name).2.1 = false
  · rw [if_pos hok] at h
    simp only [Prod.mk.injEq, Except.ok.injEq] at h
    obtain ⟨rfl, rfl⟩ := h
    rw [← hacc, hok]
    refine ⟨rfl, encNotes m o name value ++ (lineCheck t m o name).2.2, by unfold lineMid; cases t <;> rfl, ?_⟩
    rw [List.filter_append, List.map_append, encNotes_tags, hp.2]
    unfold lineClasses
    rw [hacc] at hok
    unfold accepted at hok
    by_cases hv : (classOf (decodeName name)).validIn m.kind = true
    · rw [hv] at hok
      simp only [Bool.true_and] at hok
      simp only [hv, hok, Bool.not_true, Bool.not_false, Bool.false_eq_true, if_false, if_true, List.map_cons, List.map_nil, List.map_append]
      rfl
    · simp only [Bool.not_eq_true] at hv
      simp only [hv, Bool.not_false, if_true, List.map_cons, List.map_nil, List.map_append]
      rfl
  · rw [if_neg hok] at h
    have hok' := eq_true_of_ne_false hok
    have hmid : HasMT (lineMid t m o name value).defaults := by
      unfold lineMid; cases t <;> exact hr.mt
    have haux : AuxOK (lineCheck t m o name).1.aux := by
      have h1 := (preCheck_ok (adder_good hr.mt (offsetSubject o) [(str "field_name", .str (lineHandler t m name).canonicalName)] keys0 rfl) m.kind (lineHandler t m name)).1
      have h2 := findHandler_ok hr.sec (decodeName name)
      unfold lineCheck
      rw [h1]
      exact h2
    have hi := (handleInput_ok ⟨env, lineMid t m o name value, related⟩ hmid (lineCheck t m o name).1 haux value o).2
    change Emits ParNote (lineInput env related t m o name value).2 at hi
    dsimp only at h
    generalize lineInput env related t m o name value = hw at h hi
    obtain ⟨h2, w⟩ := hw
    dsimp only at h hi
    cases hres : w.res with
    | error e => rw [hres] at h; simp at h
    | ok u =>
      rw [hres] at h
      simp only [Prod.mk.injEq, Except.ok.injEq] at h
      obtain ⟨rfl, rfl⟩ := h
      rw [← hacc, hok']
      refine ⟨rfl, (encNotes m o name value ++ (lineCheck t m o name).2.2 ++ w.notes) ++ bigNotes m o name value h2, ?_, ?_⟩
      · cases t <;> simp [Msg.addNotes, Msg.setSection]
      · have hw : w.notes.filter isLine = [] := filter_notLine fun n hn => parNote_notLine (hi n hn)
        simp only [List.filter_append, List.map_append, encNotes_tags, bigNotes_tags, hp.2, hw]
        unfold lineClasses
        rw [hacc] at hok'
        unfold accepted at hok'
        simp only [Bool.and_eq_true] at hok'
        simp only [hok'.1, hok'.2, Bool.not_true, Bool.false_eq_true, if_false, List.map_append, List.map_nil, List.append_nil, List.append_assoc]
        congr 2
        split <;> rfl

theorem Ready.line {env related t} {m : Msg} (hr : Ready env t m) (o l) : Ready env t (processLine env related t m o l).1 := by
  have h := processLine_run env related t m hr.mt hr.sec o l
  exact ⟨by rw [h.defaults]; exact hr.mt, h.ok, Inv.line related t m o l trivial hr.ids⟩

/-- the lines of a section, when none raises -/
theorem processLines_notes {env related t} {ls : List Line} {m m' : Msg} {o : Nat} (hr : Ready env t m)
    (h : processLines env related t ls o m = (m', .ok ())) :
    ∃ added, m'.notes = m.notes ++ added ∧
      (added.filter isLine).map tag = (numbered m.kind o ls).flatMap fun p => (lineClasses m.kind p.2).map (·, offsetSubject p.1) := by
  induction ls generalizing o m with
  | nil =>
    simp only [processLines, Prod.mk.injEq] at h
    exact ⟨[], by simp [h.1], rfl⟩
  | cons l ls ih =>
    unfold processLines at h
    split at h
    · simp at h
    · rename_i m1 o1 heq
      have hk : m1.kind = m.kind := by
        have := (processLine_run env related t m hr.mt hr.sec o l).kind
        rwa [heq] at this
      have hr1 : Ready env t m1 := by have := hr.line (related := related) o l; rwa [heq] at this
      obtain ⟨ho, a1, e1, t1⟩ := processLine_notes hr heq
      obtain ⟨a2, e2, t2⟩ := ih hr1 h
      refine ⟨a1 ++ a2, by rw [e2, e1, List.append_assoc], ?_⟩
      rw [List.filter_append, List.map_append, t1, t2, hk, ho]
      rfl

end HL.Props
