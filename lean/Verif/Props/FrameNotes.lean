import Verif.Props.Feed

/-!
# The notes common to all fields of a kind: repeated and malformed values
-/

namespace HL.Props

/-- is the note one of those the base classes add (syntax errors, repeated singletons)? -/
def isFrame (n : Note) : Bool := n.cls.origin == .frame

theorem fieldNote_notFrame {n} (h : FieldNote n) : isFrame n = false := by
  unfold isFrame; rw [h.2]; rfl

theorem filter_notFrame {ns : List Note} (h : ∀ n ∈ ns, FieldNote n) : ns.filter isFrame = [] := by
  rw [List.filter_eq_nil_iff]
  intro n hn
  rw [fieldNote_notFrame (h n hn)]; decide

theorem frame_mk1 (a : AddNote) (cls : NoteId) (vrs cat) (h : cls.origin = .frame) : isFrame (a.mk1 cls vrs cat) = true := by
  unfold isFrame
  rw [AddNote.mk1_cls, h]; rfl

/-- the syntax note an element of a list field gets -/
def elemVerdict (f : FieldId) (v : Str) : Option NoteId :=
  match f.info.syn with
  | none => none
  | some r =>
    if matchSpaced r v then none
    else match matchPrefix r v with
      | some _ => some .BAD_SYNTAX_DETAILED
      | none => if f.info.reportSyntax then some .BAD_SYNTAX else none

theorem elementSyntax_frame (h : Handler) (add : AddNote) (v : Str) (hr : (h.elementSyntax add v).res = .ok ()) :
    ((h.elementSyntax add v).notes.filter isFrame).map tag = (elemVerdict h.fid v).toList.map (·, add.subject) := by
  unfold Handler.elementSyntax elemVerdict at *
  cases hs : h.fid.info.syn with
  | none => rfl
  | some r =>
    simp only [hs] at hr ⊢
    by_cases hm : matchSpaced r v = true
    · rw [if_pos hm, if_pos hm]; rfl
    · rw [if_neg hm] at hr
      rw [if_neg hm, if_neg hm]
      cases hp : matchPrefix r v with
      | none =>
        simp only
        unfold W.when
        split <;> rfl
      | some i =>
        simp only [hp] at hr ⊢
        cases hq : syntaxProblem v i with
        | error e => rw [hq] at hr; simp [W.bind_def, W.bind, W.lift] at hr
        | ok p => rfl

theorem listLoop_frame {add : AddNote} (hg : AddGood add keys0) (c : Ctx) (vs : List Str) :
    ∀ h : Handler, AuxOK h.aux → (h.listLoop c add vs).2.res = .ok () →
      ((h.listLoop c add vs).2.notes.filter isFrame).map tag = (vs.filterMap (elemVerdict h.fid)).map (·, add.subject) := by
  induction vs with
  | nil => intro h ha _; rfl
  | cons v vs ih =>
    intro h ha
    unfold Handler.listLoop
    have hs := elementSyntax_frame h add v
    dsimp only
    generalize h.elementSyntax add v = syn at *
    cases hr : syn.res with
    | error e => intro h; simp at h
    | ok u =>
      dsimp only
      specialize hs (by rw [hr])
      have hp := Handler.parse_ok hg c h ha (strip v)
      generalize h.parse c add (strip v) = p at *
      obtain ⟨aux, r⟩ := p
      dsimp only at *
      have hcons : (elemVerdict h.fid v).toList ++ vs.filterMap (elemVerdict h.fid) = (v :: vs).filterMap (elemVerdict h.fid) := by
        rw [List.filterMap_cons]; cases elemVerdict h.fid v <;> rfl
      have fin : ∀ ns : List Note, (ns.filter isFrame).map tag = (vs.filterMap (elemVerdict h.fid)).map (·, add.subject) →
          (((syn.notes ++ r.notes) ++ ns).filter isFrame).map tag = ((v :: vs).filterMap (elemVerdict h.fid)).map (·, add.subject) := by
        intro ns hns
        rw [List.filter_append, List.filter_append, filter_notFrame hp.2, List.append_nil, List.map_append, hs, hns, ← hcons, List.map_append]
      cases hr2 : r.res with
      | error e =>
        dsimp only
        split
        · intro hok; exact fin _ (ih { h with aux } hp.1 hok)
        · intro h; simp at h
      | ok x =>
        dsimp only
        cases ha2 : ({ h with aux } : Handler).append x with
        | error e => intro h; simp at h
        | ok h' =>
          have ha' : AuxOK h'.aux := by rw [append_aux ha2]; exact hp.1
          have hf : h'.fid = h.fid := (append_id ha2).fid
          intro hok
          have := ih h' ha' hok
          rw [hf] at this
          exact fin _ this

/-- the syntax notes of the elements of a line, if its field is a list -/
def elementNotes (f : FieldId) (v : Str) : List NoteId :=
  match f.info.kind with
  | .list => (splitListField v).filterMap (elemVerdict f)
  | _ => []

theorem handleInput_frame (c : Ctx) (hm : HasMT c.msg.defaults) (h : Handler) (ha : AuxOK h.aux) (v : Str) (o : Nat)
    (hr : (h.handleInput c v o).2.res = .ok ()) :
    ((h.handleInput c v o).2.notes.filter isFrame).map tag = (elementNotes h.fid v).map (·, offsetSubject o) := by
  unfold Handler.handleInput elementNotes at *
  split at hr <;> rename_i hk <;> rw [hk] <;> dsimp only
  · exact listLoop_frame (offsetAdd_good hm h o) c _ h ha hr
  · rfl
  · rfl
  · split <;> rfl
  · split <;> rfl
  · rfl

/-- the syntax notes a line gets -/
def lineFrame (kind : MsgKind) (l : Line) : List NoteId :=
  if accepted kind l then elementNotes (classOf (decodeName l.1)) l.2 else []

theorem lineNote_notFrame {n : Note} (h : n.cls.origin = .line) : isFrame n = false := by
  unfold isFrame; rw [h]; rfl

theorem filter_line_notFrame {ns : List Note} (h : ∀ n ∈ ns, n.cls.origin = .line) : ns.filter isFrame = [] := by
  rw [List.filter_eq_nil_iff]
  intro n hn
  rw [lineNote_notFrame (h n hn)]; decide

theorem encNotes_line (m o name value) : ∀ n ∈ encNotes m o name value, n.cls.origin = .line := by
  unfold encNotes
  intro n hn
  rcases List.mem_append.1 hn with hn | hn <;> (split at hn <;> simp only [List.mem_singleton, List.not_mem_nil] at hn) <;> (subst hn; rfl)

theorem bigNotes_line (m o name value h) : ∀ n ∈ bigNotes m o name value h, n.cls.origin = .line := by
  unfold bigNotes
  intro n hn
  split at hn <;> simp only [List.mem_singleton, List.not_mem_nil] at hn
  subst hn; rfl

theorem preCheck_line (h : Handler) (kind add) : ∀ n ∈ (h.preCheck kind add).2.2, n.cls.origin = .line := by
  unfold Handler.preCheck
  intro n hn
  split at hn
  · simp only [List.mem_singleton] at hn
    subst hn
    cases kind <;> rfl
  · split at hn
    · simp only [List.mem_singleton] at hn
      subst hn; rfl
    · dsimp only at hn
      split at hn
      · simp only [List.mem_singleton] at hn
        subst hn; rfl
      · dsimp only at hn
        split at hn <;> simp only [List.mem_singleton, List.not_mem_nil] at hn
        subst hn; rfl

theorem processLine_frame {env related t} {m m' : Msg} {o o' : Nat} {l : Line} (hr : Ready env t m)
    (h : processLine env related t m o l = (m', .ok o')) :
    ∃ added, m'.notes = m.notes ++ added ∧ (added.filter isFrame).map tag = (lineFrame m.kind l).map (·, offsetSubject o) := by
  obtain ⟨name, value⟩ := l
  have hid := hr.ids.handler (decodeName name)
  have hp := preCheck_shape (lineHandler t m name) m.kind (m.adder (offsetSubject o) [(str "field_name", .str (lineHandler t m name).canonicalName)])
  have hfid : (lineHandler t m name).fid = classOf (decodeName name) := hid.1
  have htok : isToken (lineHandler t m name).wireName = isToken (strip (decodeName name)) := hid.2.1
  change (lineCheck t m o name).2.1 = _ ∧ ((lineCheck t m o name).2.2.filter isLine).map tag = _ at hp
  rw [hfid, htok] at hp
  have hacc : (lineCheck t m o name).2.1 = accepted m.kind (name, value) := hp.1
  have hpl : (lineCheck t m o name).2.2.filter isFrame = [] := filter_line_notFrame (preCheck_line _ _ _)
  rw [processLine_eq] at h
  by_cases hok : (lineCheck t m o name).2.1 = false
  · rw [if_pos hok] at h
    simp only [Prod.mk.injEq, Except.ok.injEq] at h
    obtain ⟨rfl, rfl⟩ := h
    refine ⟨encNotes m o name value ++ (lineCheck t m o name).2.2, by unfold lineMid; cases t <;> rfl, ?_⟩
    rw [List.filter_append, hpl, filter_line_notFrame (encNotes_line _ _ _ _)]
    unfold lineFrame
    rw [← hacc, hok]
    rfl
  · rw [if_neg hok] at h
    have hok' := eq_true_of_ne_false hok
    have hmid : HasMT (lineMid t m o name value).defaults := by
      unfold lineMid; cases t <;> exact hr.mt
    have haux : AuxOK (lineCheck t m o name).1.aux := by
      have h1 := (preCheck_ok (adder_good hr.mt (offsetSubject o) [(str "field_name", .str (lineHandler t m name).canonicalName)] keys0 rfl) m.kind (lineHandler t m name)).1
      have h2 := findHandler_ok hr.sec (decodeName name)
      unfold lineCheck
      rw [h1]
      exact h2
    have hi := handleInput_frame ⟨env, lineMid t m o name value, related⟩ hmid (lineCheck t m o name).1 haux value o
    have hf2 : (lineCheck t m o name).1.fid = classOf (decodeName name) := by
      rw [← hfid]; exact (preCheck_id _ _ _).fid
    rw [hf2] at hi
    change (lineInput env related t m o name value).2.res = _ → ((lineInput env related t m o name value).2.notes.filter isFrame).map tag = _ at hi
    dsimp only at h
    generalize lineInput env related t m o name value = hw at h hi
    obtain ⟨h2, w⟩ := hw
    dsimp only at h hi
    cases hres : w.res with
    | error e => rw [hres] at h; simp at h
    | ok u =>
      rw [hres] at h
      simp only [Prod.mk.injEq, Except.ok.injEq] at h
      obtain ⟨rfl, rfl⟩ := h
      refine ⟨(encNotes m o name value ++ (lineCheck t m o name).2.2 ++ w.notes) ++ bigNotes m o name value h2, ?_, ?_⟩
      · cases t <;> simp [Msg.addNotes, Msg.setSection]
      · simp only [List.filter_append, hpl, filter_line_notFrame (encNotes_line _ _ _ _), filter_line_notFrame (bigNotes_line _ _ _ _ _), List.append_nil, List.nil_append]
        rw [hi hres]
        unfold lineFrame
        rw [← hacc, hok', if_pos rfl]

theorem processLines_frame {env related t} {ls : List Line} {m m' : Msg} {o : Nat} (hr : Ready env t m)
    (h : processLines env related t ls o m = (m', .ok ())) :
    ∃ added, m'.notes = m.notes ++ added ∧
      (added.filter isFrame).map tag = (numbered m.kind o ls).flatMap fun p => (lineFrame m.kind p.2).map (·, offsetSubject p.1) := by
  induction ls generalizing o m with
  | nil =>
    simp only [processLines, Prod.mk.injEq] at h
    exact ⟨[], by simp [h.1], rfl⟩
  | cons l ls ih =>
    unfold processLines at h
    split at h
    · simp at h
    · rename_i m1 o1 heq
      have hk : m1.kind = m.kind := by
        have := (processLine_run env related t m hr.mt hr.sec o l).kind
        rwa [heq] at this
      have hr1 : Ready env t m1 := by have := hr.line (related := related) o l; rwa [heq] at this
      have ho := (processLine_notes hr heq).1
      obtain ⟨a1, e1, t1⟩ := processLine_frame hr heq
      obtain ⟨a2, e2, t2⟩ := ih hr1 h
      refine ⟨a1 ++ a2, by rw [e2, e1, List.append_assoc], ?_⟩
      rw [List.filter_append, List.map_append, t1, t2, hk, ho]
      rfl

end HL.Props
