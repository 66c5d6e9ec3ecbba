import Verif.Props.FieldThm
import Verif.Props.Own

/-!
# The notes a field class adds of its own, at the level of a section

The notes `parse` and `evaluate` of a field class add, and where in the notes of a section they end up.
-/

namespace HL.Props
open HL.F

/-- is the note one of those a field class adds itself? -/
def isField (n : Note) : Bool := n.cls.origin == .field

theorem fieldNote_isField {n} (h : FieldNote n) : isField n = true := by
  unfold isField; rw [h.2]; rfl

theorem filter_field {ns : List Note} (h : ∀ n ∈ ns, FieldNote n) : ns.filter isField = ns := by
  rw [List.filter_eq_self]
  intro n hn
  exact fieldNote_isField (h n hn)

theorem filter_line_notField {ns : List Note} (h : ∀ n ∈ ns, n.cls.origin = .line) : ns.filter isField = [] := by
  rw [List.filter_eq_nil_iff]
  intro n hn
  unfold isField; rw [h n hn]; decide

theorem filter_frame_notField {ns : List Note} (h : ∀ n ∈ ns, n.cls.origin = .frame) : ns.filter isField = [] := by
  rw [List.filter_eq_nil_iff]
  intro n hn
  unfold isField; rw [h n hn]; decide

/-- the notes a field class adds when it parses a piece of text (a line or an element, without surrounding white space) -/
def parseNotes (c : Ctx) (f : FieldId) (v : Str) : List NoteId := ((mkHandler f []).parse c ⟨[], [], []⟩ v).2.notes.map (·.cls)

theorem cls_of_noteKey {ns ns' : List Note} (h : ns.map (noteKey false) = ns'.map (noteKey false)) : ns.map (·.cls) = ns'.map (·.cls) := by
  have := congrArg (List.map (·.1)) h
  simpa only [List.map_map, Function.comp_def, noteKey] using this

theorem parse_tags (c : Ctx) (add : AddNote) (h : Handler) (v : Str) :
    (h.parse c add v).2.notes.map tag = (parseNotes c h.fid v).map (·, add.subject) := by
  have h1 : (h.parse c add v).2.notes.map (·.cls) = parseNotes c h.fid v := by
    unfold parseNotes
    rw [← parse_aux c add h (mkHandler h.fid []).aux v]
    exact cls_of_noteKey (Handler.parse_sim (b := false) (add := add) (add' := ⟨[], [], []⟩) (fun h => by simp at h)
      (hd := { h with aux := (mkHandler h.fid []).aux }) (hd' := mkHandler h.fid []) (mkHandler_fid _ _).symm (.refl _) c v).2.notes
  rw [← h1, List.map_map]
  apply List.map_congr_left
  intro n hn
  have := (Handler.parse_own (add := add) c h v n hn).subject _ rfl
  show (n.cls, n.subject) = _
  rw [this]; rfl

theorem parseNotes_during {env related t m c} (hd : During env related t m c) (f : FieldId) (v : Str) :
    parseNotes c f v = parseNotes ⟨env, m, related⟩ f v := by
  unfold parseNotes
  obtain ⟨e, mm, r⟩ := c
  obtain ⟨he, hr, hx⟩ := hd
  dsimp only at he hr
  subst he; subst hr
  rw [parse_ext hx]

theorem parseNotes_own (c : Ctx) (f : FieldId) (v : Str) : ∀ x ∈ parseNotes c f v, (parseOwn f).contains x = true := by
  intro x hx
  unfold parseNotes at hx
  obtain ⟨n, hn, rfl⟩ := List.mem_map.1 hx
  have := (Handler.parse_own (add := ⟨[], [], []⟩) c (mkHandler f []) v n hn).cls
  rwa [mkHandler_fid] at this

/-- two lists of the same length, related element by element -/
inductive Each {α β} (R : α → β → Prop) : List α → List β → Prop where
  | nil : Each R [] []
  | cons {a b as bs} (h : R a b) (t : Each R as bs) : Each R (a :: as) (b :: bs)

theorem Each.append {α β} {R : α → β → Prop} {as as' : List α} {bs bs' : List β} (h : Each R as bs) (h' : Each R as' bs') : Each R (as ++ as') (bs ++ bs') := by
  induction h with
  | nil => exact h'
  | cons h _ ih => exact .cons h ih

theorem Each.flatMap {α β γ} {R : α → β → Prop} {l : List γ} {f : γ → List α} {g : γ → List β} (h : ∀ x ∈ l, Each R (f x) (g x)) : Each R (l.flatMap f) (l.flatMap g) := by
  induction l with
  | nil => exact .nil
  | cons x l ih =>
    rw [List.flatMap_cons, List.flatMap_cons]
    exact (h x (by simp)).append (ih fun y hy => h y (by simp [hy]))

theorem Each.map {α β γ} {R : α → β → Prop} {l : List γ} {f : γ → α} {g : γ → β} (h : ∀ x ∈ l, R (f x) (g x)) : Each R (l.map f) (l.map g) := by
  induction l with
  | nil => exact .nil
  | cons x l ih => exact .cons (h x (by simp)) (ih fun y hy => h y (by simp [hy]))

theorem Each.length {α β} {R : α → β → Prop} {as : List α} {bs : List β} (h : Each R as bs) : as.length = bs.length := by
  induction h with
  | nil => rfl
  | cons _ _ ih => rw [List.length_cons, List.length_cons, ih]

/-- a piece of text given to a field class to parse: an element of a list, or a line; and what notes on it are about -/
structure Snippet where
  subject : Str
  cls : FieldId
  text : Str

/-- the notes are those some handler of the class adds when it parses the text -/
def ParsedAs (c : Ctx) (ns : List Note) (p : Snippet) : Prop :=
  ∃ (add : AddNote) (hd : Handler), add.subject = p.subject ∧ UniqueKeys add.base ∧ hd.fid = p.cls ∧ ns = (hd.parse c add p.text).2.notes

/-- the notes are those of parsing these pieces, one after the other -/
def ParsedNotes (c : Ctx) (ns : List Note) (ps : List Snippet) : Prop := ∃ chunks : List (List Note), ns = chunks.flatten ∧ Each (ParsedAs c) chunks ps

theorem ParsedNotes.nil {c} : ParsedNotes c [] [] := ⟨[], rfl, .nil⟩

theorem ParsedNotes.append {c ns ns' ps ps'} (h : ParsedNotes c ns ps) (h' : ParsedNotes c ns' ps') : ParsedNotes c (ns ++ ns') (ps ++ ps') := by
  obtain ⟨ch, rfl, e⟩ := h
  obtain ⟨ch', rfl, e'⟩ := h'
  exact ⟨ch ++ ch', by rw [List.flatten_append], e.append e'⟩

theorem ParsedNotes.single {c} {add : AddNote} {hd : Handler} {p : Snippet} (hs : add.subject = p.subject) (hb : UniqueKeys add.base) (hf : hd.fid = p.cls) :
    ParsedNotes c (hd.parse c add p.text).2.notes [p] := ⟨[_], by simp, .cons ⟨add, hd, hs, hb, hf, rfl⟩ .nil⟩

theorem ParsedNotes.flatMap {γ} {c} {l : List γ} {f : γ → List Note} {g : γ → List Snippet} (h : ∀ x ∈ l, ParsedNotes c (f x) (g x)) : ParsedNotes c (l.flatMap f) (l.flatMap g) := by
  induction l with
  | nil => exact .nil
  | cons x l ih =>
    rw [List.flatMap_cons, List.flatMap_cons]
    exact (h x (by simp)).append (ih fun y hy => h y (by simp [hy]))

theorem ParsedNotes.during {env related t m c ns ps} (hd : During env related t m c) (h : ParsedNotes c ns ps) : ParsedNotes ⟨env, m, related⟩ ns ps := by
  obtain ⟨ch, e, h⟩ := h
  refine ⟨ch, e, ?_⟩
  obtain ⟨ce, mm, r⟩ := c
  obtain ⟨he, hr, hx⟩ := hd
  dsimp only at he hr
  subst he; subst hr
  clear e
  induction h with
  | nil => exact .nil
  | cons h _ ih =>
    obtain ⟨add, hd, h1, h2, h3, h4⟩ := h
    exact .cons ⟨add, hd, h1, h2, h3, by rw [h4, parse_ext hx]⟩ ih

/-- the classes and subjects of the notes of a piece -/
def Snippet.tags (c : Ctx) (p : Snippet) : List (NoteId × Str) := (parseNotes c p.cls p.text).map (·, p.subject)

theorem ParsedNotes.tags {c ns ps} (h : ParsedNotes c ns ps) : ns.map tag = ps.flatMap (Snippet.tags c) := by
  obtain ⟨ch, rfl, h⟩ := h
  induction h with
  | nil => rfl
  | cons h _ ih =>
    obtain ⟨add, hd, h1, _, h3, h4⟩ := h
    rw [List.flatten_cons, List.map_append, ih, List.flatMap_cons, h4, parse_tags, h1, h3]
    rfl

theorem elementSyntax_origin (h : Handler) (add : AddNote) (v : Str) : ∀ n ∈ (h.elementSyntax add v).notes, n.cls.origin = .frame := by
  unfold Handler.elementSyntax
  intro n hn
  split at hn
  · simp at hn
  · split at hn
    · simp at hn
    · split at hn
      · rename_i i _
        cases hq : syntaxProblem v i with
        | error e => rw [hq] at hn; simp [W.bind_def, W.bind, W.lift] at hn
        | ok p =>
          rw [hq] at hn
          simp [W.bind_def, W.bind, W.lift] at hn
          subst hn; rfl
      · unfold W.when at hn
        split at hn
        · simp at hn
          subst hn; rfl
        · simp at hn

theorem listLoop_field {add : AddNote} (hg : AddGood add keys0) (hu : UniqueKeys add.base) (c : Ctx) (vs : List Str) :
    ∀ h : Handler, AuxOK h.aux → (h.listLoop c add vs).2.res = .ok () →
      ParsedNotes c ((h.listLoop c add vs).2.notes.filter isField) (vs.map fun v => ⟨add.subject, h.fid, strip v⟩) := by
  induction vs with
  | nil => intro h ha _; exact .nil
  | cons v vs ih =>
    intro h ha
    unfold Handler.listLoop
    have hs := filter_frame_notField (elementSyntax_origin h add v)
    dsimp only
    generalize h.elementSyntax add v = syn at *
    cases hr : syn.res with
    | error e => intro h; simp at h
    | ok u =>
      dsimp only
      have hp := Handler.parse_ok hg c h ha (strip v)
      have ht : ParsedNotes c (h.parse c add (strip v)).2.notes [⟨add.subject, h.fid, strip v⟩] := ParsedNotes.single (p := ⟨add.subject, h.fid, strip v⟩) rfl hu rfl
      generalize h.parse c add (strip v) = p at *
      obtain ⟨aux, r⟩ := p
      dsimp only at *
      have fin : ∀ ns : List Note, ParsedNotes c (ns.filter isField) (vs.map fun v => ⟨add.subject, h.fid, strip v⟩) →
          ParsedNotes c (((syn.notes ++ r.notes) ++ ns).filter isField) ((v :: vs).map fun v => ⟨add.subject, h.fid, strip v⟩) := by
        intro ns hns
        rw [List.filter_append, List.filter_append, filter_field hp.2, hs, List.nil_append]
        exact ht.append hns
      cases hr2 : r.res with
      | error e =>
        dsimp only
        split
        · intro hok; exact fin _ (ih { h with aux } hp.1 hok)
        · intro h; simp at h
      | ok x =>
        dsimp only
        cases ha2 : ({ h with aux } : Handler).append x with
        | error e => intro h; simp at h
        | ok h' =>
          have ha' : AuxOK h'.aux := by rw [append_aux ha2]; exact hp.1
          have hf : h'.fid = h.fid := (append_id ha2).fid
          intro hok
          have := ih h' ha' hok
          rw [hf] at this
          exact fin _ this

/-- the elements of a line, if its field class is a list -/
def elementPieces (f : FieldId) (o : Nat) (v : Str) : List Snippet :=
  match f.info.kind with
  | .list => (splitListField v).map fun v => ⟨offsetSubject o, f, strip v⟩
  | _ => []

/-- the notes the elements of a line get from its field class, if it is a list -/
def elementField (c : Ctx) (f : FieldId) (v : Str) : List NoteId :=
  match f.info.kind with
  | .list => (splitListField v).flatMap fun v => parseNotes c f (strip v)
  | _ => []

theorem handleInput_field (c : Ctx) (hm : HasMT c.msg.defaults) (h : Handler) (ha : AuxOK h.aux) (v : Str) (o : Nat)
    (hr : (h.handleInput c v o).2.res = .ok ()) :
    ParsedNotes c ((h.handleInput c v o).2.notes.filter isField) (elementPieces h.fid o v) := by
  unfold Handler.handleInput elementPieces at *
  split at hr <;> rename_i hk <;> rw [hk] <;> dsimp only
  · exact listLoop_field (offsetAdd_good hm h o) (by simp [UniqueKeys, Handler.offsetAdd]) c _ h ha hr
  · exact .nil
  · exact .nil
  · split <;> exact .nil
  · split <;> exact .nil
  · exact .nil

/-- the notes a line gets from its field class -/
def lineField (c : Ctx) (l : Line) : List NoteId :=
  if accepted c.msg.kind l then elementField c (classOf (decodeName l.1)) l.2 else []

/-- the pieces of a line -/
def linePieces (kind : MsgKind) (p : Nat × Line) : List Snippet :=
  if accepted kind p.2 then elementPieces (classOf (decodeName p.2.1)) p.1 p.2.2 else []

theorem linePieces_tags (c : Ctx) (p : Nat × Line) : (linePieces c.msg.kind p).flatMap (Snippet.tags c) = (lineField c p.2).map (·, offsetSubject p.1) := by
  unfold linePieces lineField
  split
  · unfold elementPieces elementField
    split
    · rw [List.flatMap_map, List.map_flatMap]; rfl
    · rfl
  · rfl

theorem elementField_during {env related t m c} (hd : During env related t m c) (f : FieldId) (v : Str) :
    elementField c f v = elementField ⟨env, m, related⟩ f v := by
  unfold elementField
  simp only [parseNotes_during hd]

theorem processLine_field {env related t} {m0 m m' : Msg} {o o' : Nat} {l : Line} (hr : Ready env t m) (hx : Ext t m0 m)
    (h : processLine env related t m o l = (m', .ok o')) :
    ∃ added, m'.notes = m.notes ++ added ∧ ParsedNotes ⟨env, m0, related⟩ (added.filter isField) (linePieces m0.kind (o, l)) := by
  obtain ⟨name, value⟩ := l
  have hid := hr.ids.handler (decodeName name)
  have hp := preCheck_shape (lineHandler t m name) m.kind (m.adder (offsetSubject o) [(str "field_name", .str (lineHandler t m name).canonicalName)])
  have hfid : (lineHandler t m name).fid = classOf (decodeName name) := hid.1
  have htok : isToken (lineHandler t m name).wireName = isToken (strip (decodeName name)) := hid.2.1
  change (lineCheck t m o name).2.1 = _ ∧ ((lineCheck t m o name).2.2.filter isLine).map tag = _ at hp
  rw [hfid, htok] at hp
  have hacc : (lineCheck t m o name).2.1 = accepted m0.kind (name, value) := by rw [← ext_kind hx]; exact hp.1
  have hpl : (lineCheck t m o name).2.2.filter isField = [] := filter_line_notField (preCheck_line _ _ _)
  rw [processLine_eq] at h
  by_cases hok : (lineCheck t m o name).2.1 = false
  · rw [if_pos hok] at h
    simp only [Prod.mk.injEq, Except.ok.injEq] at h
    obtain ⟨rfl, rfl⟩ := h
    refine ⟨encNotes m o name value ++ (lineCheck t m o name).2.2, by unfold lineMid; cases t <;> rfl, ?_⟩
    rw [List.filter_append, hpl, filter_line_notField (encNotes_line _ _ _ _)]
    unfold linePieces
    dsimp only
    rw [← hacc, hok]
    exact .nil
  · rw [if_neg hok] at h
    have hok' := eq_true_of_ne_false hok
    have hmid : HasMT (lineMid t m o name value).defaults := by
      unfold lineMid; cases t <;> exact hr.mt
    have haux : AuxOK (lineCheck t m o name).1.aux := by
      have h1 := (preCheck_ok (adder_good hr.mt (offsetSubject o) [(str "field_name", .str (lineHandler t m name).canonicalName)] keys0 rfl) m.kind (lineHandler t m name)).1
      have h2 := findHandler_ok hr.sec (decodeName name)
      unfold lineCheck
      rw [h1]
      exact h2
    have hi := handleInput_field ⟨env, lineMid t m o name value, related⟩ hmid (lineCheck t m o name).1 haux value o
    have hf2 : (lineCheck t m o name).1.fid = classOf (decodeName name) := by
      rw [← hfid]; exact (preCheck_id _ _ _).fid
    have hext : Ext t m0 (lineMid t m o name value) := hx.trans ⟨_, _, rfl⟩
    rw [hf2] at hi
    replace hi := fun hr => (hi hr).during (env := env) (related := related) (m := m0) (t := t) ⟨rfl, rfl, hext⟩
    change (lineInput env related t m o name value).2.res = _ → ParsedNotes _ ((lineInput env related t m o name value).2.notes.filter isField) _ at hi
    dsimp only at h
    generalize lineInput env related t m o name value = hw at h hi
    obtain ⟨h2, w⟩ := hw
    dsimp only at h hi
    cases hres : w.res with
    | error e => rw [hres] at h; simp at h
    | ok u =>
      rw [hres] at h
      simp only [Prod.mk.injEq, Except.ok.injEq] at h
      obtain ⟨rfl, rfl⟩ := h
      refine ⟨(encNotes m o name value ++ (lineCheck t m o name).2.2 ++ w.notes) ++ bigNotes m o name value h2, ?_, ?_⟩
      · cases t <;> simp [Msg.addNotes, Msg.setSection]
      · simp only [List.filter_append, hpl, filter_line_notField (encNotes_line _ _ _ _), filter_line_notField (bigNotes_line _ _ _ _ _), List.append_nil, List.nil_append]
        unfold linePieces
        dsimp only
        rw [← hacc, hok', if_pos rfl]
        exact hi hres

theorem processLines_field {env related t} {ls : List Line} {m0 m m' : Msg} {o : Nat} (hr : Ready env t m) (hx : Ext t m0 m)
    (h : processLines env related t ls o m = (m', .ok ())) :
    ∃ added, m'.notes = m.notes ++ added ∧
      ParsedNotes ⟨env, m0, related⟩ (added.filter isField) ((numbered m0.kind o ls).flatMap (linePieces m0.kind)) := by
  induction ls generalizing o m with
  | nil =>
    simp only [processLines, Prod.mk.injEq] at h
    exact ⟨[], by simp [h.1], .nil⟩
  | cons l ls ih =>
    unfold processLines at h
    split at h
    · simp at h
    · rename_i m1 o1 heq
      have hr1 : Ready env t m1 := by have := hr.line (related := related) o l; rwa [heq] at this
      have he' : Ext t m m1 := by have := processLine_ext env related t m o l; rwa [heq] at this
      have ho := (processLine_notes hr heq).1
      rw [ext_kind hx] at ho
      obtain ⟨a1, e1, t1⟩ := processLine_field hr hx heq
      obtain ⟨a2, e2, t2⟩ := ih hr1 (hx.trans he') h
      refine ⟨a1 ++ a2, by rw [e2, e1, List.append_assoc], ?_⟩
      rw [List.filter_append]
      have := t1.append t2
      rw [ho] at this
      exact this

/-! ### finishing a field -/

/-- the pieces of a field that are parsed when it is finished (lists are parsed line by line before that) -/
def finishPieces (f : FieldId) (subj : Str) (ps : List (Nat × Str)) : List Snippet :=
  match f.info.kind with
  | .singleton => (match ps with | p :: _ => [⟨subj, f, strip p.2⟩] | [] => [])
  | .broken => ps.map fun p => ⟨offsetSubject p.1, f, strip p.2⟩
  | _ => []

/-- the notes parsing the lines of a field gives when the field is finished (lists are parsed line by line before that) -/
def finishParse (c : Ctx) (f : FieldId) (subj : Str) (ps : List (Nat × Str)) : List (NoteId × Str) :=
  match f.info.kind with
  | .singleton => (match ps with | p :: _ => (parseNotes c f (strip p.2)).map (·, subj) | [] => [])
  | .broken => ps.flatMap fun p => (parseNotes c f (strip p.2)).map (·, offsetSubject p.1)
  | _ => []

theorem finishPieces_tags (c : Ctx) (f : FieldId) (subj : Str) (ps : List (Nat × Str)) : (finishPieces f subj ps).flatMap (Snippet.tags c) = finishParse c f subj ps := by
  unfold finishPieces finishParse
  split
  · cases ps with
    | nil => rfl
    | cons p ps => rw [List.flatMap_cons, List.flatMap_nil, List.append_nil]; rfl
  · rw [List.flatMap_map]; rfl
  · rfl

/-- the handler of a field as `evaluate` finds it -/
def evalHandler (c0 c : Ctx) (add : AddNote) (name : Str) (ps : List (Nat × Str)) : Handler :=
  let h := fedLines c0 name ps
  match (classOf name).info.kind with
  | .singleton => (match ps with
    | p :: _ => { h with aux := (h.parse c add (strip p.2)).1, value := lineValue c (classOf name) (ps.map (·.2)) }
    | [] => h)
  | .broken => { (h.brokenLoop c h.raw []).1 with value := lineValue c (classOf name) (ps.map (·.2)) }
  | .sf _ => { h with value := lineValue c (classOf name) (ps.map (·.2)), sfParsed := true }
  | .json => { h with value := lineValue c (classOf name) (ps.map (·.2)) }
  | _ => h

/-- the notes `evaluate` gives: none if there is no value -/
def evalNotes (c : Ctx) (add : AddNote) (h : Handler) : List Note := if h.value = .none then [] else (h.evaluate c add).2.notes

theorem evalAfter_field {add : AddNote} (hg : AddGood add keys1) (c ns) (h : Handler) (ha : AuxOK h.aux) :
    (h.evalAfter c add ns).2.notes.filter isField = ns.filter isField ++ evalNotes c add h := by
  unfold Handler.evalAfter evalNotes
  split
  · rw [List.append_nil]
  · have he := Handler.evaluate_ok hg c h ha
    show (ns ++ (h.evaluate c add).2.notes).filter isField = _
    rw [List.filter_append, filter_field he.2]

/-- `evaluate` succeeds, unless there is no value -/
def EvalOk (c : Ctx) (add : AddNote) (h : Handler) : Prop := h.value ≠ .none → (h.evaluate c add).2.res = .ok ()

theorem evalAfter_evalOk {add : AddNote} {c : Ctx} {ns} {h : Handler} (hr : (h.evalAfter c add ns).2.res = .ok ()) : EvalOk c add h := by
  intro hn
  unfold Handler.evalAfter at hr
  rw [if_neg hn] at hr
  exact hr

theorem evalOk_none {add : AddNote} {c : Ctx} {h : Handler} (hn : h.value = .none) : EvalOk c add h := fun h0 => absurd hn h0

theorem brokenLoop_field (c : Ctx) (hm : HasMT c.msg.defaults) (rs : List (Str × Nat)) :
    ∀ (h : Handler) (acc : List Val), AuxOK h.aux → (∃ vs, (h.brokenLoop c rs acc).2.res = .ok vs) →
      ParsedNotes c ((h.brokenLoop c rs acc).2.notes.filter isField) (rs.map fun p => ⟨offsetSubject p.2, h.fid, strip p.1⟩) := by
  induction rs with
  | nil => intro h acc ha _; exact .nil
  | cons r rs ih =>
    obtain ⟨raw, o⟩ := r
    intro h acc ha
    unfold Handler.brokenLoop
    dsimp only
    have hg := offsetAdd_good hm h o
    have hsub : (h.offsetAdd c.msg.defaults o).subject = offsetSubject o := rfl
    have hu : UniqueKeys (h.offsetAdd c.msg.defaults o).base := by simp [UniqueKeys, Handler.offsetAdd]
    generalize h.offsetAdd c.msg.defaults o = add at *
    have hp := Handler.parse_ok hg c h ha (strip raw)
    have ht : ParsedNotes c (h.parse c add (strip raw)).2.notes [⟨offsetSubject o, h.fid, strip raw⟩] := ParsedNotes.single (p := ⟨offsetSubject o, h.fid, strip raw⟩) hsub hu rfl
    generalize h.parse c add (strip raw) = p at *
    obtain ⟨aux, r⟩ := p
    dsimp only at *
    have hsyn : (match h.fid.info.syn with
       | none => []
       | some r => if matchSpaced r raw then [] else [add.mk1 .BAD_SYNTAX [(str "ref_uri", .str h.reference)]]).filter isField = [] := by
      cases h.fid.info.syn with
      | none => rfl
      | some r =>
        dsimp only
        split
        · rfl
        · exact filter_frame_notField (by intro n hn; rw [List.mem_singleton] at hn; subst hn; rfl)
    have fin : ∀ syn ns : List Note, syn.filter isField = [] → ParsedNotes c (ns.filter isField) (rs.map fun p => ⟨offsetSubject p.2, h.fid, strip p.1⟩) →
        ParsedNotes c (((syn ++ r.notes) ++ ns).filter isField) (((raw, o) :: rs).map fun p => ⟨offsetSubject p.2, h.fid, strip p.1⟩) := by
      intro syn ns hsyn hns
      rw [List.filter_append, List.filter_append, filter_field hp.2, hsyn, List.nil_append]
      exact ht.append hns
    cases hr2 : r.res with
    | error e =>
      dsimp only
      split
      · intro hok; exact fin _ _ hsyn (ih { h with aux } acc hp.1 hok)
      · intro h; simp at h
    | ok x => intro hok; exact fin _ _ hsyn (ih { h with aux } (acc ++ [x]) hp.1 hok)

theorem dupKey_field (add : AddNote) (d : List (Str × Str)) : (dupKeyNotes add d).filter isField = [] := by
  apply filter_frame_notField
  intro n hn
  unfold dupKeyNotes at hn
  obtain ⟨p, _, rfl⟩ := List.mem_map.1 hn
  rfl

theorem finish_field {c0 c : Ctx} {add name} {ps : List (Nat × Str)} (hne : ps ≠ []) (hg : AddGood add keys1) (hu : UniqueKeys add.base)
    (hm0 : HasMT c0.msg.defaults) (hm : HasMT c.msg.defaults) (hr : ((fedLines c0 name ps).finish c add).2.res = .ok ()) :
    ∃ pre, ((fedLines c0 name ps).finish c add).2.notes.filter isField = pre ++ evalNotes c add (evalHandler c0 c add name ps) ∧
      ParsedNotes c pre (finishPieces (classOf name) add.subject ps) ∧ EvalOk c add (evalHandler c0 c add name ps) := by
  have hid := (fed_id c0 name ps).fid
  rw [mkHandler_fid] at hid
  have hxs : ps.map (·.2) ≠ [] := by simpa using hne
  have haux := fed_aux hm0 name ps
  unfold finishPieces
  cases hk : (classOf name).info.kind with
  | list =>
    unfold evalHandler
    unfold Handler.finish at hr ⊢
    rw [hid, hk] at hr ⊢
    dsimp only at hr ⊢
    exact ⟨_, evalAfter_field hg _ _ _ haux, .nil, evalAfter_evalOk hr⟩
  | unknown =>
    unfold evalHandler
    unfold Handler.finish at hr ⊢
    rw [hid, hk] at hr ⊢
    dsimp only at hr ⊢
    exact ⟨_, evalAfter_field hg _ _ _ haux, .nil, evalAfter_evalOk hr⟩
  | singleton =>
    have hv := fed_singleton (c := c0) hk ps
    unfold evalHandler
    unfold Handler.finish at hr ⊢
    rw [hid, hk] at hr ⊢
    dsimp only at hr ⊢
    unfold Handler.finishSingleton at hr ⊢
    cases ps with
    | nil => exact absurd rfl hne
    | cons p ps =>
      have hraw : (fedLines c0 name (p :: ps)).raw = (p.2, 0) :: ps.map fun p => (p.2, 0) := by rw [hv]; rfl
      have hl : lineValue c (classOf name) ((p :: ps).map (·.2)) = (parseText c (classOf name) (strip p.2)).toOption.getD .none := by
        unfold lineValue; rw [hk]; rfl
      rw [hl]
      simp only [hraw] at hr ⊢
      have hp := Handler.parse_ok hg.to0 c _ haux (strip p.2)
      have ht : ParsedNotes c ((fedLines c0 name (p :: ps)).parse c add (strip p.2)).2.notes [⟨add.subject, classOf name, strip p.2⟩] :=
        ParsedNotes.single (p := ⟨add.subject, classOf name, strip p.2⟩) rfl hu hid
      have hpr := parse_res c add (fedLines c0 name (p :: ps)) (strip p.2)
      rw [hid] at hpr
      generalize (fedLines c0 name (p :: ps)).parse c add (strip p.2) = q at *
      obtain ⟨aux, r⟩ := q
      dsimp only at *
      rw [hid] at hr ⊢
      have h1 : (if (ps.map fun p => (p.2, (0 : Nat))).isEmpty then [] else [add.mk1 .SINGLE_HEADER_REPEAT]).filter isField = [] := by
        cases ps with
        | nil => rfl
        | cons q qs => exact filter_frame_notField (ns := [add.mk1 .SINGLE_HEADER_REPEAT]) (by intro n hn; rw [List.mem_singleton] at hn; subst hn; rfl)
      have h2 : (match (classOf name).info.syn with
       | none => []
       | some r => if matchSpaced r p.2 then []
         else if (classOf name).info.reportSyntax then [add.mk1 .BAD_SYNTAX [(str "ref_uri", .str (fedLines c0 name (p :: ps)).reference)]] else []).filter isField = [] := by
        cases (classOf name).info.syn with
        | none => rfl
        | some r =>
          dsimp only
          split
          · rfl
          · split
            · exact filter_frame_notField (by intro n hn; rw [List.mem_singleton] at hn; subst hn; rfl)
            · rfl
      have key : ∀ n1 n2 : List Note, n1.filter isField = [] → n2.filter isField = [] → ((n1 ++ n2) ++ r.notes).filter isField = r.notes := by
        intro n1 n2 h1 h2
        rw [List.filter_append, List.filter_append, filter_field hp.2, h1, h2]; rfl
      rw [← hpr]
      cases hres : r.res with
      | ok v =>
        simp only [hres] at hr ⊢
        exact ⟨_, (evalAfter_field hg _ _ _ hp.1).trans (congrArg (· ++ _) (key _ _ h1 h2)), ht, evalAfter_evalOk hr⟩
      | error e =>
        simp only [hres] at hr ⊢
        by_cases he : e.isValueError = true
        · have : ∀ h : Handler, h.value = .none → evalNotes c add h = [] := by
            intro h hh; unfold evalNotes; rw [if_pos hh]
          rw [if_pos he, this _ rfl]
          exact ⟨_, (key _ _ h1 h2).trans (List.append_nil _).symm, ht, evalOk_none rfl⟩
        · rw [if_neg he] at hr; simp at hr
  | broken =>
    have hv := fed_broken (c := c0) hk ps
    unfold evalHandler
    unfold Handler.finish at hr ⊢
    rw [hid, hk] at hr ⊢
    dsimp only at hr ⊢
    unfold Handler.finishBroken at hr ⊢
    have hraw : (fedLines c0 name ps).raw = ps.map fun p => (p.2, p.1) := by rw [hv]
    have hb := brokenLoop_field c hm (fedLines c0 name ps).raw (fedLines c0 name ps) [] haux
    have hbo := brokenLoop_ok c hm (fedLines c0 name ps).raw (fedLines c0 name ps) [] haux
    have hbv := brokenLoop_value c (fedLines c0 name ps).raw (fedLines c0 name ps) []
    generalize (fedLines c0 name ps).brokenLoop c (fedLines c0 name ps).raw [] = q at *
    obtain ⟨h', w⟩ := q
    dsimp only at *
    cases hres : w.res with
    | error e => simp only [hres] at hr; simp at hr
    | ok vs =>
      have hvs := hbv vs hres
      simp only [hres] at hr ⊢
      have hl : lineValue c (classOf name) (ps.map (·.2)) = .list vs := by
        unfold lineValue
        rw [hk, hvs, hraw, hid]
        simp only [List.nil_append, List.filterMap_map, Function.comp_def]
      rw [hl]
      refine ⟨_, evalAfter_field hg _ _ { h' with value := .list vs } hbo.1, ?_, evalAfter_evalOk hr⟩
      have := hb ⟨vs, hres⟩
      rw [hraw, hid, List.map_map] at this
      exact this
  | sf t =>
    have hv := fed_text (c := c0) (k := .sf t) hk (.inr ⟨t, rfl⟩) ps
    unfold evalHandler
    unfold Handler.finish at hr ⊢
    rw [hid, hk] at hr ⊢
    dsimp only at hr ⊢
    unfold Handler.finishSf at hr ⊢
    have h1 : (fedLines c0 name ps).value = textVal (ps.map (·.2)) := by rw [hv]
    have h2 : (fedLines c0 name ps).sfParsed = false := by rw [hv]; exact mkHandler_sf _ _
    rw [h1, textVal_truthy hxs, h2, joinValue_text] at hr ⊢
    simp only [Bool.not_true, Bool.false_eq_true, if_false] at hr ⊢
    have hl : lineValue c (classOf name) (ps.map (·.2)) = (match c.env.sfParse t (strip (join (str ", ") (ps.map (·.2)))) with | .ok v _ => v | _ => .none) := by
      unfold lineValue; rw [hk]; dsimp only; split <;> simp_all
    rw [hl]
    have hnone : ∀ h : Handler, h.value = .none → evalNotes c add h = [] := by
      intro h hh; unfold evalNotes; rw [if_pos hh]
    cases hs : c.env.sfParse t (strip (join (str ", ") (ps.map (·.2)))) with
    | ok v d =>
      simp only [hs] at hr ⊢
      exact ⟨_, evalAfter_field hg _ _ { fedLines c0 name ps with value := v, sfParsed := true } haux, by rw [dupKey_field]; exact .nil, evalAfter_evalOk hr⟩
    | sfError p i d =>
      simp only; rw [hnone _ rfl, List.filter_append, dupKey_field]
      rw [filter_frame_notField (by intro n hn; rw [List.mem_singleton] at hn; subst hn; rfl)]
      exact ⟨[], rfl, .nil, evalOk_none rfl⟩
    | error p d =>
      simp only; rw [hnone _ rfl, List.filter_append, dupKey_field]
      rw [filter_frame_notField (by intro n hn; rw [List.mem_singleton] at hn; subst hn; rfl)]
      exact ⟨[], rfl, .nil, evalOk_none rfl⟩
  | json =>
    have hv := fed_text (c := c0) (k := .json) hk (.inl rfl) ps
    unfold evalHandler
    unfold Handler.finish at hr ⊢
    rw [hid, hk] at hr ⊢
    dsimp only at hr ⊢
    unfold Handler.finishJson at hr ⊢
    have h1 : (fedLines c0 name ps).value = textVal (ps.map (·.2)) := by rw [hv]
    rw [h1, textVal_truthy hxs, joinValue_text] at hr ⊢
    simp only [Bool.not_true, Bool.false_eq_true, if_false] at hr ⊢
    have hl : lineValue c (classOf name) (ps.map (·.2)) = (match c.env.jsonLoads (str "[" ++ join (str ", ") (ps.map (·.2)) ++ str "]") with | .ok v => v | _ => .none) := by
      unfold lineValue; rw [hk]; dsimp only; split <;> simp_all
    rw [hl]
    have hnone : ∀ h : Handler, h.value = .none → evalNotes c add h = [] := by
      intro h hh; unfold evalNotes; rw [if_pos hh]
    cases hs : c.env.jsonLoads (str "[" ++ join (str ", ") (ps.map (·.2)) ++ str "]") with
    | ok v => simp only [hs] at hr ⊢; exact ⟨_, evalAfter_field hg _ _ { fedLines c0 name ps with value := v } haux, .nil, evalAfter_evalOk hr⟩
    | decodeError p =>
      simp only; rw [hnone _ rfl, filter_frame_notField (by intro n hn; rw [List.mem_singleton] at hn; subst hn; rfl)]
      exact ⟨[], rfl, .nil, evalOk_none rfl⟩
    | raises e => simp only [hs] at hr; exact absurd hr (by simp [W.throw])

theorem broken_only {f : FieldId} (h : f.info.kind = .broken) : f = .cookie_ ∨ f = .set_cookie_ := by
  cases f <;> first | exact .inl rfl | exact .inr rfl | exact nomatch h

/-- a field that is not read at all gets none -/
theorem finish_field_unread {c add kind name} (hok : okName kind name = false) (hg : AddGood add keys1) :
    ((checked kind (mkHandler (classOf name) name)).finish c add).2.notes.filter isField = [] := by
  have hfid : (checked kind (mkHandler (classOf name) name)).fid = classOf name := by rw [(checked_id _ _).fid, mkHandler_fid]
  have hraw : (checked kind (mkHandler (classOf name) name)).raw = [] := by
    unfold checked; split <;> exact mkHandler_raw _ _
  have hval : (checked kind (mkHandler (classOf name) name)).value = if (classOf name).validIn kind then .list [] else .none := by
    unfold checked
    rw [mkHandler_fid]
    split
    · exact mkHandler_value _ _
    · rfl
  have haux : (checked kind (mkHandler (classOf name) name)).aux = {} := by
    unfold checked mkHandler; dsimp only; split <;> (split <;> rfl)
  have hvk : (classOf name).validIn kind = true → classOf name = .unknownField := by
    intro hv
    unfold okName at hok
    rw [hv, Bool.true_and] at hok
    exact classOf_notToken hok
  generalize checked kind (mkHandler (classOf name) name) = h at *
  have hev : (h.evalAfter c add []).2.notes.filter isField = [] := by
    rw [evalAfter_field hg c [] h (by rw [haux]; exact auxOK_empty)]
    unfold evalNotes
    rw [hval]
    by_cases hv : (classOf name).validIn kind = true
    · rw [if_pos hv, if_neg (by simp)]
      unfold Handler.evaluate
      rw [hfid, hvk hv]
      rfl
    · rw [if_neg hv, if_pos rfl]; rfl
  have htr : h.value.truthy = false := by rw [hval]; split <;> rfl
  unfold Handler.finish
  split
  · unfold Handler.finishSingleton; rw [hraw]; rfl
  · rename_i hk
    rw [hfid] at hk
    unfold Handler.finishBroken
    rw [hraw]
    show (({ h with value := .list [] } : Handler).evalAfter c add []).2.notes.filter isField = []
    rw [evalAfter_field hg c [] { h with value := .list [] } (by rw [haux]; exact auxOK_empty)]
    unfold evalNotes
    rw [if_neg (by simp)]
    unfold Handler.evaluate
    dsimp only
    rcases broken_only hk with hb | hb <;> rw [hfid, hb]
    · rfl
    · show _ ++ (set_cookie.evaluate add { h with value := .list [] }).notes = []
      unfold set_cookie.evaluate
      rw [haux]
      rfl
  · unfold Handler.finishSf; rw [htr]; rfl
  · unfold Handler.finishJson; rw [htr]; rfl
  · exact hev
  · exact hev

/-! ### the whole section -/

theorem finishParse_during {env related t m c} (hd : During env related t m c) (f : FieldId) (subj ps) :
    finishParse c f subj ps = finishParse ⟨env, m, related⟩ f subj ps := by
  unfold finishParse
  simp only [parseNotes_during hd]

/-- the handler of field `n` as `evaluate` finds it in context `c`, with the means to add notes it is given -/
def evalSetup (m : Msg) (t : Bool) (c : Ctx) (related : Option Msg) (ls : List Line) (n : Str) : AddNote × Handler :=
  let add := m.fieldAdder t (readHandler ⟨c.env, m, related⟩ ls n)
  (add, evalHandler ⟨c.env, m, related⟩ c add (spelling ls n) (sent m.kind n ls))

/-- **the notes field classes add in a section**, in full: those for the elements of lists line by line, then for each
field (`fin`) those for its text and those of `evaluate`, which sees the message as it then is -/
theorem section_pieces {env related t} {ls : List Line} {m m' : Msg} (hm : Linting env m) (hnew : (m.section t).handlers = [])
    (h : processSection env related t ls m = (m', .ok ())) :
    ∃ (added lines : List Note) (fin : Str → List Note) (ctx : Str → Ctx), m'.notes = m.notes ++ added ∧
      (∀ n ∈ namesOf ls, During env related t m (ctx n) ∧ (ctx n).msg.notes <+: m'.notes) ∧
      added.filter isField = lines ++ (namesOf ls).flatMap fin ∧
      ParsedNotes ⟨env, m, related⟩ lines ((numbered m.kind 0 ls).flatMap (linePieces m.kind)) ∧
      (∀ n ∈ namesOf ls, if okName m.kind n then ∃ pre, fin n =
          pre ++ evalNotes (ctx n) (evalSetup m t (ctx n) related ls n).1 (evalSetup m t (ctx n) related ls n).2 ∧
          ParsedNotes ⟨env, m, related⟩ pre (finishPieces (classOf n) (fieldSubject n) (sent m.kind n ls)) ∧
          EvalOk (ctx n) (evalSetup m t (ctx n) related ls n).1 (evalSetup m t (ctx n) related ls n).2
        else fin n = []) ∧
      ∀ a n b, namesOf ls = a ++ n :: b → Seen env related t ls m a (ctx n) := by
  have hrdy := hm.ready t
  obtain ⟨a, b, ctx, hln, _, hb, hd, hp, _, hseen⟩ := section_outcome hrdy hnew h
  have ha : ParsedNotes ⟨env, m, related⟩ (a.filter isField) ((numbered m.kind 0 ls).flatMap (linePieces m.kind)) := by
    unfold processSection at h
    split at h
    · simp at h
    · rename_i m1 heq
      obtain ⟨a', e', t'⟩ := processLines_field hrdy (Ext.refl t m) heq
      rw [heq] at hln
      dsimp only at hln
      rw [e'] at hln
      rw [← List.append_cancel_left hln]
      exact t'
  refine ⟨_, a.filter isField, fun n => (finishIn m t (readHandler ⟨env, m, related⟩ ls n) (ctx n)).2.notes.filter isField, ctx, hp,
    fun n hn => ⟨(hd n hn).1, (hd n hn).2.2⟩, ?_, ha, ?_, fun a n b e => seen_of hm h hd e (hseen a n b e)⟩
  · have hb' : b.filter isField = [] := by
      rw [List.filter_eq_nil_iff]
      intro x hx
      unfold isField; rw [hb x hx]; decide
    rw [List.filter_append, List.filter_append, hb', List.append_nil, List.filter_flatMap]
  intro n hn
  obtain ⟨hdn, hrn, _⟩ := hd n hn
  have hmt : HasMT (ctx n).msg.defaults := by rw [ext_defaults hdn.ext]; exact hrdy.mt
  have hg := fieldAdder_good hrdy.mt t (readHandler ⟨env, m, related⟩ ls n)
  have hsub : (m.fieldAdder t (readHandler ⟨env, m, related⟩ ls n)).subject = fieldSubject n := by
    have : (readHandler ⟨env, m, related⟩ ls n).canonicalName = (mkHandler (classOf n) (spelling ls n)).canonicalName := by
      unfold readHandler handlerFor
      split
      · rw [(fed_id _ _ _).canon, classOf_spelling hn]
      · rw [(checked_id _ _).canon, classOf_spelling hn]
    show str "field-" ++ lower (readHandler ⟨env, m, related⟩ ls n).canonicalName = _
    rw [this, mkHandler_canon (b := n) (by rw [lower_spelling hn, lower_name hn])]
    rfl
  unfold evalSetup
  dsimp only
  rw [hdn.env]
  unfold finishIn at *
  have hu : UniqueKeys (m.fieldAdder t (readHandler ⟨env, m, related⟩ ls n)).base := show ([str "field_name", str "field_type"] : List Str).Nodup by decide
  generalize hA : m.fieldAdder t (readHandler ⟨env, m, related⟩ ls n) = A at *
  revert hrn
  unfold readHandler handlerFor
  rw [okName_spelling hn]
  intro hrn
  by_cases hok : okName m.kind n = true
  · rw [if_pos hok] at hrn ⊢
    rw [if_pos hok]
    obtain ⟨pre, e1, e2, e3⟩ := finish_field (sent_ne_nil hn) hg hu hrdy.mt hmt hrn
    rw [hsub, classOf_spelling hn] at e2
    exact ⟨pre, e1, e2.during hdn, e3⟩
  · rw [if_neg hok] at hrn ⊢
    rw [if_neg hok, finish_field_unread (by rw [okName_spelling hn]; simpa using hok) hg]

/-- the same, with only the classes and subjects of the notes of `parse` -/
theorem section_full {env related t} {ls : List Line} {m m' : Msg} (hm : Linting env m) (hnew : (m.section t).handlers = [])
    (h : processSection env related t ls m = (m', .ok ())) :
    ∃ (added lines : List Note) (fin : Str → List Note) (ctx : Str → Ctx), m'.notes = m.notes ++ added ∧
      (∀ n ∈ namesOf ls, During env related t m (ctx n) ∧ (ctx n).msg.notes <+: m'.notes) ∧
      added.filter isField = lines ++ (namesOf ls).flatMap fin ∧
      lines.map tag = ((numbered m.kind 0 ls).flatMap fun p => (lineField ⟨env, m, related⟩ p.2).map (·, offsetSubject p.1)) ∧
      (∀ n ∈ namesOf ls, if okName m.kind n then ∃ pre, fin n =
          pre ++ evalNotes (ctx n) (evalSetup m t (ctx n) related ls n).1 (evalSetup m t (ctx n) related ls n).2 ∧
          pre.map tag = finishParse ⟨env, m, related⟩ (classOf n) (fieldSubject n) (sent m.kind n ls)
        else fin n = []) ∧
      ∀ a n b, namesOf ls = a ++ n :: b → Seen env related t ls m a (ctx n) := by
  obtain ⟨added, lines, fin, ctx, e, hd, ha, hl, hf, hs⟩ := section_pieces hm hnew h
  refine ⟨added, lines, fin, ctx, e, hd, ha, ?_, ?_, hs⟩
  · rw [hl.tags, List.flatMap_assoc]
    exact congrArg (List.flatMap · _) (funext fun p => linePieces_tags ⟨env, m, related⟩ p)
  · intro n hn
    have := hf n hn
    split at this
    · rename_i hok
      rw [if_pos hok]
      obtain ⟨pre, e1, e2, _⟩ := this
      exact ⟨pre, e1, by rw [e2.tags, finishPieces_tags]⟩
    · rename_i hok
      rw [if_neg hok]
      exact this

/-- the classes and subjects of those notes -/
theorem section_fields {env related t} {ls : List Line} {m m' : Msg} (hm : Linting env m) (hnew : (m.section t).handlers = [])
    (h : processSection env related t ls m = (m', .ok ())) :
    ∃ (added : List Note) (ctx : Str → Ctx), m'.notes = m.notes ++ added ∧ (∀ n ∈ namesOf ls, During env related t m (ctx n)) ∧
      (added.filter isField).map tag =
      ((numbered m.kind 0 ls).flatMap fun p => (lineField ⟨env, m, related⟩ p.2).map (·, offsetSubject p.1)) ++
      (namesOf ls).flatMap fun n => if okName m.kind n then finishParse ⟨env, m, related⟩ (classOf n) (fieldSubject n) (sent m.kind n ls) ++
        (evalNotes (ctx n) (evalSetup m t (ctx n) related ls n).1 (evalSetup m t (ctx n) related ls n).2).map tag else [] := by
  obtain ⟨added, lines, fin, ctx, e, hd, ha, hl, hf, _⟩ := section_full hm hnew h
  refine ⟨added, ctx, e, fun n hn => (hd n hn).1, ?_⟩
  rw [ha, List.map_append, hl, List.map_flatMap]
  congr 1
  apply flatMap_congr_mem
  intro n hn
  have := hf n hn
  by_cases hok : okName m.kind n = true
  · rw [if_pos hok] at this ⊢
    obtain ⟨pre, e1, e2⟩ := this
    rw [e1, List.map_append, e2]
  · rw [if_neg hok] at this ⊢
    rw [this]; rfl

end HL.Props
