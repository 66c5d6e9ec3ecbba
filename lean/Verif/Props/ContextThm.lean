import Verif.Props.BearsFields
import Verif.Props.NumberThm
import Verif.Props.Defaults
import Verif.Props.PolicyEx

/-!
# C111: what every note of a field section says it is about

Every note that processing a field section adds is about a line, a field or the whole section, names the field the
way it is shown everywhere, tells which section and which message it is in, and is in the category of its class or, for
problems with the syntax or the use of a field, of the field.
-/

namespace HL.Props
open HL.F

/-! ### specification -/

/-- how a field is shown: the way its class or the table of deprecated fields writes it, else as it is spelt -/
def shownName (name : Str) : Str :=
  match classOf name with
  | .deprecatedField => ((deprecatedTable.find? fun p => p.1 == lower (strip name)).map fun p => p.2.1).getD (strip name)
  | f => f.info.canonicalName.getD (strip name)

/-- the category a field is in -/
def shownCategory (name : Str) : Cat :=
  match classOf name with
  | .deprecatedField => ((deprecatedTable.find? fun p => p.1 == lower (strip name)).map fun p => p.2.2.1).getD FieldId.deprecatedField.info.category
  | f => f.info.category

/-- problems with the use and the syntax of a field -/
def framed (f : FieldId) : NoteId → Bool
  | .RESPONSE_HDR_IN_REQUEST | .REQUEST_HDR_IN_RESPONSE | .FIELD_DEPRECATED | .BAD_SYNTAX_DETAILED | .STRUCTURED_FIELD_PARSE_ERROR | .BAD_JSON => true
  | .BAD_SYNTAX => f.info.kind == .list
  | _ => false

/-- the notes that are put in the category of the field they are about -/
def grouped (f : FieldId) (cls : NoteId) : Bool := dated cls || framed f cls

/-- the note is about `subject`, names the field `canon` and its category -/
structure AboutField (mt : Val) (canon : Str) (cat : Cat) (f : FieldId) (subject : Str) (ft : Option Val) (x : Note) : Prop where
  subject : x.subject = (elsewhere x.cls).getD subject
  fieldName : elsewhere x.cls = none → dget x.vars (str "field_name") = some (.str canon)
  fieldType : elsewhere x.cls = none → dget x.vars (str "field_type") = ft
  messageType : dget x.vars (str "message_type") = some mt
  category : x.category = if grouped f x.cls then cat else x.cls.cat
  kids : ∀ s ∈ x.subnotes, s.subject = x.subject ∧ ∀ k ∈ contextKeys, dget s.vars k = dget x.vars k

/-- the note is about the line numbered `p.1`: it names the field as it is shown or, for octets outside ASCII, as it is
spelt in that line -/
def LineAbout (mt : Val) (shown : Str → Str) (cats : Str → Cat) (p : Nat × Line) (x : Note) : Prop :=
  AboutField mt (shown (lineKey p.2.1)) (cats (lineKey p.2.1)) (classOf (decodeName p.2.1)) (offsetSubject p.1) none x ∨
  ((x.cls = .FIELD_NAME_ENCODING ∨ x.cls = .FIELD_VALUE_ENCODING) ∧ x.subject = offsetSubject p.1 ∧ x.category = x.cls.cat ∧
    dget x.vars (str "field_name") = some (.str (decodeName p.2.1)) ∧ dget x.vars (str "message_type") = some mt ∧ x.subnotes = [])

/-- the notes about the size of a section -/
def SizeAbout (mt : Val) (t : Bool) (x : Note) : Prop :=
  x.cls = .FIELD_SECTION_TOO_LARGE ∧ x.subject = str "field-block" ∧ x.category = x.cls.cat ∧
    dget x.vars (str "field_type") = some (fieldType t) ∧ dget x.vars (str "message_type") = some mt ∧ x.subnotes = []

/-! ### proof: what notes inherit -/

/-- what `add` adds to -/
structure Fits (add : AddNote) (mt : Val) (canon : Str) (s : Str) (ft : Option Val) : Prop where
  subject : add.subject = s
  uniq : UniqueKeys add.base
  name : dget (dupdate add.defaults add.base) (str "field_name") = some (.str canon)
  type : dget (dupdate add.defaults add.base) (str "field_type") = ft
  kind : dget (dupdate add.defaults add.base) (str "message_type") = some mt
  dmt : dget add.defaults (str "message_type") = some mt

/-- the defaults of the notes of a message -/
def mtDefaults (mt : Val) : Dict Val := [(str "message_type", mt)]

theorem offsetAdd_fits (h : Handler) (mt : Val) (o : Nat) : Fits (h.offsetAdd (mtDefaults mt) o) mt h.canonicalName (offsetSubject o) none := by
  refine ⟨rfl, ?_, ?_, ?_, ?_, ?_⟩
  · show ([str "field_name"] : List Str).Nodup; decide
  all_goals simp [Handler.offsetAdd, mtDefaults, dupdate, dset, dget]

theorem adder_fits {m : Msg} {mt : Val} (hm : m.defaults = mtDefaults mt) (s n : Str) :
    Fits (m.adder s [(str "field_name", .str n)]) mt n s none := by
  unfold Msg.adder
  rw [hm]
  refine ⟨rfl, ?_, ?_, ?_, ?_, ?_⟩
  · show ([str "field_name"] : List Str).Nodup; decide
  all_goals simp [mtDefaults, dupdate, dset, dget]

theorem fieldAdder_fits {m : Msg} {mt : Val} (hm : m.defaults = mtDefaults mt) (t : Bool) (h : Handler) :
    Fits (m.fieldAdder t h) mt h.canonicalName (str "field-" ++ lower h.canonicalName) (some (fieldType t)) := by
  unfold Msg.fieldAdder Msg.adder
  rw [hm]
  refine ⟨rfl, ?_, ?_, ?_, ?_, ?_⟩
  · show ([str "field_name", str "field_type"] : List Str).Nodup; decide
  all_goals simp [mtDefaults, dupdate, dset, dget]

variable {add : AddNote} {mt : Val} {canon : Str} {cat : Cat} {f : FieldId} {s : Str} {ft : Option Val}

theorem framed_origin {cls : NoteId} (h : framed f cls = true) : cls.origin ≠ .field := by
  unfold framed at h
  split at h
  all_goals first | exact absurd h (by decide) | (intro hh; exact absurd (show _ = _ from hh) (by decide))

theorem Bears.about (hf : Fits add mt canon s ft) {x : Note} (h : Bears add cat x) : AboutField mt canon cat f s ft x where
  subject := by rw [h.subject, hf.subject]
  fieldName he := by rw [h.context he _ (by decide), hf.name]
  fieldType he := by rw [h.context he _ (by decide), hf.type]
  messageType := by
    rcases h.kind with hk | he
    · rw [hk, hf.dmt]
    · rw [h.context he _ (by decide), hf.kind]
  category := by
    have : framed f x.cls = false := by
      cases hh : framed f x.cls with
      | false => rfl
      | true => exact absurd h.origin (framed_origin hh)
    rw [h.category]; unfold grouped; rw [this, Bool.or_false]
  kids := h.kids

theorem about_mk1 (hf : Fits add mt canon s ft) {cls : NoteId} {vrs : Dict Val} {c : Option Cat} (hv : free (vrs.map (·.1)) = true) (he : elsewhere cls = none)
    (hc : addCategory cls c = if grouped f cls then cat else cls.cat) : AboutField mt canon cat f s ft (add.mk1 cls vrs c) where
  subject := by rw [AddNote.mk1_cls, he, ← hf.subject]; rfl
  fieldName _ := (dget_mk1_free hf.uniq (free_notMem hv (by decide))).trans hf.name
  fieldType _ := (dget_mk1_free hf.uniq (free_notMem hv (by decide))).trans hf.type
  messageType := (dget_mk1_free hf.uniq (free_notMem hv (by decide))).trans hf.kind
  category := hc
  kids := by intro s hs; exact absurd hs (by simp [AddNote.mk1, mkNote])

/-- all the notes of `ns` -/
abbrev Abouts (mt : Val) (canon : Str) (cat : Cat) (f : FieldId) (s : Str) (ft : Option Val) (ns : List Note) : Prop := ∀ n ∈ ns, AboutField mt canon cat f s ft n

/-! ### proof: reading a line -/

/-- the category of a handler is that of its class, unless the table says otherwise -/
def Sorted (h : Handler) : Prop := h.fid = .deprecatedField ∨ h.fid.info.category = h.category

theorem elementSyntax_about (h : Handler) (hk : h.fid.info.kind = .list) (hf : Fits add mt h.canonicalName s ft) (v : Str) :
    Abouts mt h.canonicalName h.category h.fid s ft (h.elementSyntax add v).notes := by
  unfold Handler.elementSyntax
  have hg : grouped h.fid .BAD_SYNTAX = true := by unfold grouped framed; rw [hk]; rfl
  split
  · exact fun n hn => nomatch hn
  · split
    · exact fun n hn => nomatch hn
    · split
      · refine emits_bind (emits_lift _) fun p => ?_
        intro n hn
        rw [AddNote.add_notes, List.mem_singleton] at hn
        subst hn
        exact about_mk1 hf rfl rfl rfl
      · refine emits_when fun _ => ?_
        intro n hn
        rw [AddNote.add_notes, List.mem_singleton] at hn
        subst hn
        refine about_mk1 hf rfl rfl ?_
        rw [hg]; rfl

theorem listLoop_about (c : Ctx) {name : Str} {cat : Cat} {f : FieldId} (hk : f.info.kind = .list) (hf : Fits add mt name s ft) (vs : List Str) :
    ∀ h : Handler, h.canonicalName = name → h.category = cat → h.fid = f → Sorted h → Kept (fun _ => True) h.aux →
      Kept (fun _ => True) (h.listLoop c add vs).1.aux ∧ Abouts mt name cat f s ft (h.listLoop c add vs).2.notes := by
  induction vs with
  | nil => intro h _ _ _ _ ha; exact ⟨ha, fun n hn => nomatch hn⟩
  | cons v vs ih =>
    intro h e1 e2 e3 hs ha
    subst e1 e2 e3
    have h1 := elementSyntax_about (h := h) hk hf v
    obtain ⟨h2, h3⟩ := parse_bears (Q := fun _ => True) hf.uniq c h hs (fun _ _ => trivial) ha (strip v)
    have h4 : Abouts mt h.canonicalName h.category h.fid s ft ((h.elementSyntax add v).notes ++ (h.parse c add (strip v)).2.notes) := by
      intro n hn
      rcases List.mem_append.1 hn with hn | hn
      · exact h1 n hn
      · exact (h3 n hn).about hf
    unfold Handler.listLoop
    dsimp only
    split
    · exact ⟨ha, h1⟩
    · split
      · split
        · obtain ⟨i1, i2⟩ := ih { h with aux := (h.parse c add (strip v)).1 } rfl rfl rfl hs h2
          refine ⟨i1, ?_⟩
          intro n hn
          rcases List.mem_append.1 hn with hn | hn
          · exact h4 n hn
          · exact i2 n hn
        · exact ⟨h2, h4⟩
      · split
        · exact ⟨h2, h4⟩
        · rename_i h' he
          have hid := append_id he
          obtain ⟨i1, i2⟩ := ih h' hid.canon hid.cat hid.fid (by unfold Sorted; rw [hid.fid, hid.cat]; exact hs) (by rw [append_aux he]; exact h2)
          refine ⟨i1, ?_⟩
          intro n hn
          rcases List.mem_append.1 hn with hn | hn
          · exact h4 n hn
          · exact i2 n hn

theorem handleInput_about (c : Ctx) (hm : c.msg.defaults = mtDefaults mt) (h : Handler) (hs : Sorted h) (ha : Kept (fun _ => True) h.aux) (v : Str) (o : Nat) :
    Kept (fun _ => True) (h.handleInput c v o).1.aux ∧ Abouts mt h.canonicalName h.category h.fid (offsetSubject o) none (h.handleInput c v o).2.notes := by
  have nil : Abouts mt h.canonicalName h.category h.fid (offsetSubject o) none [] := fun n hn => nomatch hn
  unfold Handler.handleInput
  split
  · rename_i hk
    refine listLoop_about c hk ?_ _ h rfl rfl rfl hs ha
    rw [hm]; exact offsetAdd_fits h mt o
  · exact ⟨ha, nil⟩
  · exact ⟨ha, nil⟩
  · split
    · rename_i he; exact ⟨by have := append_aux he; show Kept _ (Handler.aux _); rw [this]; exact ha, nil⟩
    · exact ⟨ha, nil⟩
  · split
    · rename_i he; exact ⟨by rw [append_aux he]; exact ha, nil⟩
    · exact ⟨ha, nil⟩
  · exact ⟨ha, nil⟩

theorem preCheck_about (h : Handler) (kind : MsgKind) (hf : Fits add mt h.canonicalName s ft) :
    Abouts mt h.canonicalName h.category h.fid s ft (h.preCheck kind add).2.2 := by
  unfold Handler.preCheck
  split
  · intro n hn
    rw [List.mem_singleton] at hn
    subst hn
    cases kind <;> exact about_mk1 hf rfl rfl rfl
  · split
    · intro n hn
      rw [List.mem_singleton] at hn
      subst hn
      exact about_mk1 hf rfl rfl rfl
    · dsimp only
      split
      · intro n hn
        rw [List.mem_singleton] at hn
        subst hn
        exact about_mk1 (c := some h.category) hf rfl rfl rfl
      · split
        · intro n hn
          rw [List.mem_singleton] at hn
          subst hn
          exact about_mk1 hf rfl rfl rfl
        · exact fun n hn => nomatch hn

/-! ### proof: finishing a field -/

theorem Abouts.append {a b : List Note} (h1 : Abouts mt canon cat f s ft a) (h2 : Abouts mt canon cat f s ft b) : Abouts mt canon cat f s ft (a ++ b) :=
  fun n hn => (List.mem_append.1 hn).elim (h1 n) (h2 n)

theorem evalAfter_about {Q : Note → Prop} (c : Ctx) {ns : List Note} (h : Handler) (hf : Fits add mt h.canonicalName s ft) (ha : Kept Q h.aux)
    (hns : ∀ n ∈ ns, AboutField mt h.canonicalName h.category h.fid s ft n ∨ (h.fid.info.kind = .broken ∧ Q n)) :
    ∀ n ∈ (h.evalAfter c add ns).2.notes, AboutField mt h.canonicalName h.category h.fid s ft n ∨ (h.fid.info.kind = .broken ∧ Q n) := by
  unfold Handler.evalAfter
  split
  · exact hns
  · intro n hn
    rcases List.mem_append.1 hn with hn | hn
    · exact hns n hn
    · rcases evaluate_bears (cat := h.category) hf.uniq c h ha n hn with hb | ⟨he, hq⟩
      · exact .inl (hb.about hf)
      · exact .inr ⟨by rw [he]; rfl, hq⟩

theorem brokenLoop_about {Q : Note → Prop} (c : Ctx) (hm : c.msg.defaults = mtDefaults mt) {name : Str} {cat : Cat} {f : FieldId} (hk : f.info.kind = .broken) (rs : List (Str × Nat)) :
    ∀ (h : Handler) (acc), h.canonicalName = name → h.category = cat → h.fid = f → Sorted h → Kept Q h.aux →
      (∀ p ∈ rs, ∀ n, AboutField mt name cat f (offsetSubject p.2) none n → Q n) →
      Kept Q (h.brokenLoop c rs acc).1.aux ∧ ∀ n ∈ (h.brokenLoop c rs acc).2.notes, Q n := by
  induction rs with
  | nil => intro h acc _ _ _ _ ha _; exact ⟨ha, fun n hn => nomatch hn⟩
  | cons r rs ih =>
    obtain ⟨raw, o⟩ := r
    intro h acc e1 e2 e3 hs ha hq
    subst e1 e2 e3
    have hf : Fits (h.offsetAdd c.msg.defaults o) mt h.canonicalName (offsetSubject o) none := by rw [hm]; exact offsetAdd_fits h mt o
    have hq0 := hq (raw, o) (List.mem_cons_self ..)
    have hq1 : ∀ p ∈ rs, ∀ n, AboutField mt h.canonicalName h.category h.fid (offsetSubject p.2) none n → Q n := fun p hp => hq p (List.mem_cons_of_mem _ hp)
    obtain ⟨h2, h3⟩ := parse_bears (Q := Q) hf.uniq c h hs (fun n hn => hq0 n (hn.about hf)) ha (strip raw)
    have hg : grouped h.fid .BAD_SYNTAX = false := by unfold grouped framed; rw [hk]; rfl
    let syn : List Note := (match h.fid.info.syn with
      | none => []
      | some r => if matchSpaced r raw then [] else [(h.offsetAdd c.msg.defaults o).mk1 .BAD_SYNTAX [(str "ref_uri", .str h.reference)]])
    have h1 : ∀ n ∈ syn, Q n := by
      dsimp only [syn]
      split
      · exact fun n hn => nomatch hn
      · split
        · exact fun n hn => nomatch hn
        · intro n hn
          rw [List.mem_singleton] at hn
          subst hn
          exact hq0 _ (about_mk1 hf rfl rfl (by rw [hg]; rfl))
    have h4 : ∀ n ∈ syn ++ (h.parse c (h.offsetAdd c.msg.defaults o) (strip raw)).2.notes, Q n := by
      intro n hn
      rcases List.mem_append.1 hn with hn | hn
      · exact h1 n hn
      · exact hq0 n ((h3 n hn).about hf)
    unfold Handler.brokenLoop
    dsimp only
    split
    · obtain ⟨i1, i2⟩ := ih { h with aux := (h.parse c (h.offsetAdd c.msg.defaults o) (strip raw)).1 } (acc ++ [_]) rfl rfl rfl hs h2 hq1
      refine ⟨i1, ?_⟩
      intro n hn
      rcases List.mem_append.1 hn with hn | hn
      · exact h4 n hn
      · exact i2 n hn
    · split
      · obtain ⟨i1, i2⟩ := ih { h with aux := (h.parse c (h.offsetAdd c.msg.defaults o) (strip raw)).1 } acc rfl rfl rfl hs h2 hq1
        refine ⟨i1, ?_⟩
        intro n hn
        rcases List.mem_append.1 hn with hn | hn
        · exact h4 n hn
        · exact i2 n hn
      · exact ⟨h2, h4⟩

theorem dupKeyNotes_about (hf : Fits add mt canon s ft) (dups : List (Str × Str)) : Abouts mt canon cat f s ft (dupKeyNotes add dups) := by
  intro n hn
  unfold dupKeyNotes at hn
  obtain ⟨p, _, rfl⟩ := List.mem_map.1 hn
  exact about_mk1 hf rfl rfl rfl

/-- what finishing a field adds is about the field, or about one of its lines -/
def FinishAbout (mt : Val) (h : Handler) (s : Str) (ft : Option Val) (n : Note) : Prop :=
  AboutField mt h.canonicalName h.category h.fid s ft n ∨
    (h.fid.info.kind = .broken ∧ ∃ p ∈ h.raw, AboutField mt h.canonicalName h.category h.fid (offsetSubject p.2) none n)

theorem finish_about (c : Ctx) (hm : c.msg.defaults = mtDefaults mt) (h : Handler) (hf : Fits add mt h.canonicalName s ft) (hs : Sorted h)
    (ha : Kept (fun _ => True) h.aux) (hb : h.fid.info.kind = .broken → h.aux = {}) :
    ∀ n ∈ (h.finish c add).2.notes, FinishAbout mt h s ft n := by
  have weak : ∀ {n}, h.fid.info.kind ≠ .broken → (AboutField mt h.canonicalName h.category h.fid s ft n ∨ (h.fid.info.kind = .broken ∧ True)) → FinishAbout mt h s ft n :=
    fun hk hn => hn.elim .inl fun hh => absurd hh.1 hk
  have nil : ∀ n ∈ ([] : List Note), FinishAbout mt h s ft n := fun n hn => nomatch hn
  unfold Handler.finish
  split
  · rename_i hk
    have hk' : h.fid.info.kind ≠ .broken := by rw [hk]; exact fun hh => nomatch hh
    have hg : grouped h.fid .BAD_SYNTAX = false := by unfold grouped framed; rw [hk]; rfl
    unfold Handler.finishSingleton
    split
    · exact nil
    · rename_i first _ more _
      dsimp only
      obtain ⟨h2, h3⟩ := parse_bears (Q := fun _ => True) hf.uniq c h hs (fun _ _ => trivial) ha (strip first)
      generalize hsyn : ((if more.isEmpty then [] else [add.mk1 .SINGLE_HEADER_REPEAT]) ++
        (match h.fid.info.syn with
         | none => []
         | some r => if matchSpaced r first then []
           else if h.fid.info.reportSyntax then [add.mk1 .BAD_SYNTAX [(str "ref_uri", .str h.reference)]] else [])) = syn
      have h1 : Abouts mt h.canonicalName h.category h.fid s ft syn := by
        rw [← hsyn]
        refine Abouts.append ?_ ?_
        · split
          · exact fun n hn => nomatch hn
          · intro n hn
            rw [List.mem_singleton] at hn
            subst hn
            exact about_mk1 hf rfl rfl rfl
        · split
          · exact fun n hn => nomatch hn
          · split
            · exact fun n hn => nomatch hn
            · split
              · intro n hn
                rw [List.mem_singleton] at hn
                subst hn
                exact about_mk1 hf rfl rfl (by rw [hg]; rfl)
              · exact fun n hn => nomatch hn
      have h4 : Abouts mt h.canonicalName h.category h.fid s ft (syn ++ (h.parse c add (strip first)).2.notes) :=
        h1.append fun n hn => (h3 n hn).about hf
      split
      · intro n hn
        exact weak hk' (evalAfter_about (Q := fun _ => True) c { h with aux := (h.parse c add (strip first)).1, value := _ } hf h2 (fun n hn => .inl (h4 n hn)) n hn)
      · split
        · exact fun n hn => .inl (h4 n hn)
        · exact fun n hn => .inl (h4 n hn)
  · rename_i hk
    unfold Handler.finishBroken
    dsimp only
    have hb1 := brokenLoop_about (Q := fun n => ∃ p ∈ h.raw, AboutField mt h.canonicalName h.category h.fid (offsetSubject p.2) none n) c hm hk h.raw h []
      rfl rfl rfl hs (by rw [hb hk]; exact kept_empty) (fun p hp n hn => ⟨p, hp, hn⟩)
    have hid := brokenLoop_id c h.raw h []
    split
    · exact fun n hn => .inr ⟨hk, hb1.2 n hn⟩
    · rename_i vs _
      intro n hn
      have := evalAfter_about (add := add) (mt := mt) (s := s) (ft := ft) (Q := fun n => ∃ p ∈ h.raw, AboutField mt h.canonicalName h.category h.fid (offsetSubject p.2) none n) c
        { (Handler.brokenLoop c h.raw h []).1 with value := .list vs } (by show Fits add mt (Handler.canonicalName _) s ft; rw [hid.canon]; exact hf) hb1.1
        (fun n hn => .inr ⟨by show (Handler.fid _).info.kind = _; rw [hid.fid]; exact hk, hb1.2 n hn⟩) n hn
      dsimp only at this
      rw [hid.canon, hid.cat, hid.fid] at this
      exact this
  · rename_i ty hk
    have hk' : h.fid.info.kind ≠ .broken := by rw [hk]; exact fun hh => nomatch hh
    unfold Handler.finishSf
    split
    · exact nil
    · split
      · exact nil
      · split
        · exact nil
        · dsimp only
          have hd := fun d => dupKeyNotes_about (cat := h.category) (f := h.fid) hf d
          split
          · intro n hn
            exact weak hk' (evalAfter_about (Q := fun _ => True) c { h with value := _, sfParsed := true } hf ha (fun n hn => .inl (hd _ n hn)) n hn)
          all_goals
            intro n hn
            refine .inl (Abouts.append (hd _) ?_ n hn)
            intro n hn
            rw [List.mem_singleton] at hn
            subst hn
            exact about_mk1 hf rfl rfl rfl
  · rename_i hk
    have hk' : h.fid.info.kind ≠ .broken := by rw [hk]; exact fun hh => nomatch hh
    unfold Handler.finishJson
    split
    · exact nil
    · split
      · exact nil
      · split
        · rename_i v _
          intro n hn
          exact weak hk' (evalAfter_about (Q := fun _ => True) (ns := []) c { h with value := v } hf ha (fun n hn => nomatch hn) n hn)
        · intro n hn
          rw [List.mem_singleton] at hn
          subst hn
          exact .inl (about_mk1 hf rfl rfl rfl)
        · exact nil
  · rename_i hk
    have hk' : h.fid.info.kind ≠ .broken := by rw [hk]; exact fun hh => nomatch hh
    exact fun n hn => weak hk' (evalAfter_about (Q := fun _ => True) (ns := []) c h hf ha (fun n hn => nomatch hn) n hn)
  · rename_i hk
    have hk' : h.fid.info.kind ≠ .broken := by rw [hk]; exact fun hh => nomatch hh
    exact fun n hn => weak hk' (evalAfter_about (Q := fun _ => True) (ns := []) c h hf ha (fun n hn => nomatch hn) n hn)

/-! ### proof: names -/

theorem mkHandler_shown (name : Str) : (mkHandler (classOf name) name).canonicalName = shownName name ∧ (mkHandler (classOf name) name).category = shownCategory name ∧
    Sorted (mkHandler (classOf name) name) := by
  unfold mkHandler shownName shownCategory Sorted
  dsimp only
  generalize classOf name = f
  generalize deprecatedTable.find? (fun p => p.1 == lower (strip name)) = o
  by_cases hf : f = .deprecatedField
  · subst hf
    cases o with
    | none => exact ⟨rfl, rfl, .inl rfl⟩
    | some p => exact ⟨rfl, rfl, .inl rfl⟩
  · refine ⟨?_, ?_, ?_⟩
    · split
      · exact absurd rfl hf
      · split
        · exact absurd rfl hf
        · rfl
    · split
      · exact absurd rfl hf
      · split
        · exact absurd rfl hf
        · rfl
    · split
      · exact absurd rfl hf
      · exact .inr rfl

theorem fed_kept (c : Ctx) (name : Str) (ps : List (Nat × Str)) {mt : Val} (hm : c.msg.defaults = mtDefaults mt) : Kept (fun _ => True) (fedLines c name ps).aux := by
  unfold fedLines
  have key : ∀ (ps : List (Nat × Str)) (h : Handler), Sorted h → Kept (fun _ => True) h.aux →
      Kept (fun _ => True) (ps.foldl (fun h p => (h.handleInput c p.2 p.1).1) h).aux := by
    intro ps
    induction ps with
    | nil => intro h _ ha; exact ha
    | cons p ps ih =>
      intro h hs ha
      have hid := handleInput_id c h p.2 p.1
      exact ih _ (by unfold Sorted; rw [hid.fid, hid.cat]; exact hs) (handleInput_about c hm h hs ha p.2 p.1).1
  exact key ps _ (mkHandler_shown name).2.2 (by rw [mkHandler_aux]; exact kept_empty)

/-! ### proof: the lines -/

theorem encNotes_about {m : Msg} (hm : m.defaults = mtDefaults mt) (o : Nat) (name value : Str) (shown cats) :
    ∀ x ∈ encNotes m o name value, LineAbout mt shown cats (o, name, value) x := by
  have key : ∀ cls : NoteId, (cls = .FIELD_NAME_ENCODING ∨ cls = .FIELD_VALUE_ENCODING) →
      LineAbout mt shown cats (o, name, value) ((m.adder (offsetSubject o)).mk1 cls [(str "field_name", .str (decodeName name))]) := by
    intro cls hc
    refine .inr ⟨hc, rfl, rfl, ?_, ?_, rfl⟩
    · show dget (dupdate m.defaults _) _ = _
      rw [hm]; simp [mtDefaults, Msg.adder, dupdate, dset, dget]
    · show dget (dupdate m.defaults _) _ = _
      rw [hm]; simp [mtDefaults, Msg.adder, dupdate, dset, dget]
  intro x hx
  unfold encNotes at hx
  rcases List.mem_append.1 hx with hx | hx
  · split at hx
    · rw [List.mem_singleton] at hx; subst hx; exact key _ (.inl rfl)
    · exact nomatch hx
  · split at hx
    · rw [List.mem_singleton] at hx; subst hx; exact key _ (.inr rfl)
    · exact nomatch hx

theorem bigNotes_about {m : Msg} (hm : m.defaults = mtDefaults mt) (o : Nat) (name value : Str) (h : Handler) {cat f} :
    Abouts mt h.canonicalName cat f (offsetSubject o) none (bigNotes m o name value h) := by
  intro x hx
  unfold bigNotes at hx
  split at hx
  · rw [List.mem_singleton] at hx
    subst hx
    refine ⟨rfl, fun _ => ?_, fun _ => ?_, ?_, rfl, by intro s hs; exact absurd hs (by simp [AddNote.mk1, mkNote])⟩
    all_goals
      show dget (dupdate m.defaults _) _ = _
      rw [hm]; simp [mtDefaults, Msg.adder, dupdate, dset, dget]
  · exact nomatch hx

theorem preCheck_aux (kind add) (h : Handler) : (h.preCheck kind add).1.aux = h.aux := by
  unfold Handler.preCheck
  split
  · rfl
  · split
    · rfl
    · dsimp only; split <;> rfl

/-- the handlers are those of the names, as first spelt -/
structure Known (idOf : Str → Handler) (rest : List Line) (s : Section) : Prop where
  known : ∀ k h, dget s.handlers k = some h → SameId h (idOf k) ∧ Kept (fun _ => True) h.aux
  new : ∀ k l, dget s.handlers k = none → rest.find? (fun l => lineKey l.1 == k) = some l → idOf k = mkHandler (classOf (decodeName l.1)) (decodeName l.1)

theorem lineHandler_known {idOf : Str → Handler} {t : Bool} {m : Msg} {l : Line} {rest : List Line} (hk : Known idOf (l :: rest) (m.section t)) :
    SameId (lineHandler t m l.1) (idOf (lineKey l.1)) ∧ Kept (fun _ => True) (lineHandler t m l.1).aux := by
  unfold lineHandler findHandler
  change SameId (match dget (m.section t).handlers (lineKey l.1) with | some h => h | none => _) _ ∧ Kept _ (Handler.aux (match dget (m.section t).handlers (lineKey l.1) with | some h => h | none => _))
  cases hd : dget (m.section t).handlers (lineKey l.1) with
  | some h => exact hk.known _ h hd
  | none =>
    have := hk.new (lineKey l.1) l hd (by simp)
    rw [this]
    exact ⟨.refl _, by dsimp only; rw [mkHandler_aux]; exact kept_empty⟩

theorem Known.step {idOf : Str → Handler} {s : Section} {l : Line} {rest : List Line} (hk : Known idOf (l :: rest) s) {h : Handler} (hs : SameId h (idOf (lineKey l.1)))
    (ha : Kept (fun _ => True) h.aux) : Known idOf rest (recorded s l.1 l.2 h) where
  known := by
    intro k h' he
    rw [dget_recorded] at he
    split at he
    · rename_i e; subst e; simp only [Option.some.injEq] at he; subst he; exact ⟨hs, ha⟩
    · exact hk.known k h' he
  new := by
    intro k l' he hf
    rw [dget_recorded] at he
    split at he
    · exact nomatch he
    · rename_i e
      exact hk.new k l' he (by rw [List.find?_cons, show (lineKey l.1 == k) = false from by simpa using e]; exact hf)

theorem processLines_about {env related t} (idOf : Str → Handler) (hsort : ∀ k, Sorted (idOf k)) {ls : List Line} {m m' : Msg} {o : Nat}
    (hr : Ready env t m) (hm : m.defaults = mtDefaults mt) (hk : Known idOf ls (m.section t)) (h : processLines env related t ls o m = (m', .ok ())) :
    ∃ added, m'.notes = m.notes ++ added ∧ ∀ x ∈ added, ∃ p ∈ numbered m.kind o ls, LineAbout mt (fun k => (idOf k).canonicalName) (fun k => (idOf k).category) p x := by
  induction ls generalizing o m with
  | nil =>
    simp only [processLines, Prod.mk.injEq] at h
    exact ⟨[], by simp [h.1], fun x hx => nomatch hx⟩
  | cons l ls ih =>
    unfold processLines at h
    split at h
    · simp at h
    · rename_i m1 o1 heq
      have hr1 : Ready env t m1 := by have := hr.line (related := related) o l; rwa [heq] at this
      have hx1 : Ext t m m1 := by have := processLine_ext env related t m o l; rwa [heq] at this
      have hm1 : m1.defaults = mtDefaults mt := by rw [ext_defaults hx1]; exact hm
      obtain ⟨hid, haux⟩ := lineHandler_known hk
      have hfid : (lineHandler t m l.1).fid = classOf (decodeName l.1) := (hr.ids.handler (decodeName l.1)).1
      have hsrt : Sorted (lineHandler t m l.1) := by unfold Sorted; rw [hid.fid, hid.cat]; exact hsort _
      have hf : Fits (m.adder (offsetSubject o) [(str "field_name", .str (lineHandler t m l.1).canonicalName)]) mt (lineHandler t m l.1).canonicalName (offsetSubject o) none :=
        adder_fits hm _ _
      have hc := preCheck_about (lineHandler t m l.1) m.kind hf
      have hcid := preCheck_id (lineHandler t m l.1) m.kind (m.adder (offsetSubject o) [(str "field_name", .str (lineHandler t m l.1).canonicalName)])
      have hcaux : (lineCheck t m o l.1).1.aux = (lineHandler t m l.1).aux := preCheck_aux ..
      change SameId (lineCheck t m o l.1).1 _ at hcid
      change Abouts mt _ _ _ _ none (lineCheck t m o l.1).2.2 at hc
      have lift : ∀ {ns}, Abouts mt (lineHandler t m l.1).canonicalName (lineHandler t m l.1).category (lineHandler t m l.1).fid (offsetSubject o) none ns →
          ∀ x ∈ ns, LineAbout mt (fun k => (idOf k).canonicalName) (fun k => (idOf k).category) (o, l) x := by
        intro ns hns x hx
        have := hns x hx
        rw [hfid, hid.canon, hid.cat] at this
        exact .inl this
      have henc := encNotes_about hm o l.1 l.2 (fun k => (idOf k).canonicalName) (fun k => (idOf k).category)
      -- what the line adds, and the section afterwards
      have hline : ∃ a1, m1.notes = m.notes ++ a1 ∧ (∀ x ∈ a1, LineAbout mt (fun k => (idOf k).canonicalName) (fun k => (idOf k).category) (o, l) x) ∧ Known idOf ls (m1.section t) ∧
          o1 = if accepted m.kind l then o + 1 else o := by
        have ho := (processLine_notes hr heq).1
        obtain ⟨name, value⟩ := l
        rw [processLine_eq] at heq
        split at heq
        · simp only [Prod.mk.injEq, Except.ok.injEq] at heq
          obtain ⟨rfl, rfl⟩ := heq
          refine ⟨encNotes m o name value ++ (lineCheck t m o name).2.2, by unfold lineMid; cases t <;> rfl, ?_, ?_, ho⟩
          · intro x hx
            rcases List.mem_append.1 hx with hx | hx
            · exact henc x hx
            · exact lift hc x hx
          · unfold lineMid
            rw [section_addNotes, section_setSection]
            exact hk.step (hcid.trans hid) (by rw [hcaux]; exact haux)
        · dsimp only at heq
          have hin := handleInput_about (mt := mt) ⟨env, lineMid t m o name value, related⟩ (by unfold lineMid; cases t <;> exact hm) (lineCheck t m o name).1
            (by unfold Sorted; rw [hcid.fid, hcid.cat]; exact hsrt) (by rw [hcaux]; exact haux) value o
          have hinid := handleInput_id ⟨env, lineMid t m o name value, related⟩ (lineCheck t m o name).1 value o
          change Kept _ (lineInput env related t m o name value).1.aux ∧ Abouts _ _ _ _ _ _ (lineInput env related t m o name value).2.notes at hin
          change SameId (lineInput env related t m o name value).1 _ at hinid
          rw [hcid.canon, hcid.cat, hcid.fid] at hin
          generalize lineInput env related t m o name value = hw at *
          split at heq
          · simp at heq
          · simp only [Prod.mk.injEq, Except.ok.injEq] at heq
            obtain ⟨rfl, rfl⟩ := heq
            refine ⟨(encNotes m o name value ++ (lineCheck t m o name).2.2 ++ hw.2.notes) ++ bigNotes m o name value hw.1, by cases t <;> simp [Msg.addNotes, Msg.setSection], ?_, ?_, ho⟩
            · intro x hx
              rcases List.mem_append.1 hx with hx | hx
              · rcases List.mem_append.1 hx with hx | hx
                · rcases List.mem_append.1 hx with hx | hx
                  · exact henc x hx
                  · exact lift hc x hx
                · exact lift hin.2 x hx
              · refine lift ?_ x hx
                have := bigNotes_about (cat := (lineHandler t m name).category) (f := (lineHandler t m name).fid) hm o name value hw.1
                rw [hinid.canon, hcid.canon] at this
                exact this
            · simp only [section_addNotes, section_setSection]
              exact hk.step (hinid.trans (hcid.trans hid)) hin.1
      obtain ⟨a1, e1, p1, k1, ho⟩ := hline
      obtain ⟨a2, e2, p2⟩ := ih hr1 hm1 k1 h
      refine ⟨a1 ++ a2, by rw [e2, e1, List.append_assoc], ?_⟩
      intro x hx
      rcases List.mem_append.1 hx with hx | hx
      · exact ⟨(o, l), by unfold numbered; exact List.mem_cons_self .., p1 x hx⟩
      · obtain ⟨p, hp, hh⟩ := p2 x hx
        rw [hx1.kind, ho] at hp
        exact ⟨p, by unfold numbered; exact List.mem_cons_of_mem _ hp, hh⟩

/-! ### the theorem -/

/-- the field is found again by the name it was stored under -/
theorem spelling_find {ls : List Line} {k : Str} {l : Line} (h : ls.find? (fun l => lineKey l.1 == k) = some l) : spelling ls k = decodeName l.1 := by
  unfold spelling; rw [h]; rfl

theorem mem_numbered_key {kind : MsgKind} {o : Nat} {ls : List Line} {p : Nat × Line} (hp : p ∈ numbered kind o ls) : p.2 ∈ ls := by
  induction ls generalizing o with
  | nil => exact nomatch hp
  | cons l ls ih =>
    unfold numbered at hp
    rcases List.mem_cons.1 hp with rfl | hp
    · exact List.mem_cons_self ..
    · exact List.mem_cons_of_mem _ (ih hp)

theorem section_about {env related t} {ls : List Line} {m m' : Msg} {mt : Val} (P : Processed env related t ls m m') (hm : m.defaults = mtDefaults mt) :
    ∃ added, m'.notes = m.notes ++ added ∧ ∀ x ∈ added,
      (∃ p ∈ numbered m.kind 0 ls, LineAbout mt (fun n => shownName (spelling ls n)) (fun n => shownCategory (spelling ls n)) p x) ∨
      (∃ n ∈ namesOf ls, AboutField mt (shownName (spelling ls n)) (shownCategory (spelling ls n)) (classOf n)
        (str "field-" ++ lower (shownName (spelling ls n))) (some (fieldType t)) x) ∨
      SizeAbout mt t x := by
  have hr := P.linting.ready t
  obtain ⟨lineNotes, sizeNotes, ctx, h1, _, h3, h4, h5, _⟩ := section_outcome_full hr P.new P.ok
  have hok : processLines env related t ls 0 m = ((processLines env related t ls 0 m).1, .ok ()) := by
    have := P.ok
    unfold processSection at this
    split at this
    · simp at this
    · rename_i hh; rw [hh]
  let idOf : Str → Handler := fun k => mkHandler (classOf (spelling ls k)) (spelling ls k)
  obtain ⟨added, e1, p1⟩ := processLines_about (mt := mt) idOf (fun k => (mkHandler_shown _).2.2) hr hm
    ⟨by rw [P.new]; intro k h he; exact (nomatch he), by intro k l _ hf; dsimp only [idOf]; rw [spelling_find hf]⟩ hok
  have hln : added = lineNotes := List.append_cancel_left (e1.symm.trans h1)
  subst hln
  refine ⟨_, h5, ?_⟩
  intro x hx
  rcases List.mem_append.1 hx with hx | hx
  · rcases List.mem_append.1 hx with hx | hx
    · obtain ⟨p, hp, hh⟩ := p1 x hx
      refine .inl ⟨p, hp, ?_⟩
      unfold LineAbout at hh ⊢
      dsimp only [idOf] at hh
      rw [(mkHandler_shown _).1, (mkHandler_shown _).2.1] at hh
      exact hh
    · rw [h3] at hx
      refine .inr (.inr ?_)
      have hx1 : Ext t m (processLines env related t ls 0 m).1 := processLines_ext ..
      have hm1 := (ext_defaults hx1).trans hm
      unfold sectionSizeNotes at hx
      dsimp only at hx
      split at hx
      · rw [List.mem_singleton] at hx
        subst hx
        refine ⟨rfl, rfl, rfl, ?_, ?_, rfl⟩
        all_goals
          show dget (dupdate (processLines env related t ls 0 m).1.defaults _) _ = _
          rw [hm1]; simp [mtDefaults, Msg.adder, dupdate, dset, dget]
      · exact nomatch hx
  · obtain ⟨n, hn, hx⟩ := List.mem_flatMap.1 hx
    have hcls : classOf (spelling ls n) = classOf n := classOf_lower (by rw [lower_spelling hn]; unfold namesOf at hn; rw [mem_dedup, List.mem_map] at hn; obtain ⟨l, _, rfl⟩ := hn; exact (lower_lower _).symm)
    have hd := (h4 n hn).1
    have hcm : (ctx n).msg.defaults = mtDefaults mt := (ext_defaults hd.ext).trans hm
    -- the handler
    have hh : SameId (readHandler ⟨env, m, related⟩ ls n) (idOf n) ∧ Kept (fun _ => True) (readHandler ⟨env, m, related⟩ ls n).aux ∧
        ((readHandler ⟨env, m, related⟩ ls n).fid.info.kind = .broken → (readHandler ⟨env, m, related⟩ ls n).aux = {} ∧
          ∀ q ∈ (readHandler ⟨env, m, related⟩ ls n).raw, ∃ p ∈ numbered m.kind 0 ls, lineKey p.2.1 = n ∧ p.1 = q.2) := by
      unfold readHandler handlerFor
      dsimp only
      split
      · refine ⟨fed_id _ _ _, fed_kept _ _ _ hm, ?_⟩
        intro hk
        rw [(fed_id _ _ _).fid, mkHandler_fid] at hk
        rw [fed_broken hk]
        refine ⟨by show (mkHandler _ _).aux = _; rw [mkHandler_aux], ?_⟩
        intro q hq
        obtain ⟨p, hp, rfl⟩ := List.mem_map.1 hq
        unfold sent at hp
        obtain ⟨p', hp', rfl⟩ := List.mem_map.1 hp
        unfold linesOf at hp'
        rw [List.mem_filter] at hp'
        exact ⟨p', hp'.1, by simpa using hp'.2, rfl⟩
      · refine ⟨checked_id _ _, ?_, fun _ => ⟨?_, ?_⟩⟩
        · unfold checked; split <;> (show Kept _ (mkHandler _ _).aux; rw [mkHandler_aux]; exact kept_empty)
        · unfold checked; split <;> (show (mkHandler _ _).aux = _; rw [mkHandler_aux])
        · unfold checked; split <;> (show ∀ q ∈ (mkHandler _ _).raw, _; rw [mkHandler_raw]; exact fun q hq => nomatch hq)
    generalize readHandler ⟨env, m, related⟩ ls n = hd1 at *
    obtain ⟨hid, hkept, hbr⟩ := hh
    have hfin := finish_about (mt := mt) (ctx n) hcm hd1 (fieldAdder_fits hm t hd1) (by unfold Sorted; rw [hid.fid, hid.cat]; exact (mkHandler_shown _).2.2) hkept (fun hk => (hbr hk).1) x hx
    unfold FinishAbout at hfin
    rw [hid.canon, hid.cat, hid.fid] at hfin
    dsimp only [idOf] at hfin
    rw [(mkHandler_shown _).1, (mkHandler_shown _).2.1, mkHandler_fid, hcls] at hfin
    rcases hfin with hfin | ⟨hk, q, hq, hfin⟩
    · exact .inr (.inl ⟨n, hn, hfin⟩)
    · obtain ⟨p, hp, hpn, hpo⟩ := (hbr (by rw [hid.fid]; dsimp only [idOf]; rw [mkHandler_fid, hcls]; exact hk)).2 q hq
      refine .inl ⟨p, hp, .inl ?_⟩
      rw [hpn, hpo, show classOf (decodeName p.2.1) = classOf n from classOf_lower (by rw [← hpn]; exact (lower_lower _).symm)]
      exact hfin

/-- **C111**: every note that a processed section adds is about one of its lines, one of its fields or the section; it
names the field the way it is shown (as first spelt, if it has no other form), the section and the message; its category
is that of its class or of the field -/
theorem C111_context {env : Env} {related : Option Msg} {t : Bool} {ls : List Line} {m m' : Msg} (P : Processed env related t ls m m') :
    let mt : Val := .str (env.render.translate m.kind.name)
    ∃ added, m'.notes = m.notes ++ added ∧ ∀ x ∈ added,
      (∃ p ∈ numbered m.kind 0 ls, LineAbout mt (fun n => shownName (spelling ls n)) (fun n => shownCategory (spelling ls n)) p x) ∨
      (∃ n ∈ namesOf ls, AboutField mt (shownName (spelling ls n)) (shownCategory (spelling ls n)) (classOf n)
        (str "field-" ++ lower (shownName (spelling ls n))) (some (fieldType t)) x) ∨
      SizeAbout mt t x :=
  section_about P P.linting.defaults

/-- every note a linter is given tells the kind of message, in the user's language -/
theorem C111_message_type {env : Env} {m : Msg} (h : Linting env m) : m.defaults = [(str "message_type", .str (env.render.translate m.kind.name))] :=
  h.defaults

/-! ### examples -/

/-- what the notes of a section say they are about -/
def contexts (env : Env) (kind : MsgKind) (t : Bool) (ls : List Line) : List (NoteId × Str × Option Val × Option Val × Cat) :=
  (processSection env none t ls (fresh env kind none false false)).1.notes.map fun x =>
    (x.cls, x.subject, dget x.vars (str "field_name"), dget x.vars (str "field_type"), x.category)

/-- octets outside ASCII are reported with the spelling of the line; known fields are shown in their usual form -/
example : contexts toyEnv .response true [(str "X-foo", [200]), (str "x-FOO", [201]), (str "AGE", str "-1"), (str "TCN", str "choice")] =
    [(.FIELD_VALUE_ENCODING, str "offset-0", some (.str (str "X-foo")), none, .GENERAL),
     (.FIELD_VALUE_ENCODING, str "offset-1", some (.str (str "x-FOO")), none, .GENERAL),
     (.UNNECESSARY_HEADER, str "offset-3", some (.str (str "TCN")), none, .GENERAL),
     (.AGE_NEGATIVE, str "field-age", some (.str (str "Age")), some (.str (str "trailer")), .CACHING)] := by decide +kernel

/-- problems with syntax are put in the category of a list field, but not of one that allows a single value -/
example : contexts toyEnv .response false [(str "vary", str "a b"), (str "etag", str "x"), (str "cookie", str "a=b")] =
    [(.BAD_SYNTAX_DETAILED, str "offset-0", some (.str (str "Vary")), none, .CACHING),
     (.REQUEST_HDR_IN_RESPONSE, str "offset-2", some (.str (str "Cookie")), none, .COOKIES),
     (.BAD_SYNTAX, str "field-etag", some (.str (str "ETag")), some (.str (str "header")), .GENERAL)] := by decide +kernel

/-- the hypotheses of the theorem are met -/
example : Processed toyEnv none false [(str "vary", str "a b")] (fresh toyEnv .response none false false)
    (processSection toyEnv none false [(str "vary", str "a b")] (fresh toyEnv .response none false false)).1 :=
  ⟨⟨_, ⟨.response, none, false, false, none, [], rfl⟩, .inl rfl⟩, rfl, by
    have : (processSection toyEnv none false [(str "vary", str "a b")] (fresh toyEnv .response none false false)).2 = .ok () := by kernel_rfl
    exact Prod.ext rfl this⟩

end HL.Props
