import Verif.Props.ContextThm
import Verif.Props.FieldThm

/-!
# C112: what a section's notes on lines and syntax say

All notes of the base classes and of the section itself (not those of a field's own code), in the order in which they are
added, with what they are about and all that they say. What they name (field, section, message) is C111.
-/

namespace HL.Props
open HL.F

/-! ### specification -/

/-- is the note added by the section or a base class, not by the code of one field? -/
def outer (n : Note) : Bool := n.cls.origin != .field

/-- the variables of a note that do not tell where it comes from -/
def ownVars (n : Note) : Dict Val := n.vars.filter fun p => !contextKeys.contains p.1

/-- what a note says: its class, what it is about and its variables -/
def said (n : Note) : NoteId × Str × Dict Val := (n.cls, n.subject, ownVars n)

/-- where a field is specified -/
def shownReference (name : Str) : Str :=
  match classOf name with
  | .deprecatedField => ((deprecatedTable.find? fun p => p.1 == lower (strip name)).map fun p => p.2.2.2).getD FieldId.deprecatedField.info.reference
  | f => f.info.reference

/-- at most `w` characters of a text on either side of a place in it, as a block with a pointer to that place -/
def excerpt (w : Nat) (text : Str) (i : Nat) : Str :=
  [10, 10] ++ str "    " ++ (text.take (i + w)).drop (i - w) ++ [10] ++ str "    " ++ List.replicate (min i w) 32 ++ str "^"

/-- what is wrong with an element: the first character that the grammar does not allow -/
def wrongCharacter (text : Str) (i : Nat) (c : Nat) : Str :=
  str "The invalid character '" ++ [c] ++ str "' was found at position " ++ dec (i + 1) ++ str ":" ++ excerpt 20 text i

/-- the note on the syntax of an element of a list field -/
def elementSaid (f : FieldId) (ref : Str) (v : Str) : List (NoteId × Dict Val) :=
  match f.info.syn with
  | none => []
  | some r =>
    if matchSpaced r v then []
    else match matchPrefix r v with
      | some i => [(.BAD_SYNTAX_DETAILED, [(str "ref_uri", .str ref), (str "value", .str v), (str "problem", .str (wrongCharacter v i (v[i]?.getD 0)))])]
      | none => if f.info.reportSyntax then [(.BAD_SYNTAX, [(str "ref_uri", .str ref)])] else []

/-- the notes on a line -/
def lineSaid (kind : MsgKind) (l : Line) : List (NoteId × Dict Val) :=
  let name := decodeName l.1
  (if l.1.any (· ≥ 128) then [(.FIELD_NAME_ENCODING, [])] else []) ++
  (if l.2.any (· ≥ 128) then [(.FIELD_VALUE_ENCODING, [])] else []) ++
  (if !(classOf name).validIn kind then
     [(match kind with | .request => .RESPONSE_HDR_IN_REQUEST | .response => .REQUEST_HDR_IN_RESPONSE, [])]
   else if !isToken (strip name) then [(.FIELD_NAME_BAD_SYNTAX, [])]
   else
     (if isDeprecated (classOf name) then [(.FIELD_DEPRECATED, [(str "deprecation_ref", .str (shownReference name))])] else []) ++
     (if (classOf name).info.kind = .list then (splitListField l.2).flatMap (elementSaid (classOf name) (shownReference name)) else []) ++
     (if l.1.length + l.2.length > 8192 then [(.FIELD_TOO_LARGE, [(str "field_size", .str (dec (l.1.length + l.2.length)))])] else []))

/-- the note on the size of a section -/
def sizeSaid (ls : List Line) : List (NoteId × Str × Dict Val) :=
  if totalSize ls > 32768 then [(.FIELD_SECTION_TOO_LARGE, str "field-block", [(str "section_size", .str (dec (totalSize ls)))])] else []

/-- the notes on keys that occur more than once -/
def duplicatesSaid (d : List (Str × Str)) : List (NoteId × Dict Val) :=
  d.map fun p => (.DUPLICATE_KEY, [(str "key", .str p.1), (str "context", .str p.2)])

/-- the notes on a field's lines as a whole -/
def fieldSaid (env : Env) (f : FieldId) (ref subj : Str) (ps : List (Nat × Str)) : List (NoteId × Str × Dict Val) :=
  match f.info.kind with
  | .singleton =>
    (if ps.length > 1 then [(.SINGLE_HEADER_REPEAT, subj, [])] else []) ++
    (match ps with
     | p :: _ => if inGrammar f p.2 then [] else if f.info.reportSyntax then [(.BAD_SYNTAX, subj, [(str "ref_uri", .str ref)])] else []
     | [] => [])
  | .broken => (ps.filter fun p => !inGrammar f p.2).map fun p => (.BAD_SYNTAX, offsetSubject p.1, [(str "ref_uri", .str ref)])
  | .sf t =>
    let text := strip (join (str ", ") (ps.map (·.2)))
    let about := List.map fun (p : NoteId × Dict Val) => (p.1, subj, p.2)
    let failed (problem context : Str) : NoteId × Dict Val := (.STRUCTURED_FIELD_PARSE_ERROR, [(str "problem", .str problem), (str "context", .str context)])
    (match env.sfParse t text with
     | .ok _ d => about (duplicatesSaid d)
     | .sfError p i d => about (duplicatesSaid d ++ [failed p (i.elim [] (excerpt 35 text))])
     | .error p d => about (duplicatesSaid d ++ [failed p []]))
  | .json =>
    (match env.jsonLoads (str "[" ++ join (str ", ") (ps.map (·.2)) ++ str "]") with
     | .decodeError e => [(.BAD_JSON, subj, [(str "error", .str e)])]
     | _ => [])
  | _ => []

/-! ### proof: variables -/

theorem filter_dset (p : Str → Bool) {β} (d : Dict β) (k : Str) (v : β) :
    (dset d k v).filter (fun q => p q.1) = if p k then dset (d.filter fun q => p q.1) k v else d.filter fun q => p q.1 := by
  induction d with
  | nil => unfold dset; cases h : p k <;> simp [h, dset]
  | cons q d ih =>
    obtain ⟨k', v'⟩ := q
    unfold dset
    by_cases hk : k' = k
    · subst hk
      rw [if_pos rfl]
      cases h : p k' <;> simp [h, dset]
    · rw [if_neg hk]
      simp only [List.filter_cons, ih]
      cases h : p k <;> cases h' : p k' <;> simp
      rw [dset.eq_def]
      simp [hk]

theorem filter_dupdate (p : Str → Bool) {β} (e d : Dict β) :
    (dupdate d e).filter (fun q => p q.1) = dupdate (d.filter fun q => p q.1) (e.filter fun q => p q.1) := by
  induction e generalizing d with
  | nil => rfl
  | cons q e ih =>
    obtain ⟨k, v⟩ := q
    rw [dupdate_cons, ih, filter_dset]
    cases h : p k <;> simp [h, dupdate_cons]

theorem dset_fresh {β} (d : Dict β) (k : Str) (v : β) (h : k ∉ d.map (·.1)) : dset d k v = d ++ [(k, v)] := by
  induction d with
  | nil => rfl
  | cons q d ih =>
    simp only [List.map_cons, List.mem_cons, not_or] at h
    unfold dset
    rw [if_neg (fun e => h.1 e.symm), ih h.2]; rfl

theorem dupdate_fresh {β} (e d : Dict β) (h : (d.map (·.1) ++ e.map (·.1)).Nodup) : dupdate d e = d ++ e := by
  induction e generalizing d with
  | nil => simp
  | cons q e ih =>
    obtain ⟨k, v⟩ := q
    have hk : k ∉ d.map (·.1) := by
      intro hk
      rw [List.nodup_append] at h
      exact h.2.2 k hk k (by simp) rfl
    rw [dupdate_cons, dset_fresh d k v hk, ih]
    · simp
    · simpa using h

/-- `add` only adds the context -/
def CtxOnly (add : AddNote) : Prop := (add.defaults.filter fun p => !contextKeys.contains p.1) = [] ∧ (add.base.filter fun p => !contextKeys.contains p.1) = []

theorem said_mk1 {add : AddNote} (h : CtxOnly add) {cls : NoteId} {vrs : Dict Val} {c} (hv : free (vrs.map (·.1)) = true) (hn : (vrs.map (·.1)).Nodup) :
    said (add.mk1 cls vrs c) = (cls, add.subject, vrs) := by
  have hf : (vrs.filter fun p => !contextKeys.contains p.1) = vrs := by
    rw [List.filter_eq_self]
    intro p hp
    exact List.all_eq_true.1 hv p.1 (List.mem_map.2 ⟨p, hp, rfl⟩)
  unfold said ownVars
  congr 2
  show (dupdate add.defaults (dupdate add.base vrs)).filter _ = _
  rw [filter_dupdate (fun k => !contextKeys.contains k), filter_dupdate (fun k => !contextKeys.contains k), h.1, h.2, hf, dupdate_fresh vrs [] (by simpa using hn)]
  exact dupdate_fresh vrs [] (by simpa using hn)

theorem ctx_mt (mt : Val) : ((mtDefaults mt).filter fun p => !contextKeys.contains p.1) = [] := by
  rfl

theorem ctx_name (v : Val) : (([(str "field_name", v)] : Dict Val).filter fun p => !contextKeys.contains p.1) = [] := rfl

theorem offsetAdd_ctx (h : Handler) {d : Dict Val} {mt : Val} (hd : d = mtDefaults mt) (o : Nat) : CtxOnly (h.offsetAdd d o) := by
  subst hd; exact ⟨rfl, rfl⟩

theorem adder_ctx {m : Msg} {mt : Val} (hm : m.defaults = mtDefaults mt) (s : Str) (v : Val) : CtxOnly (m.adder s [(str "field_name", v)]) := by
  refine ⟨?_, rfl⟩
  show m.defaults.filter _ = _
  rw [hm]; rfl

theorem fieldAdder_ctx {m : Msg} {mt : Val} (hm : m.defaults = mtDefaults mt) (t : Bool) (h : Handler) : CtxOnly (m.fieldAdder t h) := by
  refine ⟨?_, rfl⟩
  show m.defaults.filter _ = _
  rw [hm]; rfl

theorem fieldNote_notOuter {n} (h : FieldNote n) : outer n = false := by
  unfold outer; rw [h.2]; rfl

theorem filter_notOuter {ns : List Note} (h : ∀ n ∈ ns, FieldNote n) : ns.filter outer = [] := by
  rw [List.filter_eq_nil_iff]
  intro n hn
  rw [fieldNote_notOuter (h n hn)]; decide

theorem said_one {add : AddNote} (h : CtxOnly add) {cls : NoteId} {vrs cat} (ho : (cls.origin != .field) = true) (hv : free (vrs.map (·.1)) = true) (hn : (vrs.map (·.1)).Nodup) :
    (([add.mk1 cls vrs cat] : List Note).filter outer).map said = [(cls, add.subject, vrs)] := by
  rw [List.filter_cons_of_pos (by unfold outer; rw [AddNote.mk1_cls]; exact ho), List.map_cons, said_mk1 h hv hn]; rfl

/-! ### proof: references -/

theorem mkHandler_reference (name : Str) : (mkHandler (classOf name) name).reference = shownReference name := by
  unfold mkHandler shownReference
  dsimp only
  generalize classOf name = f
  generalize deprecatedTable.find? (fun p => p.1 == lower (strip name)) = o
  by_cases hf : f = .deprecatedField
  · subst hf
    cases o with
    | none => rfl
    | some p => rfl
  · split
    · exact absurd rfl hf
    · split
      · exact absurd rfl hf
      · rfl

theorem shownReference_lower {a b : Str} (h : lower a = lower b) : shownReference a = shownReference b := by
  unfold shownReference
  rw [classOf_lower h, ← strip_lower, ← strip_lower, h]

/-! ### proof: lines -/

theorem syntaxProblem_eq {v : Str} {i : Nat} {p : Str} (h : syntaxProblem v i = .ok p) : p = wrongCharacter v i (v[i]?.getD 0) := by
  unfold syntaxProblem at h
  split at h
  · exact nomatch h
  · rename_i ch hch
    simp only [Except.ok.injEq] at h
    rw [← h, hch]
    unfold wrongCharacter excerpt
    have e1 : v.take (min v.length (i + 20)) = v.take (i + 20) := by
      rw [Nat.min_def]; split
      · rename_i hl; rw [List.take_length, List.take_of_length_le hl]
      · rfl
    have e2 : i - (i - 20) = min i 20 := by omega
    rw [e1, e2]
    simp only [Option.getD_some, List.append_assoc]

theorem elementSyntax_said (h : Handler) {add : AddNote} (hc : CtxOnly add) (v : Str) (hr : (h.elementSyntax add v).res = .ok ()) :
    ((h.elementSyntax add v).notes.filter outer).map said = (elementSaid h.fid h.reference v).map fun p => (p.1, add.subject, p.2) := by
  unfold Handler.elementSyntax elementSaid at *
  cases hs : h.fid.info.syn with
  | none => rfl
  | some r =>
    simp only [hs] at hr ⊢
    by_cases hm : matchSpaced r v = true
    · rw [if_pos hm, if_pos hm]; rfl
    · rw [if_neg hm] at hr
      rw [if_neg hm, if_neg hm]
      cases hp : matchPrefix r v with
      | none =>
        simp only
        unfold W.when
        split
        · exact said_one hc rfl rfl (by show ([str "ref_uri"] : List Str).Nodup; decide)
        · rfl
      | some i =>
        simp only [hp] at hr ⊢
        cases hq : syntaxProblem v i with
        | error e => rw [hq] at hr; simp [W.bind_def, W.bind, W.lift] at hr
        | ok p =>
          rw [← syntaxProblem_eq hq]
          exact said_one hc rfl rfl (by show ([str "ref_uri", str "value", str "problem"] : List Str).Nodup; decide)

theorem listLoop_said {add : AddNote} (hg : AddGood add keys0) (hc : CtxOnly add) (c : Ctx) (vs : List Str) :
    ∀ h : Handler, AuxOK h.aux → (h.listLoop c add vs).2.res = .ok () →
      ((h.listLoop c add vs).2.notes.filter outer).map said = (vs.flatMap (elementSaid h.fid h.reference)).map fun p => (p.1, add.subject, p.2) := by
  induction vs with
  | nil => intro h ha _; rfl
  | cons v vs ih =>
    intro h ha
    unfold Handler.listLoop
    have hs := elementSyntax_said h hc v
    dsimp only
    generalize h.elementSyntax add v = syn at *
    cases hr : syn.res with
    | error e => intro h; simp at h
    | ok u =>
      dsimp only
      specialize hs (by rw [hr])
      have hp := Handler.parse_ok hg c h ha (strip v)
      generalize h.parse c add (strip v) = p at *
      obtain ⟨aux, r⟩ := p
      dsimp only at *
      have fin : ∀ ns : List Note, (ns.filter outer).map said = ((vs.flatMap (elementSaid h.fid h.reference)).map fun p => (p.1, add.subject, p.2)) →
          (((syn.notes ++ r.notes) ++ ns).filter outer).map said = ((v :: vs).flatMap (elementSaid h.fid h.reference)).map fun p => (p.1, add.subject, p.2) := by
        intro ns hns
        rw [List.filter_append, List.filter_append, filter_notOuter hp.2, List.append_nil, List.map_append, hs, hns, List.flatMap_cons, List.map_append]
      cases hr2 : r.res with
      | error e =>
        dsimp only
        split
        · intro hok; exact fin _ (ih { h with aux } hp.1 hok)
        · intro h; simp at h
      | ok x =>
        dsimp only
        cases ha2 : ({ h with aux } : Handler).append x with
        | error e => intro h; simp at h
        | ok h' =>
          have ha' : AuxOK h'.aux := by rw [append_aux ha2]; exact hp.1
          have hid := append_id ha2
          intro hok
          have := ih h' ha' hok
          rw [hid.fid, hid.ref] at this
          exact fin _ this

theorem handleInput_said (c : Ctx) {mt : Val} (hm : c.msg.defaults = mtDefaults mt) (h : Handler) (ha : AuxOK h.aux) (v : Str) (o : Nat)
    (hr : (h.handleInput c v o).2.res = .ok ()) :
    ((h.handleInput c v o).2.notes.filter outer).map said =
      (if h.fid.info.kind = .list then (splitListField v).flatMap (elementSaid h.fid h.reference) else []).map fun p => (p.1, offsetSubject o, p.2) := by
  have hmt : HasMT c.msg.defaults := by rw [hm]; rfl
  unfold Handler.handleInput at *
  split at hr <;> rename_i hk <;> rw [hk] <;> (try dsimp only)
  · rw [if_pos rfl]; exact listLoop_said (offsetAdd_good hmt h o) (offsetAdd_ctx h hm o) c _ h ha hr
  · rfl
  · rfl
  · split <;> rfl
  · split <;> rfl
  · rfl

theorem preCheck_said (h : Handler) (kind : MsgKind) {add : AddNote} (hc : CtxOnly add) :
    ((h.preCheck kind add).2.2.filter outer).map said =
      (if !h.fid.validIn kind then
        [((match kind with | .request => .RESPONSE_HDR_IN_REQUEST | .response => .REQUEST_HDR_IN_RESPONSE : NoteId), add.subject, [])]
      else if !isToken h.wireName then [(.FIELD_NAME_BAD_SYNTAX, add.subject, [])]
      else if isDeprecated h.fid then [(.FIELD_DEPRECATED, add.subject, [(str "deprecation_ref", .str h.reference)])] else []) := by
  unfold Handler.preCheck
  by_cases hv : h.fid.validIn kind = true
  · by_cases ht : isToken h.wireName = true
    · simp only [hv, ht, Bool.not_true, Bool.false_eq_true, if_false]
      split
      · rename_i hf
        rw [hf]
        exact said_one (cat := some h.category) (cls := .FIELD_DEPRECATED) (vrs := [(str "deprecation_ref", .str h.reference)]) hc rfl rfl (by show ([str "deprecation_ref"] : List Str).Nodup; decide)
      · rename_i hf
        have : isDeprecated h.fid = h.fid.info.deprecated := by
          unfold isDeprecated
          have : (h.fid == .deprecatedField) = false := by simpa using hf
          rw [this, Bool.false_or]
        rw [this]
        dsimp only
        split
        · exact said_one hc rfl rfl (by show ([str "deprecation_ref"] : List Str).Nodup; decide)
        · rfl
    · simp only [Bool.not_eq_true] at ht
      simp only [hv, ht, Bool.not_true, Bool.false_eq_true, if_false, Bool.not_false, if_true]
      exact said_one hc rfl rfl List.nodup_nil
  · simp only [Bool.not_eq_true] at hv
    simp only [hv, Bool.not_false, if_true]
    cases kind <;> exact said_one hc rfl rfl List.nodup_nil

theorem encNotes_said {m : Msg} {mt : Val} (hm : m.defaults = mtDefaults mt) (o : Nat) (name value : Str) :
    ((encNotes m o name value).filter outer).map said =
      (((if name.any (· ≥ 128) then [(.FIELD_NAME_ENCODING, [])] else []) ++
        (if value.any (· ≥ 128) then [(.FIELD_VALUE_ENCODING, [])] else []) : List (NoteId × Dict Val))).map fun p => (p.1, offsetSubject o, p.2) := by
  have key : ∀ cls : NoteId, said ((m.adder (offsetSubject o)).mk1 cls [(str "field_name", .str (decodeName name))]) = (cls, offsetSubject o, []) := by
    intro cls
    unfold said ownVars
    show (cls, offsetSubject o, (dupdate m.defaults _).filter _) = _
    rw [hm]; rfl
  unfold encNotes nonAscii
  split <;> split
  · show [said _, said _] = _; rw [key, key]; rfl
  · show [said _] = _; rw [key]; rfl
  · show [said _] = _; rw [key]; rfl
  · rfl

theorem bigNotes_said {m : Msg} {mt : Val} (hm : m.defaults = mtDefaults mt) (o : Nat) (name value : Str) (h : Handler) :
    ((bigNotes m o name value h).filter outer).map said =
      (if name.length + value.length > 8192 then [(NoteId.FIELD_TOO_LARGE, [(str "field_size", Val.str (dec (name.length + value.length)))])] else []).map fun p => (p.1, offsetSubject o, p.2) := by
  unfold bigNotes maxFieldSize
  split
  · show [said _] = _
    unfold said ownVars
    show [(_, offsetSubject o, (dupdate m.defaults _).filter _)] = _
    rw [hm]; rfl
  · rfl

theorem processLine_said {env related t} {m m' : Msg} {o o' : Nat} {l : Line} {mt : Val} (hr : Ready env t m) (hm : m.defaults = mtDefaults mt)
    (h : processLine env related t m o l = (m', .ok o')) :
    ∃ added, m'.notes = m.notes ++ added ∧ (added.filter outer).map said = (lineSaid m.kind l).map fun p => (p.1, offsetSubject o, p.2) := by
  obtain ⟨name, value⟩ := l
  have hid := hr.ids.handler (decodeName name)
  have href : (lineHandler t m name).reference = shownReference (decodeName name) := by
    obtain ⟨n, e, sid⟩ := hr.ids.find (decodeName name)
    show (findHandler _ _).reference = _
    rw [sid.ref, mkHandler_reference, shownReference_lower e]
  have hp := preCheck_said (lineHandler t m name) m.kind (adder_ctx hm (offsetSubject o) (.str (lineHandler t m name).canonicalName))
  have hps := (preCheck_shape (lineHandler t m name) m.kind (m.adder (offsetSubject o) [(str "field_name", .str (lineHandler t m name).canonicalName)])).1
  have hfid : (lineHandler t m name).fid = classOf (decodeName name) := hid.1
  have htok : isToken (lineHandler t m name).wireName = isToken (strip (decodeName name)) := hid.2.1
  change ((lineCheck t m o name).2.2.filter outer).map said = _ at hp
  change (lineCheck t m o name).2.1 = _ at hps
  rw [hfid, htok, href] at hp
  rw [hfid, htok] at hps
  rw [processLine_eq] at h
  by_cases hok : (lineCheck t m o name).2.1 = false
  · rw [if_pos hok] at h
    simp only [Prod.mk.injEq, Except.ok.injEq] at h
    obtain ⟨rfl, rfl⟩ := h
    refine ⟨encNotes m o name value ++ (lineCheck t m o name).2.2, by unfold lineMid; cases t <;> rfl, ?_⟩
    rw [List.filter_append, List.map_append, encNotes_said hm, hp]
    unfold lineSaid
    rw [hps] at hok
    by_cases hv : (classOf (decodeName name)).validIn m.kind = true
    · rw [hv] at hok
      simp only [Bool.true_and] at hok
      simp only [hv, hok, Bool.not_true, Bool.not_false, Bool.false_eq_true, if_false, if_true, List.map_cons, List.map_nil, List.map_append]
      rfl
    · simp only [Bool.not_eq_true] at hv
      simp only [hv, Bool.not_false, if_true, List.map_cons, List.map_nil, List.map_append]
      rfl
  · rw [if_neg hok] at h
    have hok' := eq_true_of_ne_false hok
    have hmid : (lineMid t m o name value).defaults = mtDefaults mt := by
      unfold lineMid; cases t <;> exact hm
    have haux : AuxOK (lineCheck t m o name).1.aux := by
      have h1 := (preCheck_ok (adder_good hr.mt (offsetSubject o) [(str "field_name", .str (lineHandler t m name).canonicalName)] keys0 rfl) m.kind (lineHandler t m name)).1
      have h2 := findHandler_ok hr.sec (decodeName name)
      unfold lineCheck
      rw [h1]
      exact h2
    have hi := handleInput_said ⟨env, lineMid t m o name value, related⟩ hmid (lineCheck t m o name).1 haux value o
    have hcid : SameId (lineCheck t m o name).1 (lineHandler t m name) := preCheck_id _ _ _
    rw [hcid.fid, hfid, hcid.ref, href] at hi
    change (lineInput env related t m o name value).2.res = _ → ((lineInput env related t m o name value).2.notes.filter outer).map said = _ at hi
    dsimp only at h
    generalize lineInput env related t m o name value = hw at h hi
    obtain ⟨h2, w⟩ := hw
    dsimp only at h hi
    cases hres : w.res with
    | error e => rw [hres] at h; simp at h
    | ok u =>
      rw [hres] at h
      simp only [Prod.mk.injEq, Except.ok.injEq] at h
      obtain ⟨rfl, rfl⟩ := h
      refine ⟨(encNotes m o name value ++ (lineCheck t m o name).2.2 ++ w.notes) ++ bigNotes m o name value h2, ?_, ?_⟩
      · cases t <;> simp [Msg.addNotes, Msg.setSection]
      · simp only [List.filter_append, List.map_append, encNotes_said hm, bigNotes_said hm, hp, hi hres]
        unfold lineSaid
        rw [hps] at hok'
        simp only [Bool.and_eq_true] at hok'
        simp only [hok'.1, hok'.2, Bool.not_true, Bool.false_eq_true, if_false, List.map_append, List.append_assoc]
        congr 2
        congr 1
        split <;> rfl

theorem processLines_said {env related t} {ls : List Line} {m m' : Msg} {o : Nat} {mt : Val} (hr : Ready env t m) (hm : m.defaults = mtDefaults mt)
    (h : processLines env related t ls o m = (m', .ok ())) :
    ∃ added, m'.notes = m.notes ++ added ∧
      (added.filter outer).map said = (numbered m.kind o ls).flatMap fun p => (lineSaid m.kind p.2).map fun q => (q.1, offsetSubject p.1, q.2) := by
  induction ls generalizing o m with
  | nil =>
    simp only [processLines, Prod.mk.injEq] at h
    exact ⟨[], by simp [h.1], rfl⟩
  | cons l ls ih =>
    unfold processLines at h
    split at h
    · simp at h
    · rename_i m1 o1 heq
      have hx1 : Ext t m m1 := by have := processLine_ext env related t m o l; rwa [heq] at this
      have hr1 : Ready env t m1 := by have := hr.line (related := related) o l; rwa [heq] at this
      have ho := (processLine_notes hr heq).1
      obtain ⟨a1, e1, t1⟩ := processLine_said hr hm heq
      obtain ⟨a2, e2, t2⟩ := ih hr1 ((ext_defaults hx1).trans hm) h
      refine ⟨a1 ++ a2, by rw [e2, e1, List.append_assoc], ?_⟩
      rw [List.filter_append, List.map_append, t1, t2, hx1.kind, ho]
      rfl

/-! ### proof: the end of a field -/

theorem evalAfter_outer {add : AddNote} (hg : AddGood add keys1) (c ns) (h : Handler) (ha : AuxOK h.aux) :
    (h.evalAfter c add ns).2.notes.filter outer = ns.filter outer := by
  unfold Handler.evalAfter
  split
  · rfl
  · have he := Handler.evaluate_ok hg c h ha
    show (ns ++ (h.evaluate c add).2.notes).filter outer = _
    rw [List.filter_append, filter_notOuter he.2, List.append_nil]

theorem dupKey_said {add : AddNote} (hc : CtxOnly add) (d : List (Str × Str)) :
    ((dupKeyNotes add d).filter outer).map said = (duplicatesSaid d).map fun p => (p.1, add.subject, p.2) := by
  unfold dupKeyNotes duplicatesSaid
  induction d with
  | nil => rfl
  | cons p d ih =>
    rw [List.map_cons, List.map_cons, List.map_cons, ← ih, ← List.singleton_append, List.filter_append, List.map_append,
      said_one hc rfl rfl (by show ([str "key", str "context"] : List Str).Nodup; decide)]
    rfl

theorem sfContext_eq (text : Str) (i : Option Nat) : sfContext text i = i.elim [] (excerpt 35 text) := by
  cases i with
  | none => rfl
  | some i =>
    unfold sfContext excerpt contextChars
    have e1 : text.take (min text.length (i + 35)) = text.take (i + 35) := by
      rw [Nat.min_def]; split
      · rename_i hl; rw [List.take_length, List.take_of_length_le hl]
      · rfl
    have e2 : i - (i - 35) = min i 35 := by omega
    dsimp only [Option.elim]
    rw [e1, e2]
    simp only [List.append_assoc]

theorem brokenLoop_said (c : Ctx) {mt : Val} (hm : c.msg.defaults = mtDefaults mt) (rs : List (Str × Nat)) :
    ∀ (h : Handler) (acc : List Val), AuxOK h.aux → (∃ vs, (h.brokenLoop c rs acc).2.res = .ok vs) →
      ((h.brokenLoop c rs acc).2.notes.filter outer).map said =
        (rs.filter fun p => !inGrammar h.fid p.1).map fun p => (.BAD_SYNTAX, offsetSubject p.2, [(str "ref_uri", .str h.reference)]) := by
  have hmt : HasMT c.msg.defaults := by rw [hm]; rfl
  induction rs with
  | nil => intro h acc ha _; rfl
  | cons r rs ih =>
    obtain ⟨raw, o⟩ := r
    intro h acc ha
    unfold Handler.brokenLoop
    dsimp only
    have hg := offsetAdd_good hmt h o
    have hc := offsetAdd_ctx h hm o
    have hsub : (h.offsetAdd c.msg.defaults o).subject = offsetSubject o := rfl
    generalize h.offsetAdd c.msg.defaults o = add at *
    have hp := Handler.parse_ok hg c h ha (strip raw)
    generalize h.parse c add (strip raw) = p at *
    obtain ⟨aux, r⟩ := p
    dsimp only at *
    have hsyn : ((match h.fid.info.syn with
       | none => []
       | some r => if matchSpaced r raw then [] else [add.mk1 .BAD_SYNTAX [(str "ref_uri", .str h.reference)]]).filter outer).map said =
        if inGrammar h.fid raw then [] else [(.BAD_SYNTAX, offsetSubject o, [(str "ref_uri", .str h.reference)])] := by
      unfold inGrammar
      cases h.fid.info.syn with
      | none => rfl
      | some r =>
        dsimp only
        split
        · rfl
        · rw [said_one hc rfl rfl (by show ([str "ref_uri"] : List Str).Nodup; decide), hsub]
    have fin : ∀ syn ns : List Note, (syn.filter outer).map said = (if inGrammar h.fid raw then [] else [(NoteId.BAD_SYNTAX, offsetSubject o, [(str "ref_uri", Val.str h.reference)])]) → (ns.filter outer).map said = ((rs.filter fun p => !inGrammar h.fid p.1).map fun p => (NoteId.BAD_SYNTAX, offsetSubject p.2, [(str "ref_uri", Val.str h.reference)])) →
        (((syn ++ r.notes) ++ ns).filter outer).map said =
          (((raw, o) :: rs).filter fun p => !inGrammar h.fid p.1).map fun p => (.BAD_SYNTAX, offsetSubject p.2, [(str "ref_uri", Val.str h.reference)]) := by
      intro syn ns hsyn hns
      rw [List.filter_append, List.filter_append, filter_notOuter hp.2, List.append_nil, List.map_append, hsyn, hns]
      cases hg : inGrammar h.fid raw
      · rw [List.filter_cons_of_pos (by simp [hg])]; rfl
      · rw [List.filter_cons_of_neg (by simp [hg])]; rfl
    cases hr2 : r.res with
    | error e =>
      dsimp only
      split
      · intro hok; exact fin _ _ hsyn (ih { h with aux } acc hp.1 hok)
      · intro h; simp at h
    | ok x => intro hok; exact fin _ _ hsyn (ih { h with aux } (acc ++ [x]) hp.1 hok)

theorem finish_said {c0 c : Ctx} {add name} {ps : List (Nat × Str)} {mt : Val} (hne : ps ≠ []) (hg : AddGood add keys1) (hc : CtxOnly add)
    (hm0 : HasMT c0.msg.defaults) (hm : c.msg.defaults = mtDefaults mt) (hr : ((fedLines c0 name ps).finish c add).2.res = .ok ()) :
    (((fedLines c0 name ps).finish c add).2.notes.filter outer).map said = fieldSaid c.env (classOf name) (shownReference name) add.subject ps := by
  have hid := (fed_id c0 name ps).fid
  rw [mkHandler_fid] at hid
  have href : (fedLines c0 name ps).reference = shownReference name := by rw [(fed_id c0 name ps).ref, mkHandler_reference]
  have hxs : ps.map (·.2) ≠ [] := by simpa using hne
  have haux := fed_aux hm0 name ps
  unfold fieldSaid
  cases hk : (classOf name).info.kind with
  | list =>
    unfold Handler.finish
    rw [hid, hk]
    dsimp only
    rw [evalAfter_outer hg _ _ _ haux]; rfl
  | unknown =>
    unfold Handler.finish
    rw [hid, hk]
    dsimp only
    rw [evalAfter_outer hg _ _ _ haux]; rfl
  | singleton =>
    have hv := fed_singleton (c := c0) hk ps
    unfold Handler.finish at hr ⊢
    rw [hid, hk] at hr ⊢
    dsimp only at hr ⊢
    unfold Handler.finishSingleton at hr ⊢
    cases ps with
    | nil => exact absurd rfl hne
    | cons p ps =>
      have hraw : (fedLines c0 name (p :: ps)).raw = (p.2, 0) :: ps.map fun p => (p.2, 0) := by rw [hv]; rfl
      simp only [hraw] at hr ⊢
      have hp := Handler.parse_ok hg.to0 c _ haux (strip p.2)
      generalize (fedLines c0 name (p :: ps)).parse c add (strip p.2) = q at *
      obtain ⟨aux, r⟩ := q
      dsimp only at *
      rw [hid] at hr ⊢
      have h1 : ((if (ps.map fun p => (p.2, (0 : Nat))).isEmpty then [] else [add.mk1 .SINGLE_HEADER_REPEAT]).filter outer).map said =
          if (p :: ps).length > 1 then [(.SINGLE_HEADER_REPEAT, add.subject, [])] else [] := by
        cases ps with
        | nil => rfl
        | cons q qs => exact said_one hc rfl rfl List.nodup_nil
      have h2 : ((match (classOf name).info.syn with
       | none => []
       | some r => if matchSpaced r p.2 then []
         else if (classOf name).info.reportSyntax then [add.mk1 .BAD_SYNTAX [(str "ref_uri", .str (fedLines c0 name (p :: ps)).reference)]] else []).filter outer).map said =
          if inGrammar (classOf name) p.2 then [] else if (classOf name).info.reportSyntax then [(.BAD_SYNTAX, add.subject, [(str "ref_uri", .str (shownReference name))])] else [] := by
        unfold inGrammar
        rw [href]
        cases (classOf name).info.syn with
        | none => rfl
        | some r =>
          dsimp only
          split
          · rfl
          · split
            · exact said_one hc rfl rfl (by show ([str "ref_uri"] : List Str).Nodup; decide)
            · rfl
      have key : ∀ n1 n2 : List Note, (n1.filter outer).map said = (if (p :: ps).length > 1 then [(NoteId.SINGLE_HEADER_REPEAT, add.subject, [])] else []) →
          (n2.filter outer).map said = (if inGrammar (classOf name) p.2 then [] else if (classOf name).info.reportSyntax then [(NoteId.BAD_SYNTAX, add.subject, [(str "ref_uri", Val.str (shownReference name))])] else []) → (((n1 ++ n2) ++ r.notes).filter outer).map said =
          (if (p :: ps).length > 1 then [(.SINGLE_HEADER_REPEAT, add.subject, [])] else []) ++
          (if inGrammar (classOf name) p.2 then [] else if (classOf name).info.reportSyntax then [(.BAD_SYNTAX, add.subject, [(str "ref_uri", .str (shownReference name))])] else []) := by
        intro n1 n2 h1 h2
        rw [List.filter_append, List.filter_append, filter_notOuter hp.2, List.append_nil, List.map_append, h1, h2]
      cases hres : r.res with
      | ok v => simp only [hres] at hr ⊢; rw [evalAfter_outer hg _ _ _ hp.1]; exact key _ _ h1 h2
      | error e =>
        simp only [hres] at hr ⊢
        by_cases he : e.isValueError = true
        · rw [if_pos he]; exact key _ _ h1 h2
        · rw [if_neg he] at hr; simp at hr
  | broken =>
    have hv := fed_broken (c := c0) hk ps
    unfold Handler.finish at hr ⊢
    rw [hid, hk] at hr ⊢
    dsimp only at hr ⊢
    unfold Handler.finishBroken at hr ⊢
    have hraw : (fedLines c0 name ps).raw = ps.map fun p => (p.2, p.1) := by rw [hv]
    have hb := brokenLoop_said c hm (fedLines c0 name ps).raw (fedLines c0 name ps) [] haux
    have hbo := brokenLoop_ok c (by rw [hm]; rfl) (fedLines c0 name ps).raw (fedLines c0 name ps) [] haux
    generalize (fedLines c0 name ps).brokenLoop c (fedLines c0 name ps).raw [] = q at *
    obtain ⟨h', w⟩ := q
    dsimp only at *
    cases hres : w.res with
    | error e => simp only [hres] at hr; simp at hr
    | ok vs =>
      simp only [hres] at hr ⊢
      rw [evalAfter_outer hg _ _ { h' with value := .list vs } hbo.1, hb ⟨vs, hres⟩, hraw, hid, href, List.filter_map, List.map_map]
      rfl
  | sf t =>
    have hv := fed_text (c := c0) (k := .sf t) hk (.inr ⟨t, rfl⟩) ps
    unfold Handler.finish at hr ⊢
    rw [hid, hk] at hr ⊢
    dsimp only at hr ⊢
    unfold Handler.finishSf at hr ⊢
    have h1 : (fedLines c0 name ps).value = textVal (ps.map (·.2)) := by rw [hv]
    have h2 : (fedLines c0 name ps).sfParsed = false := by rw [hv]; exact mkHandler_sf _ _
    rw [h1, textVal_truthy hxs, h2, joinValue_text] at hr ⊢
    simp only [Bool.not_true, Bool.false_eq_true, if_false] at hr ⊢
    have hone := fun (p q : Str) (cat : Option Cat) => said_one (cls := .STRUCTURED_FIELD_PARSE_ERROR) (vrs := [(str "problem", .str p), (str "context", .str q)]) (cat := cat) hc rfl rfl (by show ([str "problem", str "context"] : List Str).Nodup; decide)
    cases hs : c.env.sfParse t (strip (join (str ", ") (ps.map (·.2)))) with
    | ok v d => simp only [hs] at hr ⊢; rw [evalAfter_outer hg _ _ { fedLines c0 name ps with value := v, sfParsed := true } haux, dupKey_said hc]
    | sfError p i d => simp only; rw [List.filter_append, List.map_append, dupKey_said hc, hone, sfContext_eq, List.map_append]; rfl
    | error p d => simp only; rw [List.filter_append, List.map_append, dupKey_said hc, hone, List.map_append]; rfl
  | json =>
    have hv := fed_text (c := c0) (k := .json) hk (.inl rfl) ps
    unfold Handler.finish at hr ⊢
    rw [hid, hk] at hr ⊢
    dsimp only at hr ⊢
    unfold Handler.finishJson at hr ⊢
    have h1 : (fedLines c0 name ps).value = textVal (ps.map (·.2)) := by rw [hv]
    rw [h1, textVal_truthy hxs, joinValue_text] at hr ⊢
    simp only [Bool.not_true, Bool.false_eq_true, if_false] at hr ⊢
    cases hs : c.env.jsonLoads (str "[" ++ join (str ", ") (ps.map (·.2)) ++ str "]") with
    | ok v => simp only [hs] at hr ⊢; rw [evalAfter_outer hg _ _ { fedLines c0 name ps with value := v } haux]; rfl
    | decodeError p => simp only; rw [said_one hc rfl rfl (by show ([str "error"] : List Str).Nodup; decide)]
    | raises e => simp only [hs] at hr; exact absurd hr (by simp [W.throw])

/-- a field that is not read at all gets none -/
theorem finish_outer_unread {c add kind name} (hok : okName kind name = false) (hg : AddGood add keys1) (hm : HasMT c.msg.defaults) :
    ((checked kind (mkHandler (classOf name) name)).finish c add).2.notes.filter outer = [] := by
  have hfid : (checked kind (mkHandler (classOf name) name)).fid = classOf name := by rw [(checked_id _ _).fid, mkHandler_fid]
  have hraw : (checked kind (mkHandler (classOf name) name)).raw = [] := by
    unfold checked; split <;> exact mkHandler_raw _ _
  have hval : (checked kind (mkHandler (classOf name) name)).value.truthy = false := by
    unfold checked
    rw [mkHandler_fid]
    split
    · rw [mkHandler_value]; rfl
    · rfl
  have haux : AuxOK (checked kind (mkHandler (classOf name) name)).aux := by
    have : (checked kind (mkHandler (classOf name) name)).aux = {} := by
      unfold checked mkHandler; dsimp only; split <;> (split <;> rfl)
    rw [this]; exact auxOK_empty
  generalize checked kind (mkHandler (classOf name) name) = h at *
  unfold Handler.finish
  split
  · unfold Handler.finishSingleton; rw [hraw]; rfl
  · unfold Handler.finishBroken
    rw [hraw]
    exact evalAfter_outer hg c [] { h with value := .list [] } haux
  · unfold Handler.finishSf; rw [hval]; rfl
  · unfold Handler.finishJson; rw [hval]; rfl
  · exact evalAfter_outer hg c [] h haux
  · exact evalAfter_outer hg c [] h haux

/-! ### the section -/

theorem sizeNotes_said {env related t} {ls : List Line} {m m1 : Msg} {mt : Val} (hm : m1.defaults = mtDefaults mt) (h0 : (m.section t).size = 0)
    (h : processLines env related t ls 0 m = (m1, .ok ())) : ((sectionSizeNotes t m1).filter outer).map said = sizeSaid ls := by
  obtain ⟨k, _, hk, _, hs⟩ := processLines_text env related t ls 0 m
  rw [h] at hk hs
  rw [hk rfl, List.take_length, h0, Nat.zero_add] at hs
  unfold sectionSizeNotes sizeSaid maxTotalSize
  dsimp only
  change (m1.section t).size = _ at hs
  rw [hs]
  split
  · show [said _] = _
    unfold said ownVars
    show [(_, _, (dupdate m1.defaults _).filter _)] = _
    rw [hm]; rfl
  · rfl

theorem section_said {env related t} {ls : List Line} {m m' : Msg} {mt : Val} (hm : Linting env m) (hd : m.defaults = mtDefaults mt)
    (hnew : (m.section t).handlers = []) (h0 : (m.section t).size = 0) (h : processSection env related t ls m = (m', .ok ())) :
    ∃ added, m'.notes = m.notes ++ added ∧ (added.filter outer).map said =
      ((numbered m.kind 0 ls).flatMap fun p => (lineSaid m.kind p.2).map fun q => (q.1, offsetSubject p.1, q.2)) ++ sizeSaid ls ++
      (namesOf ls).flatMap fun n => if okName m.kind n then fieldSaid env (classOf n) (shownReference n) (fieldSubject n) (sent m.kind n ls) else [] := by
  have hrdy := hm.ready t
  obtain ⟨a, b, ctx, ha, _, hb, hds, hp, _⟩ := section_outcome_full hrdy hnew h
  refine ⟨_, hp, ?_⟩
  have hlines : ∃ m1, processLines env related t ls 0 m = (m1, .ok ()) := by
    unfold processSection at h
    split at h
    · simp at h
    · rename_i m1 heq; exact ⟨m1, heq⟩
  obtain ⟨m1, heq⟩ := hlines
  have hx1 : Ext t m m1 := by have := processLines_ext env related t ls 0 m; rwa [heq] at this
  obtain ⟨a', ea, sa⟩ := processLines_said hrdy hd heq
  rw [heq] at ha hb
  obtain rfl : a = a' := List.append_cancel_left (ha.symm.trans ea)
  rw [List.filter_append, List.filter_append, List.map_append, List.map_append, sa, hb, sizeNotes_said ((ext_defaults hx1).trans hd) h0 heq]
  congr 1
  rw [List.filter_flatMap, List.map_flatMap]
  apply flatMap_congr_mem
  intro n hn
  obtain ⟨hdn, hrn, _⟩ := hds n hn
  have hmt : (ctx n).msg.defaults = mtDefaults mt := by rw [ext_defaults hdn.ext]; exact hd
  have hg := fieldAdder_good hrdy.mt t (readHandler ⟨env, m, related⟩ ls n)
  have hc := fieldAdder_ctx hd t (readHandler ⟨env, m, related⟩ ls n)
  have hsub : (m.fieldAdder t (readHandler ⟨env, m, related⟩ ls n)).subject = fieldSubject n := by
    have : (readHandler ⟨env, m, related⟩ ls n).canonicalName = (mkHandler (classOf n) (spelling ls n)).canonicalName := by
      unfold readHandler handlerFor
      split
      · rw [(fed_id _ _ _).canon, classOf_spelling hn]
      · rw [(checked_id _ _).canon, classOf_spelling hn]
    show str "field-" ++ lower (readHandler ⟨env, m, related⟩ ls n).canonicalName = _
    rw [this, mkHandler_canon (b := n) (by rw [lower_spelling hn, lower_name hn])]
    rfl
  unfold finishIn at *
  revert hrn hg hc hsub
  unfold readHandler handlerFor
  rw [okName_spelling hn]
  intro hrn hg hc hsub
  by_cases hok : okName m.kind n = true
  · rw [if_pos hok] at hrn hg hc hsub ⊢
    rw [if_pos hok]
    rw [finish_said (sent_ne_nil hn) hg hc hrdy.mt hmt hrn, hsub, classOf_spelling hn, hdn.env,
      shownReference_lower (b := n) (by rw [lower_spelling hn, lower_name hn])]
  · rw [if_neg hok] at hrn hg hc hsub ⊢
    rw [if_neg hok, finish_outer_unread (by rw [okName_spelling hn]; simpa using hok) hg (by rw [hmt]; rfl)]
    rfl

/-! ### a section without fields has no size -/

def NewIsEmpty (s : Section) : Prop := s.handlers = [] → s.size = 0

theorem dset_ne_nil {β} (d : Dict β) (k : Str) (v : β) : dset d k v ≠ [] := by
  cases d with
  | nil => simp [dset]
  | cons q d => unfold dset; split <;> simp

theorem processLine_ne_nil (env related t) (m : Msg) (o : Nat) (l : Line) : ((processLine env related t m o l).1.section t).handlers ≠ [] := by
  intro h
  have := processLine_keys (env := env) (related := related) (t := t) (m := m) (o := o) (l := l)
  rw [h] at this
  split at this
  · rename_i hc
    rw [← this] at hc
    simp at hc
  · simp at this

theorem processLines_ne_nil (env related t) (ls : List Line) (o : Nat) (m : Msg) (h : (m.section t).handlers ≠ [] ∨ ls ≠ []) :
    ((processLines env related t ls o m).1.section t).handlers ≠ [] := by
  induction ls generalizing o m with
  | nil => exact h.elim id fun h => absurd rfl h
  | cons l ls ih =>
    have h1 := processLine_ne_nil env related t m o l
    unfold processLines
    split <;> rename_i heq <;> rw [heq] at h1
    · exact h1
    · exact ih _ _ (.inl h1)

theorem finishHandler_ne_nil (env related t) (m : Msg) (k : Str) (h : (m.section t).handlers ≠ []) :
    ((finishHandler env related t m k).1.section t).handlers ≠ [] := by
  unfold finishHandler
  split
  · exact h
  · dsimp only
    split <;> (simp only [section_setSection]; exact dset_ne_nil _ _ _)

theorem finishHandlers_ne_nil (env related t) (ks : List Str) (m : Msg) (h : (m.section t).handlers ≠ []) :
    ((finishHandlers env related t ks m).1.section t).handlers ≠ [] := by
  induction ks generalizing m with
  | nil => exact h
  | cons k ks ih =>
    have h1 := finishHandler_ne_nil env related t m k h
    unfold finishHandlers
    split <;> rename_i heq <;> rw [heq] at h1
    · exact h1
    · exact ih _ h1

theorem processSection_ne_nil (env related t) (ls : List Line) (m : Msg) (h : (m.section t).handlers ≠ [] ∨ ls ≠ []) :
    ((processSection env related t ls m).1.section t).handlers ≠ [] := by
  have h1 := processLines_ne_nil env related t ls 0 m h
  unfold processSection
  split <;> rename_i m1 heq <;> rw [heq] at h1
  · exact h1
  · exact finishHandlers_ne_nil _ _ _ _ _ (by rw [section_addNotes]; exact h1)

theorem processSection_new (env related t) (ls : List Line) (m : Msg) (h : ∀ t, NewIsEmpty (m.section t)) (t' : Bool) :
    NewIsEmpty ((processSection env related t ls m).1.section t') := by
  by_cases ht : t' = t
  · subst ht
    intro h'
    have hn : (m.section t').handlers = [] ∧ ls = [] := by
      apply Classical.byContradiction
      intro hc
      rw [Classical.not_and_iff_not_or_not] at hc
      exact processSection_ne_nil env related t' ls m hc h'
    obtain ⟨k, _, _, _, hs⟩ := processSection_text env related t' ls m
    rw [hs, h t' hn.1, hn.2, List.take_nil]; rfl
  · obtain ⟨ns, s, e⟩ := processSection_ext env related t ls m
    rw [e, section_addNotes]
    have : (m.setSection t s).section t' = m.section t' := by
      cases t <;> cases t' <;> first | rfl | exact absurd rfl ht
    rw [this]
    exact h t'

theorem SameSections.new {m m' : Msg} (hs : SameSections m m') (h : ∀ t, NewIsEmpty (m.section t)) (t : Bool) : NewIsEmpty (m'.section t) := by
  cases t
  · show NewIsEmpty m'.headers; rw [hs.1]; exact h false
  · show NewIsEmpty m'.trailers; rw [hs.2.1]; exact h true

theorem Op.run_new (env : Env) (op : Op) (w : World) (h : ∀ t, NewIsEmpty (w.msg.section t)) : ∀ t, NewIsEmpty ((op.run env w).1.msg.section t) := by
  cases op with
  | requestTopline me i v => exact (requestTopline_sections ..).new h
  | responseTopline v s p => exact (responseTopline_sections ..).new h
  | headers ls => exact (processHeaders_sections ..).new (processSection_new _ _ _ _ _ h)
  | feed c => exact (feedContent_sections ..).new h
  | finish c ts =>
    refine (finishContent_sections env w.related c ts w.msg).new ?_
    have h0 : ∀ t, NewIsEmpty ((finishStart env c w.msg).section t) := SameSections.new ⟨rfl, rfl, rfl⟩ h
    split
    · exact h0
    · exact processSection_new _ _ _ _ _ h0

theorem Linting.new {env m} (h : Linting env m) (t : Bool) (hn : (m.section t).handlers = []) : (m.section t).size = 0 := by
  obtain ⟨r, hr, h⟩ := h
  have key : ∀ t, NewIsEmpty (r.section t) := by
    obtain ⟨kind, start, nc, head, related, ops, rfl⟩ := hr
    have : ∀ (ops : List Op) (w : World), (∀ t, NewIsEmpty (w.msg.section t)) → ∀ t, NewIsEmpty ((Op.runAll env ops w).msg.section t) := by
      intro ops
      induction ops with
      | nil => exact fun w h => h
      | cons op ops ih => exact fun w h => ih _ (Op.run_new env op w h)
    exact this ops _ fun t => by cases t <;> exact fun _ => rfl
  rcases h with rfl | ⟨co, rfl⟩
  · exact key t hn
  · exact SameSections.new (m := r) ⟨rfl, rfl, rfl⟩ key t hn

/-- **C112**: the notes that a processed section adds on its lines, on its size and on the syntax of its fields, in order:
which they are, what they are about and all that they say -/
theorem C112_lines_and_syntax {env : Env} {related : Option Msg} {t : Bool} {ls : List Line} {m m' : Msg} (P : Processed env related t ls m m') :
    ∃ added, m'.notes = m.notes ++ added ∧ (added.filter outer).map said =
      ((numbered m.kind 0 ls).flatMap fun p => (lineSaid m.kind p.2).map fun q => (q.1, offsetSubject p.1, q.2)) ++ sizeSaid ls ++
      (namesOf ls).flatMap fun n => if okName m.kind n then fieldSaid env (classOf n) (shownReference n) (fieldSubject n) (sent m.kind n ls) else [] :=
  section_said P.linting P.linting.defaults P.new (P.linting.new t P.new) P.ok

/-! ### examples -/

/-- what the notes of a section say, without the context -/
def sayings (env : Env) (kind : MsgKind) (t : Bool) (ls : List Line) : List (NoteId × Str × Dict Val) :=
  ((processSection env none t ls (fresh env kind none false false)).1.notes.filter outer).map said

/-- the place of a wrong character is shown -/
example : sayings toyEnv .response false [(str "vary", str "a b, c"), (str "X y", str "1"), (str "etag", str "x"), (str "ETag", str "y")] =
    [(.BAD_SYNTAX_DETAILED, str "offset-0", [(str "ref_uri", .str (str "http://httpwg.org/specs/rfc9110#field.vary")),
        (str "value", .str (str "a b")),
        (str "problem", .str (str "The invalid character ' ' was found at position 2:" ++ [10, 10] ++ str "    a b" ++ [10] ++ str "     ^"))]),
     (.FIELD_NAME_BAD_SYNTAX, str "offset-1", []),
     (.SINGLE_HEADER_REPEAT, str "field-etag", []),
     (.BAD_SYNTAX, str "field-etag", [(str "ref_uri", .str (str "http://httpwg.org/specs/rfc9110#field.etag"))])] := by decide +kernel

/-- a long text is cut on both sides of the place -/
example : excerpt 3 (str "0123456789") 5 = [10, 10] ++ str "    234567" ++ [10] ++ str "       ^" := by decide +kernel
example : excerpt 3 (str "0123456789") 1 = [10, 10] ++ str "    0123" ++ [10] ++ str "     ^" := by decide +kernel

end HL.Props
