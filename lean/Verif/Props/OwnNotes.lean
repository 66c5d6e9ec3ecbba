import Verif.Props.FieldNotes

/-!
# From what a field class does with a piece of text to the notes of a section

For a class of note only one field class adds: where it turns up in the notes of a section.
-/

namespace HL.Props
open HL.F

/-- a name with a class of its own is a token -/
theorem okName_class {kind n} {f : FieldId} (h : classOf n = f) (hf : f ≠ .unknownField) : okName kind n = f.validIn kind := by
  unfold okName
  rw [h]
  cases ht : isToken (strip n) with
  | true => exact Bool.and_true _
  | false => exact absurd (h.symm.trans (classOf_notToken ht)) hf

/-- the names in a section that stand for a field class (`Content-Length`, `CONTENT_LENGTH`, …), in lower case -/
def namesFor (f : FieldId) (ls : List Line) : List Str := (namesOf ls).filter fun n => classOf n = f

/-- the lines, with their numbers, of the names that stand for a field class -/
def linesFor (kind : MsgKind) (f : FieldId) (ls : List Line) : List (Nat × Line) :=
  (numbered kind 0 ls).filter fun p => classOf (decodeName p.2.1) = f

theorem filter_tag (X : NoteId) (ho : X.origin = .field) (ns : List Note) :
    (ofClass X ns).map (·.subject) = (((ns.filter isField).map tag).filter (·.1 == X)).map (·.2) := by
  unfold ofClass
  rw [List.filter_map, List.map_map, List.filter_filter]
  have : (fun n : Note => (n.cls == X)) = fun n => ((fun p : NoteId × Str => p.1 == X) ∘ tag) n && isField n := by
    funext n
    show (n.cls == X) = ((n.cls == X) && isField n)
    by_cases h : n.cls = X
    · have h2 : isField n = true := by unfold isField; rw [h, ho]; rfl
      rw [h2, Bool.and_true]
    · have : (n.cls == X) = false := by simpa using h
      rw [this]; rfl
  rw [this]
  rfl

theorem flatMap_filter_if {α β} (l : List α) (p : α → Bool) (f : α → List β) :
    (l.filter p).flatMap f = l.flatMap fun a => if p a then f a else [] := by
  induction l with
  | nil => rfl
  | cons a l ih =>
    rw [List.flatMap_cons, ← ih]
    cases h : p a
    · rw [List.filter_cons_of_neg (by simp [h])]; rfl
    · rw [List.filter_cons_of_pos h]; rfl

/-- which of the notes for a piece of text are of a class -/
def countOf (X : NoteId) (ns : List NoteId) : List NoteId := ns.filter (· == X)

theorem countOf_replicate (X : NoteId) (ns : List NoteId) (s : Str) : ((countOf X ns).map fun _ => s) = List.replicate (ns.count X) s := by
  unfold countOf
  rw [List.map_const', List.count_eq_countP, List.countP_eq_length_filter]

theorem countOf_own {c f v X} (h : (parseOwn f).contains X = false) : countOf X (parseNotes c f v) = [] := by
  unfold countOf
  rw [List.filter_eq_nil_iff]
  intro x hx he
  rw [beq_iff_eq] at he
  subst he
  rw [parseNotes_own c f v x hx] at h
  exact nomatch h

theorem tagged_filter (X : NoteId) (ns : List NoteId) (s : Str) :
    ((ns.map (·, s)).filter (·.1 == X)).map (·.2) = (countOf X ns).map fun _ => s := by
  unfold countOf
  rw [List.filter_map, List.map_map]
  rfl

theorem evalHandler_fid (c0 c add name ps) : (evalHandler c0 c add name ps).fid = classOf name := by
  have hid := (fed_id c0 name ps).fid
  rw [mkHandler_fid] at hid
  unfold evalHandler
  dsimp only
  split
  · split <;> exact hid
  · exact (brokenLoop_id c (fedLines c0 name ps).raw (fedLines c0 name ps) []).fid.trans hid
  all_goals exact hid

theorem parse_auxOwn {c add v} {h : Handler} (ha : AuxOwn h.fid h.aux) : AuxOwn h.fid (h.parse c add v).1 := by
  by_cases hs : h.fid = .set_cookie_
  · have : (h.parse c add v).1 = (set_cookie.parse c add h.aux v).1 := by unfold Handler.parse; rw [hs]
    rw [this, hs]
    exact set_cookie_parse_aux _ _ _ (by rw [← hs]; exact ha)
  · have : (h.parse c add v).1.notes = [] := by
      have h0 : h.aux.notes = [] := by
        cases hn : h.aux.notes with
        | nil => rfl
        | cons n ns => exact absurd (ha n (by rw [hn]; simp)).1 hs
      unfold Handler.parse Handler.noAux
      split
      all_goals first
        | exact h0
        | (rename_i hf; exact absurd hf hs)
        | (unfold csp.parse; dsimp only; (repeat' split) <;> exact h0)
        | (unfold hsts.parse; exact h0)
        | (unfold clear_site_data.parse; dsimp only; (repeat' split) <;> exact h0)
    intro n hn
    rw [this] at hn
    exact absurd hn (by simp)

theorem listLoop_auxOwn {c add} (vs : List Str) : ∀ h : Handler, AuxOwn h.fid h.aux → AuxOwn h.fid (h.listLoop c add vs).1.aux := by
  induction vs with
  | nil => intro h ha; exact ha
  | cons v vs ih =>
    intro h ha
    unfold Handler.listLoop
    dsimp only
    split
    · exact ha
    · have hp := parse_auxOwn (c := c) (add := add) (v := strip v) ha
      generalize h.parse c add (strip v) = p at *
      obtain ⟨aux, r⟩ := p
      dsimp only at *
      split
      · split
        · exact ih { h with aux } hp
        · exact hp
      · split
        · exact hp
        · rename_i h' ha2
          have hf : h'.fid = h.fid := (append_id ha2).fid
          have ha3 : h'.aux = aux := append_aux ha2
          have := ih h' (by rw [hf, ha3]; exact hp)
          rw [hf] at this
          exact this

theorem handleInput_auxOwn {c v o} {h : Handler} (ha : AuxOwn h.fid h.aux) : AuxOwn h.fid (h.handleInput c v o).1.aux := by
  unfold Handler.handleInput
  split
  · exact listLoop_auxOwn _ h ha
  · exact ha
  · exact ha
  · split <;> first | exact ha | (rename_i he; rw [append_aux he]; exact ha)
  · split <;> first | exact ha | (rename_i he; rw [append_aux he]; exact ha)
  · exact ha

theorem fed_auxOwn (c name ps) : AuxOwn (classOf name) (fedLines c name ps).aux := by
  unfold fedLines
  have h0 : AuxOwn (mkHandler (classOf name) name).fid (mkHandler (classOf name) name).aux := by
    rw [mkHandler_aux]; intro n hn; simp at hn
  have hf := mkHandler_fid (classOf name) name
  generalize mkHandler (classOf name) name = h at *
  induction ps generalizing h with
  | nil => rw [← hf]; exact h0
  | cons p ps ih =>
    rw [List.foldl_cons]
    have h1 := handleInput_auxOwn (c := c) (v := p.2) (o := p.1) h0
    have hf' := (handleInput_id c h p.2 p.1).fid
    exact ih _ (by rw [hf']; exact h1) (hf'.trans hf)

theorem brokenLoop_auxOwn {c} (rs : List (Str × Nat)) : ∀ (h : Handler) (acc : List Val), AuxOwn h.fid h.aux → AuxOwn h.fid (h.brokenLoop c rs acc).1.aux := by
  induction rs with
  | nil => intro h acc ha; exact ha
  | cons r rs ih =>
    obtain ⟨raw, o⟩ := r
    intro h acc ha
    unfold Handler.brokenLoop
    dsimp only
    have hp := parse_auxOwn (c := c) (add := h.offsetAdd c.msg.defaults o) (v := strip raw) ha
    generalize h.parse c (h.offsetAdd c.msg.defaults o) (strip raw) = p at *
    obtain ⟨aux, r⟩ := p
    dsimp only at *
    split
    · exact ih { h with aux } _ hp
    · split
      · exact ih { h with aux } _ hp
      · exact hp

theorem evalHandler_auxOwn (c0 c add name ps) : AuxOwn (classOf name) (evalHandler c0 c add name ps).aux := by
  have h0 := fed_auxOwn c0 name ps
  have hid := (fed_id c0 name ps).fid
  rw [mkHandler_fid] at hid
  unfold evalHandler
  dsimp only
  split
  · split
    · rename_i p _ 
      have := parse_auxOwn (c := c) (add := add) (v := strip p.2) (h := fedLines c0 name _) (by rw [hid]; exact h0)
      rw [hid] at this
      exact this
    · exact h0
  · have := brokenLoop_auxOwn (c := c) (fedLines c0 name ps).raw (fedLines c0 name ps) [] (by rw [hid]; exact h0)
    rw [hid] at this
    exact this
  all_goals exact h0

theorem evalNotes_own (c : Ctx) (add : AddNote) (h : Handler) (ha : AuxOwn h.fid h.aux) {X : NoteId} (hX : (evalOwn h.fid).contains X = false) :
    ofClass X (evalNotes c add h) = [] := by
  unfold ofClass
  rw [List.filter_eq_nil_iff]
  intro n hn he
  rw [beq_iff_eq] at he
  subst he
  unfold evalNotes at hn
  split at hn
  · simp at hn
  · rw [(Handler.evaluate_own c h ha n hn).cls] at hX
    exact nomatch hX

/-- a class of note only `parse` of the field class `f` adds -/
structure ParseOnly (X : NoteId) (f : FieldId) : Prop where
  origin : X.origin = .field
  parse : ∀ g, g ≠ f → (parseOwn g).contains X = false
  evaluate : ∀ g, (evalOwn g).contains X = false
  known : f ≠ .unknownField

/-- a class of note only `evaluate` of the field class `f` adds -/
structure EvalOnly (X : NoteId) (f : FieldId) : Prop where
  origin : X.origin = .field
  parse : ∀ g, (parseOwn g).contains X = false
  evaluate : ∀ g, g ≠ f → (evalOwn g).contains X = false
  known : f ≠ .unknownField

/-- closes the two above -/
macro "own_only" : tactic => `(tactic| exact ⟨rfl, fun g => by cases g <;> decide, fun g => by cases g <;> decide, by decide⟩)

theorem evalSetup_fid {m t c related ls n} (hn : n ∈ namesOf ls) : (evalSetup m t c related ls n).2.fid = classOf n := by
  unfold evalSetup; dsimp only; rw [evalHandler_fid, classOf_spelling hn]

theorem evalSetup_aux {m t c related ls n} (hn : n ∈ namesOf ls) : AuxOwn (classOf n) (evalSetup m t c related ls n).2.aux := by
  unfold evalSetup; dsimp only; rw [← classOf_spelling hn]; exact evalHandler_auxOwn _ _ _ _ _

theorem mem_filter_map_nil {α β γ} (l : List α) (f : α → List β) (p : β → Bool) (g : β → γ) (h : ∀ a ∈ l, ((f a).filter p).map g = []) :
    ((l.flatMap f).filter p).map g = [] := by
  rw [List.filter_flatMap, List.map_flatMap]
  rw [flatMap_congr_mem h]
  simp

section
variable {env : Env} {related : Option Msg} {t : Bool} {ls : List Line} {m m' : Msg}

/-- **notes of a class, in general**: the parts of `section_fields` that are of the class -/
theorem section_ofClass (X : NoteId) (ho : X.origin = .field) (hm : Linting env m) (hnew : (m.section t).handlers = [])
    (h : processSection env related t ls m = (m', .ok ())) :
    ∃ (added : List Note) (ctx : Str → Ctx), m'.notes = m.notes ++ added ∧ (∀ n ∈ namesOf ls, During env related t m (ctx n)) ∧
      (ofClass X added).map (·.subject) =
      ((numbered m.kind 0 ls).flatMap fun p => (countOf X (lineField ⟨env, m, related⟩ p.2)).map fun _ => offsetSubject p.1) ++
      (namesOf ls).flatMap fun n => if okName m.kind n then
        (((finishParse ⟨env, m, related⟩ (classOf n) (fieldSubject n) (sent m.kind n ls)).filter (·.1 == X)).map (·.2)) ++
        (ofClass X (evalNotes (ctx n) (evalSetup m t (ctx n) related ls n).1 (evalSetup m t (ctx n) related ls n).2)).map (·.subject) else [] := by
  obtain ⟨added, ctx, e, hd, ht⟩ := section_fields hm hnew h
  refine ⟨added, ctx, e, hd, ?_⟩
  rw [filter_tag X ho, ht, List.filter_append, List.map_append, List.filter_flatMap, List.map_flatMap, List.filter_flatMap, List.map_flatMap]
  congr 1
  · simp only [tagged_filter]
  · apply flatMap_congr_mem
    intro n hn
    split
    · rw [List.filter_append, List.map_append, List.filter_map, List.map_map]
      rfl
    · rfl

theorem lineField_kind {c : Ctx} {l : Line} (h : (classOf (decodeName l.1)).info.kind ≠ .list) : lineField c l = [] := by
  unfold lineField elementField
  split
  · split
    · rename_i hk; exact absurd hk h
    · rfl
  · rfl

theorem countOf_lineField {c : Ctx} {l : Line} {X} (h : (parseOwn (classOf (decodeName l.1))).contains X = false) : countOf X (lineField c l) = [] := by
  unfold lineField elementField
  split
  · split
    · have : countOf X ((splitListField l.2).flatMap fun v => parseNotes c (classOf (decodeName l.1)) (strip v)) =
          (splitListField l.2).flatMap fun v => countOf X (parseNotes c (classOf (decodeName l.1)) (strip v)) := List.filter_flatMap ..
      rw [this, flatMap_congr_mem (g := fun _ => []) (fun v _ => countOf_own (v := strip v) h)]
      simp
    · rfl
  · rfl

theorem finishParse_own {c : Ctx} {f subj ps X} (h : (parseOwn f).contains X = false) : ((finishParse c f subj ps).filter (·.1 == X)).map (·.2) = [] := by
  unfold finishParse
  split
  · split
    · rw [tagged_filter, countOf_own h]; rfl
    · rfl
  · rw [List.filter_flatMap, List.map_flatMap]
    simp only [tagged_filter, countOf_own h, List.map_nil]
    simp
  · rfl

/-- **notes on the text of a singleton field** -/
theorem singleton_notes {X f} (hX : ParseOnly X f) (hk : f.info.kind = .singleton) (hm : Linting env m) (hnew : (m.section t).handlers = [])
    (h : processSection env related t ls m = (m', .ok ())) :
    ∃ added : List Note, m'.notes = m.notes ++ added ∧ (ofClass X added).map (·.subject) =
      if f.validIn m.kind then (namesFor f ls).flatMap fun n =>
        List.replicate ((parseNotes ⟨env, m, related⟩ f (strip ((valuesOf ls n).headD []))).count X) (fieldSubject n) else [] := by
  obtain ⟨added, ctx, e, hd, ht⟩ := section_ofClass X hX.origin hm hnew h
  refine ⟨added, e, ?_⟩
  simp only [← countOf_replicate]
  rw [ht]
  have h1 : ((numbered m.kind 0 ls).flatMap fun p => (countOf X (lineField ⟨env, m, related⟩ p.2)).map fun _ => offsetSubject p.1) = [] := by
    rw [flatMap_congr_mem (g := fun _ => []) (fun p _ => ?_)]
    · simp
    · by_cases hf : classOf (decodeName p.2.1) = f
      · rw [lineField_kind (by rw [hf, hk]; simp)]; rfl
      · rw [countOf_lineField (hX.parse _ hf)]; rfl
  rw [h1, List.nil_append]
  unfold namesFor
  rw [flatMap_filter_if]
  have h2 : ∀ n ∈ namesOf ls, (if okName m.kind n then
        (((finishParse ⟨env, m, related⟩ (classOf n) (fieldSubject n) (sent m.kind n ls)).filter (·.1 == X)).map (·.2)) ++
        (ofClass X (evalNotes (ctx n) (evalSetup m t (ctx n) related ls n).1 (evalSetup m t (ctx n) related ls n).2)).map (·.subject) else []) =
      if f.validIn m.kind then (if (decide (classOf n = f)) then
        (countOf X (parseNotes ⟨env, m, related⟩ f (strip ((valuesOf ls n).headD [])))).map fun _ => fieldSubject n else []) else [] := by
    intro n hn
    rw [evalNotes_own _ _ _ (by rw [evalSetup_fid hn]; exact evalSetup_aux hn) (hX.evaluate _), List.map_nil, List.append_nil]
    by_cases hf : classOf n = f
    · rw [okName_class hf hX.known, decide_eq_true hf, if_pos rfl]
      congr 1
      unfold finishParse
      rw [hf, hk, ← sent_snd m.kind n ls]
      dsimp only
      cases hs : sent m.kind n ls with
      | nil => exact absurd hs (sent_ne_nil hn)
      | cons p ps => exact tagged_filter _ _ _
    · rw [finishParse_own (hX.parse _ hf)]
      simp [hf]
  rw [flatMap_congr_mem h2]
  split
  · rfl
  · simp

/-- **notes on the elements of a list field** -/
theorem list_notes {X f} (hX : ParseOnly X f) (hk : f.info.kind = .list) (hm : Linting env m) (hnew : (m.section t).handlers = [])
    (h : processSection env related t ls m = (m', .ok ())) :
    ∃ added : List Note, m'.notes = m.notes ++ added ∧ (ofClass X added).map (·.subject) =
      if f.validIn m.kind then (linesFor m.kind f ls).flatMap fun p =>
        List.replicate (((splitListField p.2.2).flatMap fun v => parseNotes ⟨env, m, related⟩ f (strip v)).count X) (offsetSubject p.1) else [] := by
  obtain ⟨added, ctx, e, hd, ht⟩ := section_ofClass X hX.origin hm hnew h
  refine ⟨added, e, ?_⟩
  simp only [← countOf_replicate]
  rw [ht]
  have h1 : ((namesOf ls).flatMap fun n => if okName m.kind n then
        (((finishParse ⟨env, m, related⟩ (classOf n) (fieldSubject n) (sent m.kind n ls)).filter (·.1 == X)).map (·.2)) ++
        (ofClass X (evalNotes (ctx n) (evalSetup m t (ctx n) related ls n).1 (evalSetup m t (ctx n) related ls n).2)).map (·.subject) else []) = [] := by
    rw [flatMap_congr_mem (g := fun _ => []) (fun n hn => ?_)]
    · simp
    · rw [evalNotes_own _ _ _ (by rw [evalSetup_fid hn]; exact evalSetup_aux hn) (hX.evaluate _), List.map_nil, List.append_nil]
      by_cases hf : classOf n = f
      · unfold finishParse; rw [hf, hk]; split <;> rfl
      · rw [finishParse_own (hX.parse _ hf)]; split <;> rfl
  rw [h1, List.append_nil]
  unfold linesFor
  rw [flatMap_filter_if]
  have h2 : ∀ p ∈ numbered m.kind 0 ls, ((countOf X (lineField ⟨env, m, related⟩ p.2)).map fun _ => offsetSubject p.1) =
      if f.validIn m.kind then (if decide (classOf (decodeName p.2.1) = f) then
        (countOf X ((splitListField p.2.2).flatMap fun v => parseNotes ⟨env, m, related⟩ f (strip v))).map fun _ => offsetSubject p.1 else []) else [] := by
    intro p _
    by_cases hf : classOf (decodeName p.2.1) = f
    · rw [decide_eq_true hf, if_pos rfl]
      have ha : accepted m.kind p.2 = f.validIn m.kind := okName_class hf hX.known
      unfold lineField
      dsimp only
      rw [ha]
      split
      · unfold elementField; rw [hf, hk]
      · rfl
    · rw [countOf_lineField (hX.parse _ hf)]
      simp [hf]
  rw [flatMap_congr_mem h2]
  split
  · rfl
  · simp

/-- **notes on a field's value** -/
theorem eval_notes {X f} (hX : EvalOnly X f) (hm : Linting env m) (hnew : (m.section t).handlers = [])
    (h : processSection env related t ls m = (m', .ok ())) :
    ∃ (added : List Note) (ctx : Str → Ctx), m'.notes = m.notes ++ added ∧ (∀ n ∈ namesOf ls, During env related t m (ctx n)) ∧
      (ofClass X added).map (·.subject) =
      if f.validIn m.kind then (namesFor f ls).flatMap fun n =>
        (ofClass X (evalNotes (ctx n) (evalSetup m t (ctx n) related ls n).1 (evalSetup m t (ctx n) related ls n).2)).map (·.subject) else [] := by
  obtain ⟨added, ctx, e, hd, ht⟩ := section_ofClass X hX.origin hm hnew h
  refine ⟨added, ctx, e, hd, ?_⟩
  rw [ht]
  have h1 : ((numbered m.kind 0 ls).flatMap fun p => (countOf X (lineField ⟨env, m, related⟩ p.2)).map fun _ => offsetSubject p.1) = [] := by
    rw [flatMap_congr_mem (g := fun _ => []) (fun p _ => by rw [countOf_lineField (hX.parse _)]; rfl)]
    simp
  rw [h1, List.nil_append]
  unfold namesFor
  rw [flatMap_filter_if]
  have h2 : ∀ n ∈ namesOf ls, (if okName m.kind n then
        (((finishParse ⟨env, m, related⟩ (classOf n) (fieldSubject n) (sent m.kind n ls)).filter (·.1 == X)).map (·.2)) ++
        (ofClass X (evalNotes (ctx n) (evalSetup m t (ctx n) related ls n).1 (evalSetup m t (ctx n) related ls n).2)).map (·.subject) else []) =
      if f.validIn m.kind then (if (decide (classOf n = f)) then
        (ofClass X (evalNotes (ctx n) (evalSetup m t (ctx n) related ls n).1 (evalSetup m t (ctx n) related ls n).2)).map (·.subject) else []) else [] := by
    intro n hn
    rw [finishParse_own (hX.parse _), List.nil_append]
    by_cases hf : classOf n = f
    · rw [okName_class hf hX.known, decide_eq_true hf, if_pos rfl]
    · rw [evalNotes_own _ _ _ (by rw [evalSetup_fid hn]; exact evalSetup_aux hn) (by rw [evalSetup_fid hn]; exact hX.evaluate _ hf)]
      simp [hf]
  rw [flatMap_congr_mem h2]
  split
  · rfl
  · simp

theorem evalSetup_subject {c : Ctx} {n : Str} (hn : n ∈ namesOf ls) : (evalSetup m t c related ls n).1.subject = fieldSubject n := by
  have : (readHandler ⟨c.env, m, related⟩ ls n).canonicalName = (mkHandler (classOf n) (spelling ls n)).canonicalName := by
    unfold readHandler handlerFor
    split
    · rw [(fed_id _ _ _).canon, classOf_spelling hn]
    · rw [(checked_id _ _).canon, classOf_spelling hn]
  show str "field-" ++ lower (readHandler ⟨c.env, m, related⟩ ls n).canonicalName = _
  rw [this, mkHandler_canon (b := n) (by rw [lower_spelling hn, lower_name hn])]
  rfl

theorem evalSetup_value {c : Ctx} {n : Str} (hm : Linting env m) (h : processSection env related t ls m = (m', .ok ()))
    (hn : n ∈ namesOf ls) (hok : okName m.kind n = true) (hd : During env related t m c) :
    (evalSetup m t c related ls n).2.value = lineValue ⟨env, m, related⟩ (classOf n) (valuesOf ls n) := by
  have hcl : ∀ l ∈ ls, accepted m.kind l = true → (classOf (decodeName l.1)).info.kind = .list →
      CleanElems ⟨env, m, related⟩ (classOf (decodeName l.1)) (splitListField l.2) := by
    unfold processSection at h
    split at h
    · simp at h
    · rename_i m1 heq; exact processLines_clean (hm.ready t) (Ext.refl t m) heq
  have hlv : lineValue c (classOf n) ((sent m.kind n ls).map (·.2)) = lineValue ⟨env, m, related⟩ (classOf n) (valuesOf ls n) := by
    rw [sent_snd]
    have hpt : ∀ f v, parseText c f v = parseText ⟨env, m, related⟩ f v := fun f v => parseText_during hd f v
    unfold lineValue
    rw [hd.env]
    simp only [hpt]
  unfold evalSetup evalHandler
  dsimp only
  rw [classOf_spelling hn, hd.env]
  cases hk : (classOf n).info.kind with
  | singleton =>
    dsimp only
    rw [← hlv]
    cases hs : sent m.kind n ls with
    | nil => exact absurd hs (sent_ne_nil hn)
    | cons p ps => rfl
  | broken => exact hlv
  | sf t => exact hlv
  | json => exact hlv
  | unknown =>
    dsimp only
    rw [fed_unknown (c := ⟨env, m, related⟩) (by rw [classOf_spelling hn]; exact hk) _, mkHandler_value]
    unfold lineValue
    rw [hk]
  | list =>
    dsimp only
    rw [fed_list (c := ⟨env, m, related⟩) (by rw [classOf_spelling hn]; exact hk) _ ?_, classOf_spelling hn]
    · unfold lineValue
      rw [hk, ← sent_snd m.kind n ls, List.flatMap_map]
    · intro p hp v hv e he
      rw [classOf_spelling hn] at he
      unfold sent linesOf at hp
      obtain ⟨q, hq, rfl⟩ := List.mem_map.1 hp
      obtain ⟨hq, hqn⟩ := List.mem_filter.1 hq
      have hq' : q.2 ∈ ls := by rw [← numbered_snd m.kind ls 0]; exact List.mem_map_of_mem hq
      have hqn' : lower (decodeName q.2.1) = lower n := by
        rw [lower_name hn]; simpa [lineKey] using hqn
      refine hcl q.2 hq' ?_ ?_ v hv e ?_
      · have : okName m.kind (decodeName q.2.1) = okName m.kind n := okName_lower hqn'
        unfold accepted; unfold okName at this hok; rw [this]; exact hok
      · rw [classOf_lower hqn']; exact hk
      · rw [classOf_lower hqn']; exact he

/-- **notes on a field's value**, when they depend on nothing but the value (and what does not change in a section) -/
theorem value_notes {X f} (hX : EvalOnly X f) (spec : Str → Nat)
    (hs : ∀ (c : Ctx) (add : AddNote) (hd : Handler), ∀ n ∈ namesFor f ls, During env related t m c → hd.fid = f →
      hd.value = lineValue ⟨env, m, related⟩ f (valuesOf ls n) → hd.value ≠ .none →
      (ofClass X (hd.evaluate c add).2.notes).map (·.subject) = List.replicate (spec n) add.subject)
    (hm : Linting env m) (hnew : (m.section t).handlers = []) (h : processSection env related t ls m = (m', .ok ())) :
    ∃ added : List Note, m'.notes = m.notes ++ added ∧ (ofClass X added).map (·.subject) =
      if f.validIn m.kind then (namesFor f ls).flatMap fun n =>
        if lineValue ⟨env, m, related⟩ f (valuesOf ls n) = .none then [] else List.replicate (spec n) (fieldSubject n) else [] := by
  obtain ⟨added, ctx, e, hd, ht⟩ := eval_notes hX hm hnew h
  refine ⟨added, e, ?_⟩
  rw [ht]
  by_cases hv : f.validIn m.kind = true
  · rw [if_pos hv, if_pos hv]
    apply flatMap_congr_mem
    intro n hn0
    have hn := hn0
    unfold namesFor at hn
    obtain ⟨hn, hf⟩ := List.mem_filter.1 hn
    have hf : classOf n = f := by simpa using hf
    have hval := evalSetup_value hm h hn (by rw [okName_class hf hX.known]; exact hv) (hd n hn)
    have hfid : (evalSetup m t (ctx n) related ls n).2.fid = f := by rw [evalSetup_fid hn, hf]
    have hsub := evalSetup_subject (t := t) (m := m) (related := related) (c := ctx n) hn
    rw [hf] at hval
    rw [← hsub]
    unfold evalNotes
    rw [hval]
    split
    · rfl
    · rename_i hne
      exact hs _ _ _ n hn0 (hd n hn) hfid hval (by rw [hval]; exact hne)
  · rw [if_neg hv, if_neg hv]

end

end HL.Props
