import Verif.Props.FieldValues

/-!
# C13–C15, C17, C18, C20, C22: what a section records and reports for its fields

All theorems are about `FieldSection.process` on a section that has not been used, of any message that can exist
(`Linting`), when it returns normally.
-/

namespace HL.Props

/-! ### C13, C14: names that are not acceptable -/

/-- **C13** (values) a field that is only defined for the other kind of message is not parsed: `parsed` maps its name to
`None`.  Missing: `Set-Cookie` in a request and `Cookie` in a response (`C13_counterexample`). -/
theorem C13_value_partial (env : Env) (related : Option Msg) (t : Bool) (ls : List Line) (m m' : Msg) (hm : Linting env m)
    (hnew : (m.section t).handlers = []) (hu : Unpadded ls) (h : processSection env related t ls m = (m', .ok ()))
    (n : Str) (hn : n ∈ namesOf ls) (hv : (classOf n).validIn m.kind = false) (hk : (classOf n).info.kind ≠ .broken) :
    dget (m'.section t).parsed n = some .none := by
  rw [section_values hm hnew hu h, if_pos hn]
  unfold fieldValue okName
  rw [hv, Bool.false_and, if_neg (by simp), Bool.false_or, if_neg (by simpa using hk)]

/-- the two classes the previous theorem leaves out -/
theorem C13_broken_classes (f : FieldId) (h : f.info.kind = .broken) : f = .cookie_ ∨ f = .set_cookie_ := by
  cases f <;> first | exact .inl rfl | exact .inr rfl | exact absurd h (by decide)

/-- **C13 is false** for these: a request with `Set-Cookie` gets an empty list, not `None` -/
theorem C13_counterexample :
    (processSection toyEnv none false [(str "Set-Cookie", str "a=b")] (fresh toyEnv .request none false false)).2 = .ok () ∧
    dget (processSection toyEnv none false [(str "Set-Cookie", str "a=b")] (fresh toyEnv .request none false false)).1.headers.parsed
      (str "set-cookie") = some (.list []) := by
  decide +kernel

/-- **C14** (values) lines whose name is not a token contribute nothing: whatever their values, the field's value is the
empty list it starts with -/
theorem C14_value (env : Env) (related : Option Msg) (t : Bool) (ls : List Line) (m m' : Msg) (hm : Linting env m)
    (hnew : (m.section t).handlers = []) (hu : Unpadded ls) (h : processSection env related t ls m = (m', .ok ()))
    (n : Str) (hn : n ∈ namesOf ls) (hv : n = [] ∨ ∃ c ∈ n, isTchar c = false) :
    dget (m'.section t).parsed n = some (.list []) := by
  have hs : strip n = n := by
    obtain ⟨l, hl, hk⟩ := mem_namesOf.1 hn
    rw [← hk]
    unfold lineKey
    rw [strip_lower, hu l hl]
  have ht : isToken (strip n) = false := by
    rw [← Bool.not_eq_true, isToken_strip, hs]
    rintro ⟨h1, h2⟩
    rcases hv with hv | ⟨c, hc, he⟩
    · exact h1 hv
    · rw [h2 c hc] at he; exact nomatch he
  rw [section_values hm hnew hu h, if_pos hn]
  unfold fieldValue okName
  rw [ht, Bool.and_false, if_neg (by simp), classOf_notToken ht]
  cases m.kind <;> rfl

/-! ### C15: unknown fields -/

theorem unknown_kind {n : Str} (h : findHandlerClass n = none) : classOf n = .unknownField := by unfold classOf; rw [h]; rfl

/-- **C15** (values) a field without a registered parser has an entry in `parsed` -/
theorem C15_entry (env : Env) (related : Option Msg) (t : Bool) (ls : List Line) (m m' : Msg) (hm : Linting env m)
    (hnew : (m.section t).handlers = []) (hu : Unpadded ls) (h : processSection env related t ls m = (m', .ok ()))
    (n : Str) (hn : n ∈ namesOf ls) (hf : findHandlerClass n = none) :
    dget (m'.section t).parsed n = some (.list []) := by
  rw [section_values hm hnew hu h, if_pos hn]
  unfold fieldValue okName lineValue
  rw [unknown_kind hf]
  cases m.kind <;> (split <;> rfl)

theorem evalAfter_unknown (c add) (h : Handler) (hf : h.fid = .unknownField) : (h.evalAfter c add []).2.notes = [] := by
  unfold Handler.evalAfter
  split
  · rfl
  · show [] ++ (h.evaluate c add).2.notes = []
    unfold Handler.evaluate; rw [hf]; rfl

/-- the notes an unknown field's line can get -/
def sectionLevel : List NoteId :=
  [.FIELD_NAME_ENCODING, .FIELD_VALUE_ENCODING, .FIELD_NAME_BAD_SYNTAX, .FIELD_TOO_LARGE, .FIELD_SECTION_TOO_LARGE]

theorem processLine_unknown {env related t} {m : Msg} {o : Nat} {l : Line} (hr : Ready env t m)
    (hf : findHandlerClass (decodeName l.1) = none) :
    ∃ added, (processLine env related t m o l).1.notes = m.notes ++ added ∧ ∀ n ∈ added, n.cls ∈ sectionLevel := by
  obtain ⟨name, value⟩ := l
  have hfid : (lineHandler t m name).fid = .unknownField := (hr.ids.handler (decodeName name)).1.trans (unknown_kind hf)
  have h1 : ∀ n ∈ encNotes m o name value, n.cls ∈ sectionLevel := by
    unfold encNotes
    intro n hn
    rcases List.mem_append.1 hn with hn | hn <;> (split at hn <;> simp only [List.mem_singleton, List.not_mem_nil] at hn) <;> (subst hn; unfold sectionLevel; simp)
  have h2 : ∀ n ∈ (lineCheck t m o name).2.2, n.cls ∈ sectionLevel := by
    unfold lineCheck Handler.preCheck
    rw [hfid]
    have hv : FieldId.unknownField.validIn m.kind = true := by cases m.kind <;> rfl
    rw [hv]
    intro n hn
    simp only [Bool.not_true, Bool.false_eq_true, if_false] at hn
    split at hn
    · simp only [List.mem_singleton] at hn; subst hn; unfold sectionLevel; simp
    · exact absurd hn (by simp [FieldId.info])
  have h3 : (lineInput env related t m o name value).2 = ⟨[], .ok ()⟩ := by
    have : (lineCheck t m o name).1.fid = .unknownField := by rw [← hfid]; exact (preCheck_id _ _ _).fid
    unfold lineInput Handler.handleInput
    rw [this]
    rfl
  rw [processLine_eq]
  split
  · exact ⟨encNotes m o name value ++ (lineCheck t m o name).2.2, by unfold lineMid; cases t <;> rfl, mem_append_of h1 h2⟩
  · dsimp only
    rw [h3]
    dsimp only
    refine ⟨encNotes m o name value ++ (lineCheck t m o name).2.2 ++ bigNotes m o name value (lineInput env related t m o name value).1, ?_, ?_⟩
    · cases t <;> simp [Msg.addNotes, Msg.setSection]
    · refine mem_append_of (mem_append_of h1 h2) ?_
      unfold bigNotes
      intro n hn
      split at hn <;> simp only [List.mem_singleton, List.not_mem_nil] at hn
      subst hn; unfold sectionLevel; simp

/-- a note of a section whose fields are unknown -/
theorem finish_unknown {c add} (h : Handler) (hf : h.fid = .unknownField) : (h.finish c add).2.notes = [] := by
  have hk : h.fid.info.kind = .unknown := by rw [hf]; rfl
  unfold Handler.finish
  rw [hk]
  exact evalAfter_unknown c add h hf

theorem processLines_unknown {env related t} {ls : List Line} {m m' : Msg} {o : Nat} (hr : Ready env t m)
    (h : processLines env related t ls o m = (m', .ok ())) :
    ∃ chunks : List (List Note), chunks.length = ls.length ∧ m'.notes = m.notes ++ chunks.flatten ∧
      ∀ (i : Nat) l ns, ls[i]? = some l → chunks[i]? = some ns → findHandlerClass (decodeName l.1) = none → ∀ n ∈ ns, n.cls ∈ sectionLevel := by
  induction ls generalizing o m with
  | nil =>
    simp only [processLines, Prod.mk.injEq] at h
    exact ⟨[], rfl, by simp [h.1], by intro i l ns hl; simp at hl⟩
  | cons l ls ih =>
    unfold processLines at h
    split at h
    · simp at h
    · rename_i m1 o1 heq
      have hr' : Ready env t m1 := by have := hr.line (related := related) o l; rwa [heq] at this
      obtain ⟨cs, hlen, e, hc⟩ := ih hr' h
      obtain ⟨a, ea, ha⟩ : ∃ a, m1.notes = m.notes ++ a ∧ (findHandlerClass (decodeName l.1) = none → ∀ n ∈ a, n.cls ∈ sectionLevel) := by
        cases hf : findHandlerClass (decodeName l.1) with
        | none =>
          obtain ⟨a, ea, ha⟩ := processLine_unknown (related := related) (o := o) hr hf
          rw [heq] at ea
          exact ⟨a, ea, fun _ => ha⟩
        | some f =>
          have := processLine_ext env related t m o l
          rw [heq] at this
          obtain ⟨ns, s, hx⟩ := this
          have hx' : m1 = _ := hx
          exact ⟨ns, by rw [hx']; cases t <;> rfl, fun h => nomatch h⟩
      refine ⟨a :: cs, by simp [hlen], by rw [e, ea, List.flatten_cons, List.append_assoc], ?_⟩
      intro i l' ns hl hns
      cases i with
      | zero =>
        simp only [List.getElem?_cons_zero, Option.some.injEq] at hl hns
        subst hl; subst hns; exact ha
      | succ i =>
        simp only [List.getElem?_cons_succ] at hl hns
        exact hc i l' ns hl hns

/-- **C15** (notes) the notes added by a section consist of notes for each line, one about the size of the section, and notes
for each name; a line whose name is unregistered gets only section-level notes (encodings, sizes, syntax of the name), and
an unregistered name gets none -/
theorem C15_notes (env : Env) (related : Option Msg) (t : Bool) (ls : List Line) (m m' : Msg) (hm : Linting env m)
    (hnew : (m.section t).handlers = []) (h : processSection env related t ls m = (m', .ok ())) :
    ∃ (lineNotes : List (List Note)) (sizeNotes : List Note) (nameNotes : Str → List Note),
      m'.notes = m.notes ++ (lineNotes.flatten ++ sizeNotes ++ (namesOf ls).flatMap nameNotes) ∧ lineNotes.length = ls.length ∧
      (∀ (i : Nat) l ns, ls[i]? = some l → lineNotes[i]? = some ns → findHandlerClass (decodeName l.1) = none → ∀ n ∈ ns, n.cls ∈ sectionLevel) ∧
      (∀ n ∈ sizeNotes, n.cls = .FIELD_SECTION_TOO_LARGE) ∧
      (∀ n ∈ namesOf ls, findHandlerClass n = none → nameNotes n = []) := by
  obtain ⟨a, b, ctx, ha, _, hb, hd, hp, _⟩ := section_outcome (hm.ready t) hnew h
  have hpl : ∃ m1, processLines env related t ls 0 m = (m1, .ok ()) := by
    unfold processSection at h
    split at h
    · simp at h
    · rename_i m1 heq; exact ⟨m1, heq⟩
  obtain ⟨m1, heq⟩ := hpl
  obtain ⟨cs, hlen, e, hc⟩ := processLines_unknown (hm.ready t) heq
  rw [heq] at ha
  have hac : a = cs.flatten := List.append_cancel_left (ha.symm.trans e)
  refine ⟨cs, b, fun n => (finishIn m t (readHandler ⟨env, m, related⟩ ls n) (ctx n)).2.notes, by rw [hp, hac], hlen, hc, hb, ?_⟩
  intro n hn hf
  apply finish_unknown
  unfold readHandler handlerFor
  have := (classOf_spelling hn).trans (unknown_kind hf)
  split
  · rw [(fed_id _ _ _).fid, mkHandler_fid, this]
  · rw [(checked_id _ _).fid, mkHandler_fid, this]

/-- in particular: a section with unregistered names only -/
theorem C15_notes_only (env : Env) (related : Option Msg) (t : Bool) (ls : List Line) (m m' : Msg) (hm : Linting env m)
    (hnew : (m.section t).handlers = []) (h : processSection env related t ls m = (m', .ok ()))
    (hf : ∀ l ∈ ls, findHandlerClass (decodeName l.1) = none) :
    ∃ added, m'.notes = m.notes ++ added ∧ ∀ n ∈ added, n.cls ∈ sectionLevel := by
  obtain ⟨lns, sz, nns, e, hlen, h1, h2, h3⟩ := C15_notes env related t ls m m' hm hnew h
  refine ⟨_, e, ?_⟩
  intro n hn
  rcases List.mem_append.1 hn with hn | hn
  · rcases List.mem_append.1 hn with hn | hn
    · obtain ⟨ns, hns, hn⟩ := List.mem_flatten.1 hn
      obtain ⟨i, hi, rfl⟩ := List.mem_iff_getElem.1 hns
      exact h1 i (ls[i]'(by omega)) lns[i] (List.getElem?_eq_getElem _) (List.getElem?_eq_getElem _) (hf _ (List.getElem_mem _)) n hn
    · rw [h2 n hn]; decide
  · obtain ⟨k, hk, hn⟩ := List.mem_flatMap.1 hn
    obtain ⟨l, hl, hkl⟩ := mem_namesOf.1 hk
    have : findHandlerClass k = none := by rw [← hkl]; unfold lineKey; rw [findHandlerClass_lower]; exact hf l hl
    rw [h3 k hk this] at hn
    simp at hn

/-! ### C17: singletons -/

theorem evaluated_singleton {f : FieldId} (h : f.info.kind = .singleton) (v : Val) : evaluated f v = v := by
  unfold evaluated
  split
  · exact absurd h (by decide)
  · exact absurd h (by decide)
  · rfl

theorem afterCheck_singleton {f : FieldId} (h : f.info.kind = .singleton) (v : Val) : afterCheck f v = v := by
  unfold afterCheck
  rw [evaluated_singleton h]
  split
  · rename_i e; exact e.symm
  · rfl

/-- **C17** a field that allows one value: `parsed` holds what its first line parses to (`None` when the line is rejected),
whatever lines follow -/
theorem C17_value (env : Env) (related : Option Msg) (t : Bool) (ls : List Line) (m m' : Msg) (hm : Linting env m)
    (hnew : (m.section t).handlers = []) (hu : Unpadded ls) (h : processSection env related t ls m = (m', .ok ()))
    (n : Str) (hk : (classOf n).info.kind = .singleton) (hok : okName m.kind n = true) (first : Str) (rest : List Str)
    (hx : valuesOf ls n = first :: rest) :
    dget (m'.section t).parsed n = some (match parseText ⟨env, m, related⟩ (classOf n) (strip first) with
      | .ok v => v
      | .error _ => .none) := by
  have hn : n ∈ namesOf ls := by
    have : first ∈ valuesOf ls n := by rw [hx]; simp
    unfold valuesOf at this
    obtain ⟨l, hl, _⟩ := List.mem_map.1 this
    obtain ⟨hl, hl2⟩ := List.mem_filter.1 hl
    exact mem_namesOf.2 ⟨l, hl, by simpa using hl2⟩
  rw [section_values hm hnew hu h, if_pos hn]
  unfold fieldValue
  rw [if_pos hok, afterCheck_singleton hk]
  unfold lineValue
  rw [hk, hx]
  dsimp only
  cases parseText ⟨env, m, related⟩ (classOf n) (strip first) <;> rfl

theorem ofClass_frame {added : List Note} (x : NoteId) (hx : x.origin = .frame) :
    (ofClass x added).map (·.subject) = (((added.filter isFrame).map tag).filter (·.1 == x)).map (·.2) := by
  rw [List.filter_map, List.map_map, List.filter_filter]
  unfold ofClass
  have : (fun n : Note => (((fun y : NoteId × Str => y.1 == x) ∘ tag) n && isFrame n)) = (fun n : Note => n.cls == x) := by
    funext n
    show (n.cls == x && isFrame n) = _
    cases hc : n.cls == x
    · rfl
    · unfold isFrame; rw [eq_of_beq hc, hx]; rfl
  rw [this]
  rfl

theorem elementNotes_classes (f v) : ∀ x ∈ elementNotes f v, x = .BAD_SYNTAX ∨ x = .BAD_SYNTAX_DETAILED := by
  unfold elementNotes
  intro x hx
  split at hx
  · obtain ⟨w, _, hw⟩ := List.mem_filterMap.1 hx
    unfold elemVerdict at hw
    split at hw
    · exact nomatch hw
    · split at hw
      · exact nomatch hw
      · split at hw
        · cases hw; exact .inr rfl
        · split at hw
          · cases hw; exact .inl rfl
          · exact nomatch hw
  · simp at hx

/-- the part of a section's syntax notes with a class that lines do not get -/
theorem section_frame_class {env related t} {ls : List Line} {m m' : Msg} (hm : Linting env m) (hnew : (m.section t).handlers = [])
    (h : processSection env related t ls m = (m', .ok ())) (x : NoteId) (hx : x.origin = .frame) (h1 : x ≠ .BAD_SYNTAX) (h2 : x ≠ .BAD_SYNTAX_DETAILED) :
    ∃ added, m'.notes = m.notes ++ added ∧ (ofClass x added).map (·.subject) =
      (namesOf ls).flatMap fun n => (((if okName m.kind n then finishFrame env (classOf n) (fieldSubject n) (sent m.kind n ls) else []).filter (·.1 == x)).map (·.2)) := by
  obtain ⟨added, e, hf⟩ := section_frame hm hnew h
  refine ⟨added, e, ?_⟩
  rw [ofClass_frame x hx, hf, List.filter_append, List.filter_flatMap, List.filter_flatMap]
  have : ((numbered m.kind 0 ls).flatMap fun a => List.filter (fun y => y.1 == x) (List.map (fun y => (y, offsetSubject a.1)) (lineFrame m.kind a.2))) = [] := by
    rw [List.flatMap_eq_nil_iff]
    intro p hp
    rw [List.filter_eq_nil_iff]
    intro q hq
    obtain ⟨c, hc, rfl⟩ := List.mem_map.1 hq
    unfold lineFrame at hc
    split at hc
    · rcases elementNotes_classes _ _ c hc with rfl | rfl
      · simpa using fun e => h1 e.symm
      · simpa using fun e => h2 e.symm
    · simp at hc
  rw [this, List.nil_append, List.map_flatMap]

theorem flatMap_ite_map {α β} (l : List α) (p : α → Bool) (f : α → β) : (l.flatMap fun a => if p a then [f a] else []) = (l.filter p).map f := by
  induction l with
  | nil => rfl
  | cons a l ih =>
    rw [List.flatMap_cons, ih]
    cases hp : p a
    · rw [List.filter_cons_of_neg (by simp [hp])]; rfl
    · rw [List.filter_cons_of_pos hp]; rfl

/-- **C17** (repetition) `SINGLE_HEADER_REPEAT` is added once for each such field with more than one line, about that
field, and for nothing else -/
theorem C17_repeat (env : Env) (related : Option Msg) (t : Bool) (ls : List Line) (m m' : Msg) (hm : Linting env m)
    (hnew : (m.section t).handlers = []) (h : processSection env related t ls m = (m', .ok ())) :
    ∃ added, m'.notes = m.notes ++ added ∧ (ofClass .SINGLE_HEADER_REPEAT added).map (·.subject) =
      ((namesOf ls).filter fun n => okName m.kind n && (classOf n).info.kind == .singleton && decide ((valuesOf ls n).length > 1)).map fieldSubject := by
  obtain ⟨added, e, hf⟩ := section_frame_class hm hnew h .SINGLE_HEADER_REPEAT rfl (by decide) (by decide)
  refine ⟨added, e, hf.trans ?_⟩
  rw [← flatMap_ite_map]
  apply flatMap_congr_mem
  intro n hn
  have hlen : (sent m.kind n ls).length = (valuesOf ls n).length := by rw [← sent_snd m.kind n ls, List.length_map]
  by_cases hok : okName m.kind n = true
  · rw [if_pos hok, hok, Bool.true_and]
    unfold finishFrame
    cases hk : (classOf n).info.kind with
    | singleton =>
      dsimp only
      rw [hlen]
      have e2 : ∀ l1 l2 : List (NoteId × Str), (∀ a ∈ l2, a.1 = .BAD_SYNTAX) →
          (l1 ++ l2).filter (fun y => y.1 == NoteId.SINGLE_HEADER_REPEAT) = l1.filter (fun y => y.1 == NoteId.SINGLE_HEADER_REPEAT) := by
        intro l1 l2 hl
        have e3 : l2.filter (fun y => y.1 == NoteId.SINGLE_HEADER_REPEAT) = [] := by
          rw [List.filter_eq_nil_iff]
          intro a ha; rw [hl a ha]; simp
        rw [List.filter_append, e3, List.append_nil]
      rw [e2 _ _ (by
        intro a ha
        split at ha
        · split at ha
          · simp at ha
          · split at ha <;> simp only [List.mem_singleton, List.not_mem_nil] at ha
            subst ha; rfl
        · simp at ha)]
      by_cases hl : (valuesOf ls n).length > 1
      · rw [if_pos hl, decide_eq_true hl]; rfl
      · rw [if_neg hl, decide_eq_false hl]; rfl
    | list => rfl
    | unknown => rfl
    | broken =>
      dsimp only
      rw [List.filter_eq_nil_iff.2]
      · rfl
      · intro a ha; obtain ⟨q, _, rfl⟩ := List.mem_map.1 ha; simp
    | sf t =>
      dsimp only
      rw [List.filter_eq_nil_iff.2]
      · rfl
      · intro a ha
        split at ha
        · obtain ⟨q, _, rfl⟩ := List.mem_map.1 ha; simp
        · rcases List.mem_append.1 ha with ha | ha
          · obtain ⟨q, _, rfl⟩ := List.mem_map.1 ha; simp
          · simp only [List.mem_singleton] at ha; subst ha; simp
        · rcases List.mem_append.1 ha with ha | ha
          · obtain ⟨q, _, rfl⟩ := List.mem_map.1 ha; simp
          · simp only [List.mem_singleton] at ha; subst ha; simp
    | json =>
      dsimp only
      split <;> rfl
  · rw [if_neg hok]
    have : okName m.kind n = false := by simpa using hok
    rw [this]; rfl

/-! ### C18: lists -/

/-- **C18** a list field: `parsed` holds what the elements of all its lines parse to, in order, without those that are
rejected; how the elements are divided into lines does not matter.  (`Vary` then drops repeated names.) -/
theorem C18_value (env : Env) (related : Option Msg) (t : Bool) (ls : List Line) (m m' : Msg) (hm : Linting env m)
    (hnew : (m.section t).handlers = []) (hu : Unpadded ls) (h : processSection env related t ls m = (m', .ok ()))
    (n : Str) (hn : n ∈ namesOf ls) (hk : (classOf n).info.kind = .list) (hok : okName m.kind n = true) (hv : classOf n ≠ .vary_) :
    dget (m'.section t).parsed n = some (.list (((valuesOf ls n).flatMap splitListField).filterMap fun x =>
      (parseText ⟨env, m, related⟩ (classOf n) (strip x)).toOption)) := by
  rw [section_values hm hnew hu h, if_pos hn]
  unfold fieldValue
  rw [if_pos hok]
  unfold afterCheck lineValue
  rw [hk]
  dsimp only
  rw [if_neg (by simp)]
  unfold evaluated
  split
  · rename_i e; exact absurd e hv
  · rename_i e; rw [e] at hk; exact absurd hk (by decide)
  · rfl

/-- `Vary`: the names in lower case, each once -/
theorem C18_vary (env : Env) (related : Option Msg) (t : Bool) (ls : List Line) (m m' : Msg) (hm : Linting env m)
    (hnew : (m.section t).handlers = []) (hu : Unpadded ls) (h : processSection env related t ls m = (m', .ok ()))
    (hn : str "vary" ∈ namesOf ls) (hok : okName m.kind (str "vary") = true) :
    dget (m'.section t).parsed (str "vary") =
      some (.list ((dedup (((valuesOf ls (str "vary")).flatMap splitListField).map fun x => lower (strip x))).map .str)) := by
  have hc : classOf (str "vary") = .vary_ := by decide +kernel
  rw [section_values hm hnew hu h, if_pos hn]
  unfold fieldValue
  rw [if_pos hok, hc]
  unfold afterCheck lineValue
  have hk : FieldId.vary_.info.kind = .list := rfl
  rw [hk]
  dsimp only
  rw [if_neg (by simp)]
  unfold evaluated Val.iter
  dsimp only
  have : ∀ x, parseText ⟨env, m, related⟩ .vary_ x = .ok (.str (lower x)) := by
    intro x; unfold parseText Handler.parse; rw [mkHandler_fid]; rfl
  simp only [this]
  congr 4
  generalize (valuesOf ls (str "vary")).flatMap splitListField = xs
  induction xs with
  | nil => rfl
  | cons x xs ih => exact congrArg (lower (strip x) :: ·) ih

/-- the same elements, differently divided into lines, give the same value -/
theorem C18_division (env : Env) (related : Option Msg) (t : Bool) (ls₁ ls₂ : List Line) (m m₁ m₂ : Msg) (hm : Linting env m)
    (hnew : (m.section t).handlers = []) (hu₁ : Unpadded ls₁) (hu₂ : Unpadded ls₂)
    (h₁ : processSection env related t ls₁ m = (m₁, .ok ())) (h₂ : processSection env related t ls₂ m = (m₂, .ok ()))
    (n : Str) (hn₁ : n ∈ namesOf ls₁) (hn₂ : n ∈ namesOf ls₂) (hk : (classOf n).info.kind = .list)
    (he : (valuesOf ls₁ n).flatMap splitListField = (valuesOf ls₂ n).flatMap splitListField) :
    dget (m₁.section t).parsed n = dget (m₂.section t).parsed n := by
  rw [section_values hm hnew hu₁ h₁, section_values hm hnew hu₂ h₂, if_pos hn₁, if_pos hn₂]
  unfold fieldValue lineValue
  rw [hk]
  dsimp only
  rw [he]

/-! ### C22: structured and JSON fields -/

/-- **C22** a structured field's value is what the structured-field parser makes of the joined lines, `None` if it fails
(`Accept-Query` then lower-cases its ranges) -/
theorem C22_sf_value (env : Env) (related : Option Msg) (t : Bool) (ls : List Line) (m m' : Msg) (hm : Linting env m)
    (hnew : (m.section t).handlers = []) (hu : Unpadded ls) (h : processSection env related t ls m = (m', .ok ()))
    (n : Str) (hn : n ∈ namesOf ls) (ty : Str) (hk : (classOf n).info.kind = .sf ty) (hok : okName m.kind n = true) :
    dget (m'.section t).parsed n = some (match env.sfParse ty (strip (join (str ", ") (valuesOf ls n))) with
      | .ok v _ => if v = .none then .none else evaluated (classOf n) v
      | _ => .none) := by
  rw [section_values hm hnew hu h, if_pos hn]
  unfold fieldValue
  rw [if_pos hok]
  have hl : lineValue ⟨env, m, related⟩ (classOf n) (valuesOf ls n) = (match env.sfParse ty (strip (join (str ", ") (valuesOf ls n))) with | .ok v _ => v | _ => .none) := by
    unfold lineValue; rw [hk]; rfl
  rw [hl]
  cases env.sfParse ty (strip (join (str ", ") (valuesOf ls n))) <;> rfl

/-- only `Accept-Query` among the structured fields changes its value when it is checked -/
theorem C22_sf_kept (f : FieldId) (ty : Str) (hk : f.info.kind = .sf ty) (hf : f ≠ .accept_query_) (v : Val) : evaluated f v = v := by
  unfold evaluated
  split
  · exact absurd hk (by simp [FieldId.info])
  · exact absurd rfl hf
  · rfl

/-- **C22** a JSON field's value is what the JSON parser makes of the joined lines in brackets, `None` if it fails -/
theorem C22_json_value (env : Env) (related : Option Msg) (t : Bool) (ls : List Line) (m m' : Msg) (hm : Linting env m)
    (hnew : (m.section t).handlers = []) (hu : Unpadded ls) (h : processSection env related t ls m = (m', .ok ()))
    (n : Str) (hn : n ∈ namesOf ls) (hk : (classOf n).info.kind = .json) (hok : okName m.kind n = true) :
    dget (m'.section t).parsed n = some (match env.jsonLoads (str "[" ++ join (str ", ") (valuesOf ls n) ++ str "]") with
      | .ok v => v
      | _ => .none) := by
  rw [section_values hm hnew hu h, if_pos hn]
  unfold fieldValue
  rw [if_pos hok]
  have hl : lineValue ⟨env, m, related⟩ (classOf n) (valuesOf ls n) = (match env.jsonLoads (str "[" ++ join (str ", ") (valuesOf ls n) ++ str "]") with | .ok v => v | _ => .none) := by
    unfold lineValue; rw [hk]; rfl
  rw [hl]
  have hev : ∀ v, evaluated (classOf n) v = v := by
    intro v
    unfold evaluated
    split
    · rename_i e; rw [e] at hk; exact absurd hk (by decide)
    · rename_i e; rw [e] at hk; exact absurd hk (by decide)
    · rfl
  cases env.jsonLoads (str "[" ++ join (str ", ") (valuesOf ls n) ++ str "]") with
  | ok v =>
    unfold afterCheck
    dsimp only
    rw [hev]
    split
    · rename_i e; rw [e]
    · rfl
  | decodeError p => rfl
  | raises e => rfl

/-- the structured-field parser rejects it -/
def sfFails : SfResult → Bool
  | .ok _ _ => false
  | _ => true

/-- **C22** (failures) `STRUCTURED_FIELD_PARSE_ERROR` is added once for each structured field whose joined lines do not
parse, about that field, and for nothing else -/
theorem C22_sf_error (env : Env) (related : Option Msg) (t : Bool) (ls : List Line) (m m' : Msg) (hm : Linting env m)
    (hnew : (m.section t).handlers = []) (h : processSection env related t ls m = (m', .ok ())) :
    ∃ added, m'.notes = m.notes ++ added ∧ (ofClass .STRUCTURED_FIELD_PARSE_ERROR added).map (·.subject) =
      ((namesOf ls).filter fun n => okName m.kind n && (match (classOf n).info.kind with
        | .sf ty => sfFails (env.sfParse ty (strip (join (str ", ") (valuesOf ls n))))
        | _ => false)).map fieldSubject := by
  obtain ⟨added, e, hf⟩ := section_frame_class hm hnew h .STRUCTURED_FIELD_PARSE_ERROR rfl (by decide) (by decide)
  refine ⟨added, e, hf.trans ?_⟩
  rw [← flatMap_ite_map]
  apply flatMap_congr_mem
  intro n hn
  have hlen : (sent m.kind n ls).map (·.2) = valuesOf ls n := sent_snd _ _ _
  by_cases hok : okName m.kind n = true
  · rw [if_pos hok, hok, Bool.true_and]
    unfold finishFrame
    cases hk : (classOf n).info.kind with
    | singleton =>
      dsimp only
      rw [List.filter_eq_nil_iff.2]
      · rfl
      · intro a ha
        rcases List.mem_append.1 ha with ha | ha
        · split at ha <;> simp only [List.mem_singleton, List.not_mem_nil] at ha
          subst ha; simp
        · split at ha
          · split at ha
            · simp at ha
            · split at ha <;> simp only [List.mem_singleton, List.not_mem_nil] at ha
              subst ha; simp
          · simp at ha
    | list => rfl
    | unknown => rfl
    | broken =>
      dsimp only
      rw [List.filter_eq_nil_iff.2]
      · rfl
      · intro a ha; obtain ⟨q, _, rfl⟩ := List.mem_map.1 ha; simp
    | sf ty =>
      dsimp only
      rw [hlen]
      have hd : ∀ d : List (Str × Str), (d.map fun _ => (NoteId.DUPLICATE_KEY, fieldSubject n)).filter (fun y => y.1 == NoteId.STRUCTURED_FIELD_PARSE_ERROR) = [] := by
        intro d
        rw [List.filter_eq_nil_iff]
        intro a ha
        obtain ⟨q, _, rfl⟩ := List.mem_map.1 ha; simp
      have key : ∀ x : SfResult, (List.filter (fun y => y.1 == NoteId.STRUCTURED_FIELD_PARSE_ERROR) (match x with
          | .ok _ d => d.map fun _ => (NoteId.DUPLICATE_KEY, fieldSubject n)
          | .sfError _ _ d => (d.map fun _ => (NoteId.DUPLICATE_KEY, fieldSubject n)) ++ [(NoteId.STRUCTURED_FIELD_PARSE_ERROR, fieldSubject n)]
          | .error _ d => (d.map fun _ => (NoteId.DUPLICATE_KEY, fieldSubject n)) ++ [(NoteId.STRUCTURED_FIELD_PARSE_ERROR, fieldSubject n)])).map (·.2) =
          if sfFails x then [fieldSubject n] else [] := by
        intro x
        cases x with
        | ok v d => dsimp only [sfFails]; rw [hd]; rfl
        | sfError p i d => dsimp only [sfFails]; rw [List.filter_append, hd]; rfl
        | error p d => dsimp only [sfFails]; rw [List.filter_append, hd]; rfl
      exact key _
    | json =>
      dsimp only
      split <;> rfl
  · rw [if_neg hok]
    have : okName m.kind n = false := by simpa using hok
    rw [this]; rfl

/-- **C22** (failures) `BAD_JSON` is added once for each JSON field whose joined lines do not parse, about that field,
and for nothing else -/
theorem C22_json_error (env : Env) (related : Option Msg) (t : Bool) (ls : List Line) (m m' : Msg) (hm : Linting env m)
    (hnew : (m.section t).handlers = []) (h : processSection env related t ls m = (m', .ok ())) :
    ∃ added, m'.notes = m.notes ++ added ∧ (ofClass .BAD_JSON added).map (·.subject) =
      ((namesOf ls).filter fun n => okName m.kind n && (match (classOf n).info.kind with
        | .json => (match env.jsonLoads (str "[" ++ join (str ", ") (valuesOf ls n) ++ str "]") with | .decodeError _ => true | _ => false)
        | _ => false)).map fieldSubject := by
  obtain ⟨added, e, hf⟩ := section_frame_class hm hnew h .BAD_JSON rfl (by decide) (by decide)
  refine ⟨added, e, hf.trans ?_⟩
  rw [← flatMap_ite_map]
  apply flatMap_congr_mem
  intro n hn
  have hlen : (sent m.kind n ls).map (·.2) = valuesOf ls n := sent_snd _ _ _
  by_cases hok : okName m.kind n = true
  · rw [if_pos hok, hok, Bool.true_and]
    unfold finishFrame
    cases hk : (classOf n).info.kind with
    | singleton =>
      dsimp only
      rw [List.filter_eq_nil_iff.2]
      · rfl
      · intro a ha
        rcases List.mem_append.1 ha with ha | ha
        · split at ha <;> simp only [List.mem_singleton, List.not_mem_nil] at ha
          subst ha; simp
        · split at ha
          · split at ha
            · simp at ha
            · split at ha <;> simp only [List.mem_singleton, List.not_mem_nil] at ha
              subst ha; simp
          · simp at ha
    | list => rfl
    | unknown => rfl
    | broken =>
      dsimp only
      rw [List.filter_eq_nil_iff.2]
      · rfl
      · intro a ha; obtain ⟨q, _, rfl⟩ := List.mem_map.1 ha; simp
    | sf ty =>
      dsimp only
      rw [List.filter_eq_nil_iff.2]
      · rfl
      · intro a ha
        split at ha
        · obtain ⟨q, _, rfl⟩ := List.mem_map.1 ha; simp
        · rcases List.mem_append.1 ha with ha | ha
          · obtain ⟨q, _, rfl⟩ := List.mem_map.1 ha; simp
          · simp only [List.mem_singleton] at ha; subst ha; simp
        · rcases List.mem_append.1 ha with ha | ha
          · obtain ⟨q, _, rfl⟩ := List.mem_map.1 ha; simp
          · simp only [List.mem_singleton] at ha; subst ha; simp
    | json =>
      dsimp only
      rw [hlen]
      have key : ∀ x : JsonResult, (List.filter (fun y => y.1 == NoteId.BAD_JSON) (match x with
          | .decodeError _ => [(NoteId.BAD_JSON, fieldSubject n)]
          | _ => [])).map (·.2) = if (match x with | .decodeError _ => true | _ => false) then [fieldSubject n] else [] := by
        intro x; cases x <;> rfl
      exact key _
  · rw [if_neg hok]
    have : okName m.kind n = false := by simpa using hok
    rw [this]; rfl

end HL.Props
