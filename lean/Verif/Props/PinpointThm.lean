import Verif.Props.SyntaxThm
import Verif.Props.Toy

/-!
# C21: what a detailed syntax error says
-/

namespace HL.Props

/-! ### specification -/

/-- what is shown of the text before the error: at most its last 20 characters -/
def shownBefore (pre : Str) : Str := pre.drop (pre.length - 20)

/-- what is shown of the text from the error on: at most 20 characters -/
def shownFrom (rest : Str) : Str := rest.take 20

/-- the message for a bad character `ch` after `pre` and before `post` -/
def pinpoint (pre : Str) (ch : Nat) (post : Str) : Str :=
  str "The invalid character '" ++ [ch] ++ str "' was found at position " ++ dec (pre.length + 1) ++ str ":" ++ [10, 10] ++
    str "    " ++ (shownBefore pre ++ shownFrom (ch :: post)) ++ [10] ++ str "    " ++ (List.replicate (shownBefore pre).length 32 ++ str "^")

/-- the note is about a character inside `v`, everything before which matches the grammar of the field (after white space) -/
def Pinpoints (f : FieldId) (v : Str) (n : Note) : Prop :=
  ∃ r pre ch post, f.info.syn = some r ∧ v = pre ++ ch :: post ∧
    (∃ a b, pre = a ++ b ∧ AllSpace a ∧ r.L true b) ∧
    dget n.vars (str "value") = some (.str v) ∧ dget n.vars (str "problem") = some (.str (pinpoint pre ch post))

/-- what is shown is a part of the value, of at most 40 characters -/
theorem shown_part (pre : Str) (ch : Nat) (post : Str) :
    shownBefore pre ++ shownFrom (ch :: post) <:+: pre ++ ch :: post ∧ (shownBefore pre ++ shownFrom (ch :: post)).length ≤ 40 := by
  unfold shownBefore shownFrom
  constructor
  · refine ⟨pre.take (pre.length - 20), (ch :: post).drop 20, ?_⟩
    have h1 := List.take_append_drop (pre.length - 20) pre
    have h2 := List.take_append_drop 20 (ch :: post)
    generalize (ch :: post) = rest at *
    calc _ = (pre.take (pre.length - 20) ++ pre.drop (pre.length - 20)) ++ (rest.take 20 ++ rest.drop 20) := by simp only [List.append_assoc]
      _ = _ := by rw [h1, h2]
  · rw [List.length_append, List.length_drop, List.length_take]
    omega

/-! ### C21 -/

theorem syntaxProblem_pinpoint {v : Str} {i : Nat} (h : i < v.length) :
    ∃ ch, v = v.take i ++ ch :: v.drop (i + 1) ∧ syntaxProblem v i = .ok (pinpoint (v.take i) ch (v.drop (i + 1))) := by
  refine ⟨v[i], ?_, ?_⟩
  · rw [List.getElem_cons_drop, List.take_append_drop]
  · unfold syntaxProblem
    rw [List.getElem?_eq_getElem h]
    dsimp only
    unfold pinpoint shownBefore shownFrom
    have hl : (v.take i).length = i := by rw [List.length_take]; omega
    have hc : (v.take (min v.length (i + 20))).drop (i - 20) = (v.take i).drop (i - 20) ++ (v[i] :: v.drop (i + 1)).take 20 := by
      rw [List.getElem_cons_drop]
      have h3 : v.take (min v.length (i + 20)) = v.take i ++ (v.drop i).take 20 := by
        rw [← List.take_add]
        rcases Nat.le_total v.length (i + 20) with hh | hh
        · rw [Nat.min_eq_left hh, List.take_of_length_le (Nat.le_refl _), List.take_of_length_le hh]
        · rw [Nat.min_eq_right hh]
      rw [h3, List.drop_append_of_le_length (by rw [hl]; omega)]
    have hp : i - (i - 20) = ((v.take i).drop (i - 20)).length := by
      rw [List.length_drop, hl]
    rw [hl, hc, ← hp]

theorem dget_mk1_given {a : AddNote} (h : UniqueKeys a.base) (cls vrs cat) {k : Str} {v : Val} (hv : dget vrs.reverse k = some v) :
    dget (a.mk1 cls vrs cat).vars k = some v := by
  show dget (HL.dupdate a.defaults (HL.dupdate a.base vrs)) k = _
  rw [dget_dupdate, dget_reverse (h.dupdate _), dget_dupdate, hv]
  rfl

theorem elementSyntax_pinpoints (h : Handler) {add : AddNote} (hu : UniqueKeys add.base) (v : Str) :
    ∀ n ∈ (h.elementSyntax add v).notes, n.cls = .BAD_SYNTAX_DETAILED → n.subject = add.subject ∧ Pinpoints h.fid v n := by
  unfold Handler.elementSyntax
  intro n hn hcls
  split at hn
  · simp at hn
  · rename_i r hs
    split at hn
    · simp at hn
    · rename_i hm
      split at hn
      · rename_i i hp
        obtain ⟨ch, hv, hq⟩ := syntaxProblem_pinpoint (matchPrefix_inside hm hp)
        obtain ⟨_, a, b, hab, ha, hb⟩ := matchPrefix_some hp
        rw [hq] at hn
        simp [W.bind_def, W.bind, W.lift] at hn
        subst hn
        refine ⟨rfl, r, v.take i, ch, v.drop (i + 1), hs, hv, ⟨a, b, hab, ha, hb⟩, ?_, ?_⟩
        · exact dget_mk1_given hu _ _ _ rfl
        · exact dget_mk1_given hu _ _ _ rfl
      · unfold W.when at hn
        split at hn
        · simp at hn
          subst hn; exact absurd hcls (by rw [AddNote.mk1_cls]; decide)
        · simp at hn

theorem field_notDetailed {n : Note} (h : FieldNote n) : n.cls ≠ .BAD_SYNTAX_DETAILED := by
  intro e; have := h.2; rw [e] at this; exact nomatch this

theorem listLoop_pinpoints {add : AddNote} (hu : UniqueKeys add.base) (hg : AddGood add keys0) (c : Ctx) (vs : List Str) :
    ∀ h : Handler, AuxOK h.aux → ∀ n ∈ (h.listLoop c add vs).2.notes, n.cls = .BAD_SYNTAX_DETAILED →
      n.subject = add.subject ∧ ∃ v ∈ vs, Pinpoints h.fid v n := by
  induction vs with
  | nil => intro h ha n hn; simp [Handler.listLoop] at hn
  | cons v vs ih =>
    intro h ha n
    unfold Handler.listLoop
    have hs := elementSyntax_pinpoints h hu v n
    dsimp only
    generalize h.elementSyntax add v = syn at *
    have hs' : n ∈ syn.notes → n.cls = .BAD_SYNTAX_DETAILED → n.subject = add.subject ∧ ∃ w ∈ v :: vs, Pinpoints h.fid w n :=
      fun a b => ⟨(hs a b).1, v, by simp, (hs a b).2⟩
    cases hr : syn.res with
    | error e => exact hs'
    | ok u =>
      dsimp only
      have hp := Handler.parse_ok hg c h ha (strip v)
      generalize h.parse c add (strip v) = p at *
      obtain ⟨aux, r⟩ := p
      dsimp only at *
      have hr' : ∀ ns : List Note, n ∈ (syn.notes ++ r.notes) ++ ns → n.cls = .BAD_SYNTAX_DETAILED →
          (n ∈ ns → n.subject = add.subject ∧ ∃ w ∈ vs, Pinpoints h.fid w n) → n.subject = add.subject ∧ ∃ w ∈ v :: vs, Pinpoints h.fid w n := by
        intro ns hn hc hk
        rcases List.mem_append.1 hn with hn | hn
        · rcases List.mem_append.1 hn with hn | hn
          · exact hs' hn hc
          · exact absurd hc (field_notDetailed (hp.2 n hn))
        · obtain ⟨a, w, hw, b⟩ := hk hn
          exact ⟨a, w, by simp [hw], b⟩
      have hr0 : n ∈ syn.notes ++ r.notes → n.cls = .BAD_SYNTAX_DETAILED → n.subject = add.subject ∧ ∃ w ∈ v :: vs, Pinpoints h.fid w n :=
        fun hn hc => hr' [] (by rw [List.append_nil]; exact hn) hc (fun h => by simp at h)
      cases hr2 : r.res with
      | error e =>
        dsimp only
        split
        · intro hn hc; exact hr' _ hn hc fun hn => ih { h with aux } hp.1 n hn hc
        · exact hr0
      | ok x =>
        dsimp only
        cases ha2 : ({ h with aux } : Handler).append x with
        | error e => exact hr0
        | ok h' =>
          have ha' : AuxOK h'.aux := by rw [append_aux ha2]; exact hp.1
          have hf : h'.fid = h.fid := (append_id ha2).fid
          intro hn hc
          exact hr' _ hn hc fun hn => by have := ih h' ha' n hn hc; rw [hf] at this; exact this

/-- a detailed error added for a line is about one of its elements -/
def PinpointsIn (kind : MsgKind) (o : Nat) (l : Line) (n : Note) : Prop :=
  n.subject = offsetSubject o ∧ accepted kind l = true ∧ (classOf (decodeName l.1)).info.kind = .list ∧
    ∃ v ∈ splitListField l.2, Pinpoints (classOf (decodeName l.1)) v n

theorem handleInput_pinpoints (c : Ctx) (hm : HasMT c.msg.defaults) (h : Handler) (ha : AuxOK h.aux) (v : Str) (o : Nat) :
    ∀ n ∈ (h.handleInput c v o).2.notes, n.cls = .BAD_SYNTAX_DETAILED →
      n.subject = offsetSubject o ∧ h.fid.info.kind = .list ∧ ∃ w ∈ splitListField v, Pinpoints h.fid w n := by
  unfold Handler.handleInput
  intro n hn hc
  split at hn <;> rename_i hk
  · have := listLoop_pinpoints (by simp [UniqueKeys, Handler.offsetAdd]) (offsetAdd_good hm h o) c _ h ha n hn hc
    exact ⟨this.1, hk, this.2⟩
  · simp at hn
  · simp at hn
  · split at hn <;> exact absurd hn (by simp [W.throw])
  · split at hn <;> exact absurd hn (by simp [W.throw])
  · simp at hn

theorem line_notDetailed {n : Note} (h : n.cls.origin = .line) : n.cls ≠ .BAD_SYNTAX_DETAILED := by
  intro e; rw [e] at h; exact nomatch h

theorem processLine_pinpoints {env related t} {m m' : Msg} {o o' : Nat} {l : Line} (hr : Ready env t m)
    (h : processLine env related t m o l = (m', .ok o')) :
    ∃ added, m'.notes = m.notes ++ added ∧ ∀ n ∈ added, n.cls = .BAD_SYNTAX_DETAILED → PinpointsIn m.kind o l n := by
  obtain ⟨name, value⟩ := l
  have hid := hr.ids.handler (decodeName name)
  have hp := preCheck_shape (lineHandler t m name) m.kind (m.adder (offsetSubject o) [(str "field_name", .str (lineHandler t m name).canonicalName)])
  have hfid : (lineHandler t m name).fid = classOf (decodeName name) := hid.1
  have htok : isToken (lineHandler t m name).wireName = isToken (strip (decodeName name)) := hid.2.1
  change (lineCheck t m o name).2.1 = _ ∧ ((lineCheck t m o name).2.2.filter isLine).map tag = _ at hp
  rw [hfid, htok] at hp
  have hacc : (lineCheck t m o name).2.1 = accepted m.kind (name, value) := hp.1
  have hpl : ∀ n ∈ (lineCheck t m o name).2.2, n.cls ≠ .BAD_SYNTAX_DETAILED := fun n hn => line_notDetailed (preCheck_line _ _ _ n hn)
  have hen : ∀ n ∈ encNotes m o name value, n.cls ≠ .BAD_SYNTAX_DETAILED := fun n hn => line_notDetailed (encNotes_line _ _ _ _ n hn)
  rw [processLine_eq] at h
  by_cases hok : (lineCheck t m o name).2.1 = false
  · rw [if_pos hok] at h
    simp only [Prod.mk.injEq, Except.ok.injEq] at h
    obtain ⟨rfl, rfl⟩ := h
    refine ⟨encNotes m o name value ++ (lineCheck t m o name).2.2, by unfold lineMid; cases t <;> rfl, ?_⟩
    intro n hn hc
    rcases List.mem_append.1 hn with hn | hn
    · exact absurd hc (hen n hn)
    · exact absurd hc (hpl n hn)
  · rw [if_neg hok] at h
    have hok' := eq_true_of_ne_false hok
    have hmid : HasMT (lineMid t m o name value).defaults := by
      unfold lineMid; cases t <;> exact hr.mt
    have haux : AuxOK (lineCheck t m o name).1.aux := by
      have h1 := (preCheck_ok (adder_good hr.mt (offsetSubject o) [(str "field_name", .str (lineHandler t m name).canonicalName)] keys0 rfl) m.kind (lineHandler t m name)).1
      have h2 := findHandler_ok hr.sec (decodeName name)
      unfold lineCheck
      rw [h1]
      exact h2
    have hi := handleInput_pinpoints ⟨env, lineMid t m o name value, related⟩ hmid (lineCheck t m o name).1 haux value o
    have hf2 : (lineCheck t m o name).1.fid = classOf (decodeName name) := by
      rw [← hfid]; exact (preCheck_id _ _ _).fid
    rw [hf2] at hi
    change ∀ n ∈ (lineInput env related t m o name value).2.notes, _ at hi
    dsimp only at h
    generalize lineInput env related t m o name value = hw at h hi
    obtain ⟨h2, w⟩ := hw
    dsimp only at h hi
    cases hres : w.res with
    | error e => rw [hres] at h; simp at h
    | ok u =>
      rw [hres] at h
      simp only [Prod.mk.injEq, Except.ok.injEq] at h
      obtain ⟨rfl, rfl⟩ := h
      refine ⟨(encNotes m o name value ++ (lineCheck t m o name).2.2 ++ w.notes) ++ bigNotes m o name value h2, ?_, ?_⟩
      · cases t <;> simp [Msg.addNotes, Msg.setSection]
      · intro n hn hc
        rcases List.mem_append.1 hn with hn | hn
        · rcases List.mem_append.1 hn with hn | hn
          · rcases List.mem_append.1 hn with hn | hn
            · exact absurd hc (hen n hn)
            · exact absurd hc (hpl n hn)
          · obtain ⟨a, b, d⟩ := hi n hn hc
            exact ⟨a, by rw [← hacc, hok'], b, d⟩
        · exact absurd hc (line_notDetailed (bigNotes_line _ _ _ _ _ n hn))

theorem processLines_pinpoints {env related t} {ls : List Line} {m m' : Msg} {o : Nat} (hr : Ready env t m)
    (h : processLines env related t ls o m = (m', .ok ())) :
    ∃ added, m'.notes = m.notes ++ added ∧
      ∀ n ∈ added, n.cls = .BAD_SYNTAX_DETAILED → ∃ p ∈ numbered m.kind o ls, PinpointsIn m.kind p.1 p.2 n := by
  induction ls generalizing o m with
  | nil =>
    simp only [processLines, Prod.mk.injEq] at h
    exact ⟨[], by simp [h.1], by simp⟩
  | cons l ls ih =>
    unfold processLines at h
    split at h
    · simp at h
    · rename_i m1 o1 heq
      have hk : m1.kind = m.kind := by
        have := (processLine_run env related t m hr.mt hr.sec o l).kind
        rwa [heq] at this
      have hr1 : Ready env t m1 := by have := hr.line (related := related) o l; rwa [heq] at this
      have ho := (processLine_notes hr heq).1
      obtain ⟨a1, e1, t1⟩ := processLine_pinpoints hr heq
      obtain ⟨a2, e2, t2⟩ := ih hr1 h
      refine ⟨a1 ++ a2, by rw [e2, e1, List.append_assoc], ?_⟩
      intro n hn hc
      rcases List.mem_append.1 hn with hn | hn
      · exact ⟨(o, l), List.mem_cons_self .., t1 n hn hc⟩
      · rw [hk] at t2
        obtain ⟨p, hp, h2⟩ := t2 n hn hc
        refine ⟨p, List.mem_cons_of_mem _ ?_, h2⟩
        rw [ho] at hp
        exact hp

theorem finishFrame_notDetailed (env : Env) (f : FieldId) (subj : Str) (ps : List (Nat × Str)) (x : NoteId × Str) (h : x ∈ finishFrame env f subj ps) :
    x.1 ≠ .BAD_SYNTAX_DETAILED := by
  unfold finishFrame at h
  intro e
  repeat' first
    | split at h
    | (rcases List.mem_append.1 h with h | h)
    | (obtain ⟨_, _, rfl⟩ := List.mem_map.1 h; exact nomatch e)
    | (rw [List.mem_singleton] at h; subst h; exact nomatch e)
    | (simp at h; done)

/-- **C21** Each detailed syntax error a section adds is about an element of one of its lines (of a list field, and named by
the subject of the note); the character it points to is in the element, what comes before it matches the field's grammar after
white space, and what it shows is a part of the element of at most 40 characters. -/
theorem C21_pinpoint (env : Env) (related : Option Msg) (t : Bool) (ls : List Line) (m m' : Msg) (hm : Linting env m)
    (hnew : (m.section t).handlers = []) (h : processSection env related t ls m = (m', .ok ())) :
    ∃ added, m'.notes = m.notes ++ added ∧
      ∀ n ∈ added, n.cls = .BAD_SYNTAX_DETAILED → ∃ p ∈ numbered m.kind 0 ls, PinpointsIn m.kind p.1 p.2 n := by
  obtain ⟨added, e, hf⟩ := section_frame hm hnew h
  obtain ⟨a, b, ctx, h1, h2, h3, h4, h5, _⟩ := section_outcome (hm.ready t) hnew h
  refine ⟨_, h5, ?_⟩
  unfold processSection at h
  split at h
  · simp at h
  · rename_i m1 heq
    obtain ⟨a', e', t'⟩ := processLines_pinpoints (hm.ready t) heq
    rw [heq] at h1
    have haa : a' = a := List.append_cancel_left (e'.symm.trans h1)
    subst haa
    intro n hn hc
    rcases List.mem_append.1 hn with hn | hn
    · rcases List.mem_append.1 hn with hn | hn
      · exact t' n hn hc
      · rw [h3 n hn] at hc; cases hc
    · exfalso
      have hadd := List.append_cancel_left (e.symm.trans h5)
      rw [hadd, List.filter_append, List.filter_append, List.map_append, List.map_append, h2] at hf
      have hb : b.filter isFrame = [] := by
        rw [List.filter_eq_nil_iff]
        intro x hx
        unfold isFrame; rw [h3 x hx]; decide
      rw [hb, List.map_nil, List.append_nil] at hf
      have hf := List.append_cancel_left hf
      have hfr : isFrame n = true := by unfold isFrame; rw [hc]; rfl
      have hmem := List.mem_map_of_mem (f := tag) (List.mem_filter.2 ⟨hn, hfr⟩)
      rw [hf] at hmem
      obtain ⟨k, _, hk⟩ := List.mem_flatMap.1 hmem
      split at hk
      · exact finishFrame_notDetailed _ _ _ _ _ hk hc
      · simp at hk

/-- non-vacuity: the second element of a list, which goes wrong after 25 characters -/
example : let r := processSection toyEnv none false [(str "Vary", str "Accept, abcdefghijklmnopqrstuvwxy z0123456789012345678901234567890")] (fresh toyEnv MsgKind.response none false false)
    r.2 = .ok () ∧ (r.1.notes.filter (·.cls = .BAD_SYNTAX_DETAILED)).map (fun n => (n.subject, dget n.vars (str "problem"))) =
      [(str "offset-0", some (.str (str "The invalid character ' ' was found at position 26:" ++ [10, 10] ++
        str "    fghijklmnopqrstuvwxy z012345678901234567" ++ [10] ++ str "                        ^")))] := by
  decide +kernel

end HL.Props
