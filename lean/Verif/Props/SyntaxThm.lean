import Verif.Props.FieldThm

/-!
# C20, C21: what the syntax notes mean
-/

namespace HL.Props

/-! ### specification -/

/-- the text `v` is in the language of the field's grammar but for white space around it (trivially, if it has none) -/
theorem C20_inGrammar (f : FieldId) (v : Str) :
    inGrammar f v = true ↔ ∀ r, f.info.syn = some r → ∃ a b z, v = a ++ b ++ z ∧ AllSpace a ∧ r.L true b ∧ AllSpace z := by
  unfold inGrammar
  cases hs : f.info.syn with
  | none => simp
  | some r =>
    dsimp only
    rw [matchSpaced_iff]
    constructor
    · intro h r' hr; cases hr; exact h
    · intro h; exact h r rfl

/-- some beginning of `v` is in the language -/
def startsInGrammar (f : FieldId) (v : Str) : Bool :=
  match f.info.syn with
  | none => true
  | some r => (matchPrefix r v).isSome

theorem C20_startsInGrammar (f : FieldId) (v : Str) :
    startsInGrammar f v = true ↔ ∀ r, f.info.syn = some r → ∃ a b z, v = a ++ b ++ z ∧ AllSpace a ∧ r.L true b := by
  unfold startsInGrammar
  cases hs : f.info.syn with
  | none => simp
  | some r =>
    dsimp only
    have := matchPrefix_none r v
    constructor
    · intro h r' hr
      cases hr
      refine Classical.byContradiction fun hn => ?_
      rw [this.2 hn] at h
      exact nomatch h
    · intro h
      cases hp : matchPrefix r v with
      | none => exact absurd (h r rfl) (this.1 hp)
      | some i => rfl

/-- the pieces of text in a section whose syntax is checked, in the order in which they are: every element of every line
of a list field; the first line of a field that allows one value; every line of `Set-Cookie` and `Cookie`.  Each with what
a note would be about. -/
def judged (kind : MsgKind) (ls : List Line) : List (Str × FieldId × Str) :=
  ((numbered kind 0 ls).flatMap fun p =>
    if accepted kind p.2 && (classOf (decodeName p.2.1)).info.kind == .list then
      (splitListField p.2.2).map fun v => (offsetSubject p.1, classOf (decodeName p.2.1), v)
    else []) ++
  (namesOf ls).flatMap fun n =>
    if okName kind n then
      match (classOf n).info.kind with
      | .singleton => ((valuesOf ls n).take 1).map fun v => (fieldSubject n, classOf n, v)
      | .broken => (sent kind n ls).map fun p => (offsetSubject p.1, classOf n, p.2)
      | _ => []
    else []

/-- the note a piece of text should get -/
def verdict (f : FieldId) (v : Str) : Option NoteId :=
  if inGrammar f v || !f.info.reportSyntax then none
  else if f.info.kind == .list && startsInGrammar f v then some .BAD_SYNTAX_DETAILED
  else some .BAD_SYNTAX

/-- is the note about syntax? -/
def isSyntax (n : Note) : Bool := n.cls == .BAD_SYNTAX || n.cls == .BAD_SYNTAX_DETAILED

/-! ### C20 -/

theorem reports_syntax {f : FieldId} (h : f.info.kind ≠ .singleton) : f.info.reportSyntax = true := by
  cases f <;> first | rfl | exact absurd rfl h

theorem elemVerdict_eq {f : FieldId} (hk : f.info.kind = .list) (v : Str) : elemVerdict f v = verdict f v := by
  have hr : f.info.reportSyntax = true := reports_syntax (by rw [hk]; simp)
  unfold elemVerdict verdict inGrammar startsInGrammar
  rw [hr, hk]
  cases f.info.syn with
  | none => rfl
  | some r =>
    have key : ∀ (b : Bool) (o : Option Nat),
        (if b = true then none else match o with
          | some _ => some NoteId.BAD_SYNTAX_DETAILED
          | none => if true = true then some .BAD_SYNTAX else none) =
        (if (b || !true) = true then none
          else if (FieldKind.list == FieldKind.list && o.isSome) = true then some NoteId.BAD_SYNTAX_DETAILED else some .BAD_SYNTAX) := by
      intro b o; cases b <;> cases o <;> rfl
    exact key (matchSpaced r v) (matchPrefix r v)

theorem filter_isSyntax_tags {added : List Note} :
    (added.filter isSyntax).map tag = ((added.filter isFrame).map tag).filter fun y => y.1 == .BAD_SYNTAX || y.1 == .BAD_SYNTAX_DETAILED := by
  rw [List.filter_map, List.filter_filter]
  congr 2
  funext n
  show isSyntax n = ((n.cls == .BAD_SYNTAX || n.cls == .BAD_SYNTAX_DETAILED) && isFrame n)
  unfold isSyntax
  cases hc : (n.cls == .BAD_SYNTAX || n.cls == .BAD_SYNTAX_DETAILED)
  · rfl
  · unfold isFrame
    rw [Bool.or_eq_true] at hc
    rcases hc with hc | hc <;> (rw [eq_of_beq hc]; rfl)

theorem filterMap_tags (f : FieldId) (s : Str) (vs : List Str) (g : FieldId → Str → Option NoteId) :
    (vs.filterMap (g f)).map (·, s) = (vs.map fun v => (s, f, v)).filterMap fun (j : Str × FieldId × Str) => (g j.2.1 j.2.2).map (·, j.1) := by
  induction vs with
  | nil => rfl
  | cons v vs ih =>
    rw [List.filterMap_cons, List.map_cons, List.filterMap_cons]
    dsimp only
    cases g f v with
    | none => exact ih
    | some x => exact congrArg ((x, s) :: ·) ih

theorem filterMap_flatMap' {α β γ} (l : List α) (f : α → List β) (g : β → Option γ) : (l.flatMap f).filterMap g = l.flatMap fun a => (f a).filterMap g := by
  induction l with
  | nil => rfl
  | cons a l ih => rw [List.flatMap_cons, List.flatMap_cons, List.filterMap_append, ih]

/-- **C20** In a section, the syntax notes are exactly those the grammars call for: a piece of text that is checked is
reported when it is not in the language of its field's grammar (up to white space around it) and the field reports syntax;
elements of lists with the detailed note exactly when some beginning of them is in the language. -/
theorem C20_syntax_notes (env : Env) (related : Option Msg) (t : Bool) (ls : List Line) (m m' : Msg) (hm : Linting env m)
    (hnew : (m.section t).handlers = []) (h : processSection env related t ls m = (m', .ok ())) :
    ∃ added, m'.notes = m.notes ++ added ∧ (added.filter isSyntax).map tag =
      (judged m.kind ls).filterMap fun j => (verdict j.2.1 j.2.2).map (·, j.1) := by
  obtain ⟨added, e, hf⟩ := section_frame hm hnew h
  refine ⟨added, e, ?_⟩
  rw [filter_isSyntax_tags, hf]
  unfold judged
  rw [List.filter_append, List.filterMap_append, List.filter_flatMap, List.filter_flatMap, filterMap_flatMap', filterMap_flatMap']
  congr 1
  · apply flatMap_congr_mem
    intro p hp
    unfold lineFrame elementNotes
    cases ha : accepted m.kind p.2
    · rfl
    · rw [if_pos rfl, Bool.true_and]
      cases hk : (classOf (decodeName p.2.1)).info.kind with
      | list =>
        have h1 : ((splitListField p.2.2).filterMap (elemVerdict (classOf (decodeName p.2.1)))).map (·, offsetSubject p.1) =
            ((splitListField p.2.2).map fun v => (offsetSubject p.1, classOf (decodeName p.2.1), v)).filterMap
              fun (j : Str × FieldId × Str) => (verdict j.2.1 j.2.2).map (·, j.1) := by
          rw [← filterMap_tags]
          congr 1
          congr 1
          funext v
          exact elemVerdict_eq hk v
        show List.filter _ (((splitListField p.2.2).filterMap (elemVerdict (classOf (decodeName p.2.1)))).map (·, offsetSubject p.1)) = _
        rw [h1]
        show _ = (((splitListField p.2.2).map fun v => (offsetSubject p.1, classOf (decodeName p.2.1), v)).filterMap
              fun (j : Str × FieldId × Str) => (verdict j.2.1 j.2.2).map (·, j.1))
        rw [List.filter_eq_self]
        intro a ha
        obtain ⟨j, _, hj⟩ := List.mem_filterMap.1 ha
        unfold verdict at hj
        split at hj
        · exact nomatch hj
        · split at hj <;> (cases hj; simp)
      | singleton => rfl
      | broken => rfl
      | unknown => rfl
      | json => rfl
      | sf ty => rfl
  · apply flatMap_congr_mem
    intro n hn
    by_cases hok : okName m.kind n = true
    · rw [if_pos hok, if_pos hok]
      unfold finishFrame
      have hsnd := sent_snd m.kind n ls
      cases hk : (classOf n).info.kind with
      | list => rfl
      | unknown => rfl
      | json =>
        dsimp only
        rw [List.filter_eq_nil_iff.2]
        · rfl
        · intro a ha
          split at ha
          · simp only [List.mem_singleton] at ha; subst ha; simp
          · simp at ha
      | sf ty =>
        dsimp only
        rw [List.filter_eq_nil_iff.2]
        · rfl
        · intro a ha
          split at ha
          · obtain ⟨q, _, rfl⟩ := List.mem_map.1 ha; simp
          · rcases List.mem_append.1 ha with ha | ha
            · obtain ⟨q, _, rfl⟩ := List.mem_map.1 ha; simp
            · simp only [List.mem_singleton] at ha; subst ha; simp
          · rcases List.mem_append.1 ha with ha | ha
            · obtain ⟨q, _, rfl⟩ := List.mem_map.1 ha; simp
            · simp only [List.mem_singleton] at ha; subst ha; simp
      | broken =>
        dsimp only
        have hr : (classOf n).info.reportSyntax = true := reports_syntax (by rw [hk]; simp)
        generalize sent m.kind n ls = ps
        induction ps with
        | nil => rfl
        | cons p ps ih =>
          rw [List.map_cons, List.filterMap_cons]
          have hv : verdict (classOf n) p.2 = if inGrammar (classOf n) p.2 then none else some .BAD_SYNTAX := by
            unfold verdict
            rw [hr, hk]
            simp only [Bool.not_true, Bool.or_false]
            cases inGrammar (classOf n) p.2 <;> rfl
          dsimp only
          rw [hv]
          cases hg : inGrammar (classOf n) p.2
          · rw [List.filter_cons_of_pos (by simp [hg]), List.map_cons, List.filter_cons_of_pos (by simp)]
            exact congrArg ((NoteId.BAD_SYNTAX, offsetSubject p.1) :: ·) ih
          · rw [List.filter_cons_of_neg (by simp [hg])]
            exact ih
      | singleton =>
        dsimp only
        rw [← hsnd]
        generalize sent m.kind n ls = ps
        have e1 : ∀ b : Prop, [Decidable b] → (if b then [(NoteId.SINGLE_HEADER_REPEAT, fieldSubject n)] else []).filter
            (fun y => y.1 == .BAD_SYNTAX || y.1 == .BAD_SYNTAX_DETAILED) = [] := by
          intro b _; split <;> rfl
        rw [List.filter_append, e1, List.nil_append]
        cases ps with
        | nil => rfl
        | cons p ps =>
          dsimp only
          show _ = List.filterMap _ [(fieldSubject n, classOf n, p.2)]
          rw [List.filterMap_cons, List.filterMap_nil]
          dsimp only
          have hv : verdict (classOf n) p.2 = if inGrammar (classOf n) p.2 then none else if (classOf n).info.reportSyntax then some .BAD_SYNTAX else none := by
            unfold verdict
            rw [hk]
            cases inGrammar (classOf n) p.2 <;> cases (classOf n).info.reportSyntax <;> rfl
          rw [hv]
          cases inGrammar (classOf n) p.2 <;> cases (classOf n).info.reportSyntax <;> rfl
    · rw [if_neg hok, if_neg hok]; rfl

end HL.Props
