import Verif.Props.UnnecessaryThm
import Verif.Props.ContextThm
import Verif.Props.PinpointThm

/-!
# The name that is shown of a field that can be removed (C107)

`UNNECESSARY_HEADER` shows the field as it is spelt in the first line of the section that has its name, whatever the
spelling of the line the note is about.
-/

namespace HL.Props
open HL.F Syntax

/-- the note, if it is about a field that can be removed, shows this name -/
def Names (w : Str) (x : Note) : Prop := x.cls = .UNNECESSARY_HEADER → dget x.vars (str "header_name") = some (.str w)

theorem names_other {w : Str} {x : Note} (h : x.cls ≠ .UNNECESSARY_HEADER) : Names w x := fun hh => absurd hh h

theorem names_origin {w : Str} {x : Note} (h : x.cls.origin ≠ .field) : Names w x := fun hh => absurd (by rw [hh]; rfl) h

theorem parse_unnecessary (c : Ctx) {add : AddNote} (hu : UniqueKeys add.base) (h : Handler) (v : Str) : ∀ x ∈ (h.parse c add v).2.notes, Names h.wireName x := by
  have hp : ∀ g, g ≠ .tcn_ → g ≠ .unnecessaryField → (parseOwn g).contains .UNNECESSARY_HEADER = false := by
    intro g; cases g <;> first | (intro _ _; rfl) | (intro a b; exact absurd rfl a) | (intro a b; exact absurd rfl b)
  have one : ∀ x, x = add.mk1 .UNNECESSARY_HEADER [(str "header_name", .str h.wireName)] → Names h.wireName x := by
    rintro x rfl _
    exact dget_mk1_given hu _ _ _ rfl
  intro x hx
  by_cases hf : h.fid = .tcn_
  · unfold Handler.parse at hx
    rw [hf] at hx
    exact one x (List.mem_singleton.1 hx)
  · by_cases hg : h.fid = .unnecessaryField
    · unfold Handler.parse at hx
      rw [hg] at hx
      exact one x (List.mem_singleton.1 hx)
    · intro hc
      have := (Handler.parse_own c h v x hx).cls
      rw [hc, hp _ hf hg] at this
      exact nomatch this

theorem listLoop_names (c : Ctx) {add : AddNote} (hu : UniqueKeys add.base) (vs : List Str) : ∀ h : Handler, ∀ x ∈ (h.listLoop c add vs).2.notes, Names h.wireName x := by
  induction vs with
  | nil => intro h x hx; exact nomatch hx
  | cons v vs ih =>
    intro h
    have h1 : ∀ x ∈ (h.elementSyntax add v).notes, Names h.wireName x := fun x hx => names_origin (by rw [elementSyntax_origin h add v x hx]; decide)
    have h4 : ∀ x ∈ (h.elementSyntax add v).notes ++ (h.parse c add (strip v)).2.notes, Names h.wireName x := by
      intro x hx
      rcases List.mem_append.1 hx with hx | hx
      · exact h1 x hx
      · exact parse_unnecessary c hu h (strip v) x hx
    unfold Handler.listLoop
    dsimp only
    split
    · exact h1
    · split
      · split
        · intro x hx
          rcases List.mem_append.1 hx with hx | hx
          · exact h4 x hx
          · exact ih { h with aux := (h.parse c add (strip v)).1 } x hx
        · exact h4
      · split
        · exact h4
        · rename_i h' he
          intro x hx
          rcases List.mem_append.1 hx with hx | hx
          · exact h4 x hx
          · have := ih h' x hx
            rwa [(append_id he).wire] at this

theorem handleInput_names (c : Ctx) (h : Handler) (v : Str) (o : Nat) : ∀ x ∈ (h.handleInput c v o).2.notes, Names h.wireName x := by
  unfold Handler.handleInput
  split
  · exact listLoop_names c (by show ([str "field_name"] : List Str).Nodup; decide) _ h
  · exact fun x hx => nomatch hx
  · exact fun x hx => nomatch hx
  · split <;> exact fun x hx => nomatch hx
  · split <;> exact fun x hx => nomatch hx
  · exact fun x hx => nomatch hx

/-- the note is about an accepted line and, if the field can be removed, shows its name -/
def LineNames (kind : MsgKind) (names : Str → Str) (o : Nat) (ls : List Line) (x : Note) : Prop :=
  x.cls = .UNNECESSARY_HEADER → ∃ p ∈ numbered kind o ls, accepted kind p.2 = true ∧ x.subject = offsetSubject p.1 ∧
    dget x.vars (str "header_name") = some (.str (names (lineKey p.2.1)))

theorem processLines_names {env related t} (idOf : Str → Handler) {mt : Val} (hsort : ∀ k, Sorted (idOf k)) {ls : List Line} {m m' : Msg} {o : Nat}
    (hr : Ready env t m) (hm : m.defaults = mtDefaults mt) (hk : Known idOf ls (m.section t)) (h : processLines env related t ls o m = (m', .ok ())) :
    ∃ added, m'.notes = m.notes ++ added ∧ ∀ x ∈ added, LineNames m.kind (fun k => (idOf k).wireName) o ls x := by
  induction ls generalizing o m with
  | nil =>
    simp only [processLines, Prod.mk.injEq] at h
    exact ⟨[], by simp [h.1], fun x hx => nomatch hx⟩
  | cons l ls ih =>
    unfold processLines at h
    split at h
    · simp at h
    · rename_i m1 o1 heq
      have hr1 : Ready env t m1 := by have := hr.line (related := related) o l; rwa [heq] at this
      have hx1 : Ext t m m1 := by have := processLine_ext env related t m o l; rwa [heq] at this
      have hm1 : m1.defaults = mtDefaults mt := by rw [ext_defaults hx1]; exact hm
      obtain ⟨hid, haux⟩ := lineHandler_known hk
      have hcid := preCheck_id (lineHandler t m l.1) m.kind (m.adder (offsetSubject o) [(str "field_name", .str (lineHandler t m l.1).canonicalName)])
      have hcaux : (lineCheck t m o l.1).1.aux = (lineHandler t m l.1).aux := preCheck_aux ..
      change SameId (lineCheck t m o l.1).1 _ at hcid
      have hsrt : Sorted (lineCheck t m o l.1).1 := by unfold Sorted; rw [hcid.fid, hcid.cat, hid.fid, hid.cat]; exact hsort _
      have line : ∀ {ns : List Note}, (∀ x ∈ ns, x.cls.origin = .line) → ∀ x ∈ ns, LineNames m.kind (fun k => (idOf k).wireName) o (l :: ls) x :=
        fun hns x hx hc => by have := hns x hx; rw [hc] at this; exact nomatch (show Origin.field = Origin.line from this)
      have henc := line (encNotes_line m o l.1 l.2)
      have hpc : ∀ x ∈ (lineCheck t m o l.1).2.2, LineNames m.kind (fun k => (idOf k).wireName) o (l :: ls) x := line (preCheck_line _ _ _)
      have ho := (processLine_notes hr heq).1
      -- what the line adds, and the section afterwards
      have hline : ∃ a1, m1.notes = m.notes ++ a1 ∧ (∀ x ∈ a1, LineNames m.kind (fun k => (idOf k).wireName) o (l :: ls) x) ∧ Known idOf ls (m1.section t) := by
        obtain ⟨name, value⟩ := l
        have hacc : (lineCheck t m o name).2.1 = accepted m.kind (name, value) := by
          have hidn := hr.ids.handler (decodeName name)
          have hp := preCheck_shape (lineHandler t m name) m.kind (m.adder (offsetSubject o) [(str "field_name", .str (lineHandler t m name).canonicalName)])
          have hfid : (lineHandler t m name).fid = classOf (decodeName name) := hidn.1
          have htok : isToken (lineHandler t m name).wireName = isToken (strip (decodeName name)) := hidn.2.1
          change (lineCheck t m o name).2.1 = _ ∧ _ at hp
          rw [hfid, htok] at hp
          exact hp.1
        rw [processLine_eq] at heq
        split at heq
        · simp only [Prod.mk.injEq, Except.ok.injEq] at heq
          obtain ⟨rfl, rfl⟩ := heq
          refine ⟨encNotes m o name value ++ (lineCheck t m o name).2.2, by unfold lineMid; cases t <;> rfl, ?_, ?_⟩
          · intro x hx
            rcases List.mem_append.1 hx with hx | hx
            · exact henc x hx
            · exact hpc x hx
          · unfold lineMid
            rw [section_addNotes, section_setSection]
            exact hk.step (hcid.trans hid) (by rw [hcaux]; exact haux)
        · rename_i hok
          dsimp only at heq
          have hab := handleInput_about (mt := mt) ⟨env, lineMid t m o name value, related⟩ (by unfold lineMid; cases t <;> exact hm) (lineCheck t m o name).1 hsrt
            (by rw [hcaux]; exact haux) value o
          have hin := handleInput_names ⟨env, lineMid t m o name value, related⟩ (lineCheck t m o name).1 value o
          have hinid := handleInput_id ⟨env, lineMid t m o name value, related⟩ (lineCheck t m o name).1 value o
          change ∀ x ∈ (lineInput env related t m o name value).2.notes, _ at hin
          change SameId (lineInput env related t m o name value).1 _ at hinid
          change Kept _ (lineInput env related t m o name value).1.aux ∧ Abouts _ _ _ _ _ _ (lineInput env related t m o name value).2.notes at hab
          rw [hcid.wire, hid.wire] at hin
          generalize lineInput env related t m o name value = hw at *
          split at heq
          · simp at heq
          · simp only [Prod.mk.injEq, Except.ok.injEq] at heq
            obtain ⟨rfl, rfl⟩ := heq
            refine ⟨(encNotes m o name value ++ (lineCheck t m o name).2.2 ++ hw.2.notes) ++ bigNotes m o name value hw.1, by cases t <;> simp [Msg.addNotes, Msg.setSection], ?_, ?_⟩
            · intro x hx
              rcases List.mem_append.1 hx with hx | hx
              · rcases List.mem_append.1 hx with hx | hx
                · rcases List.mem_append.1 hx with hx | hx
                  · exact henc x hx
                  · exact hpc x hx
                · intro hc
                  refine ⟨(o, name, value), by unfold numbered; exact List.mem_cons_self .., by rw [← hacc]; exact eq_true_of_ne_false hok, ?_, hin x hx hc⟩
                  have := (hab.2 x hx).subject
                  rw [hc] at this
                  exact this
              · exact line (bigNotes_line _ _ _ _ _) x hx
            · simp only [section_addNotes, section_setSection]
              exact hk.step (hinid.trans (hcid.trans hid)) hab.1
      obtain ⟨a1, e1, p1, k1⟩ := hline
      obtain ⟨a2, e2, p2⟩ := ih hr1 hm1 k1 h
      refine ⟨a1 ++ a2, by rw [e2, e1, List.append_assoc], ?_⟩
      intro x hx
      rcases List.mem_append.1 hx with hx | hx
      · exact p1 x hx
      · intro hc
        obtain ⟨p, hp, hh⟩ := p2 x hx hc
        rw [hx1.kind] at hp hh
        rw [ho] at hp
        exact ⟨p, by unfold numbered; exact List.mem_cons_of_mem _ hp, hh⟩

/-- finishing a field adds none of these notes -/
theorem finish_names {env related t} {ls : List Line} {m m' : Msg} (P : Processed env related t ls m m') :
    ∃ lines : List Note, (processLines env related t ls 0 m).1.notes = m.notes ++ lines ∧
      ∃ added, m'.notes = m.notes ++ added ∧ ∀ x ∈ added, x.cls = .UNNECESSARY_HEADER → x ∈ lines := by
  have hp : ∀ g, g ≠ .tcn_ → g ≠ .unnecessaryField → (parseOwn g).contains .UNNECESSARY_HEADER = false := by
    intro g; cases g <;> first | (intro _ _; rfl) | (intro a b; exact absurd rfl a) | (intro a b; exact absurd rfl b)
  have he : ∀ g, (evalOwn g).contains .UNNECESSARY_HEADER = false := by intro g; cases g <;> rfl
  have hrdy := P.linting.ready t
  obtain ⟨a, b, ctx, hln, _, hb, hd, hpp, _, _⟩ := section_outcome hrdy P.new P.ok
  refine ⟨a, hln, _, hpp, ?_⟩
  intro x hx hc
  rcases List.mem_append.1 hx with hx | hx
  · rcases List.mem_append.1 hx with hx | hx
    · exact hx
    · have := hb x hx
      rw [hc] at this
      exact nomatch this
  · exfalso
    obtain ⟨n, hn, hx⟩ := List.mem_flatMap.1 hx
    have hxf : x ∈ (finishIn m t (readHandler ⟨env, m, related⟩ ls n) (ctx n)).2.notes.filter isField := List.mem_filter.2 ⟨hx, by unfold isField; rw [hc]; rfl⟩
    obtain ⟨hdn, hrn, _⟩ := hd n hn
    have hmt : HasMT (ctx n).msg.defaults := by rw [ext_defaults hdn.ext]; exact hrdy.mt
    have hg := fieldAdder_good hrdy.mt t (readHandler ⟨env, m, related⟩ ls n)
    have hu : UniqueKeys (m.fieldAdder t (readHandler ⟨env, m, related⟩ ls n)).base := show ([str "field_name", str "field_type"] : List Str).Nodup by decide
    have haux := evalSetup_aux (related := related) (t := t) (m := m) (c := ctx n) hn
    have hfid := evalSetup_fid (related := related) (t := t) (m := m) (c := ctx n) hn
    unfold evalSetup at haux hfid
    dsimp only at haux hfid
    rw [hdn.env] at haux hfid
    unfold finishIn at *
    generalize hA : m.fieldAdder t (readHandler ⟨env, m, related⟩ ls n) = A at *
    revert hrn hxf
    unfold readHandler handlerFor
    rw [okName_spelling hn]
    intro hxf hrn
    by_cases hok : okName m.kind n = true
    · rw [if_pos hok] at hrn hxf
      obtain ⟨pre, e1, e2, _⟩ := finish_field (sent_ne_nil hn) hg hu hrdy.mt hmt hrn
      rw [e1] at hxf
      rcases List.mem_append.1 hxf with hxf | hxf
      · have htag : tag x ∈ pre.map tag := List.mem_map_of_mem hxf
        rw [e2.tags, finishPieces_tags] at htag
        have hmem : (tag x).2 ∈ ((finishParse (ctx n) (classOf (spelling ls n)) A.subject (sent m.kind n ls)).filter (·.1 == .UNNECESSARY_HEADER)).map (·.2) :=
          List.mem_map_of_mem (List.mem_filter.2 ⟨htag, by rw [show (tag x).1 = x.cls from rfl, hc]; rfl⟩)
        by_cases hf : classOf (spelling ls n) = .tcn_
        · unfold finishParse at hmem; rw [hf] at hmem; exact nomatch hmem
        · by_cases hg : classOf (spelling ls n) = .unnecessaryField
          · unfold finishParse at hmem; rw [hg] at hmem; exact nomatch hmem
          · rw [finishParse_own (hp _ hf hg)] at hmem; exact nomatch hmem
      · have hmem : x ∈ ofClass .UNNECESSARY_HEADER (evalNotes (ctx n) A (evalHandler ⟨env, m, related⟩ (ctx n) A (spelling ls n) (sent m.kind n ls))) :=
          List.mem_filter.2 ⟨hxf, by rw [hc]; rfl⟩
        rw [evalNotes_own _ _ _ (by rw [hfid]; exact haux) (he _)] at hmem
        exact nomatch hmem
    · rw [if_neg hok] at hrn hxf
      rw [finish_field_unread (by rw [okName_spelling hn]; simpa using hok) hg] at hxf
      exact nomatch hxf

/-- **C107**: a field that can be removed is named as it is spelt in the first line of the section with its name -/
theorem C107_named {env : Env} {related : Option Msg} {t : Bool} {ls : List Line} {m m' : Msg} (P : Processed env related t ls m m') :
    ∃ added : List Note, m'.notes = m.notes ++ added ∧ ∀ x ∈ added, x.cls = .UNNECESSARY_HEADER →
      ∃ p ∈ numbered m.kind 0 ls, accepted m.kind p.2 = true ∧ x.subject = offsetSubject p.1 ∧
        dget x.vars (str "header_name") = some (.str (strip (spelling ls (lineKey p.2.1)))) := by
  obtain ⟨lines, h1, added, h2, h3⟩ := finish_names P
  have hok : processLines env related t ls 0 m = ((processLines env related t ls 0 m).1, .ok ()) := by
    have := P.ok
    unfold processSection at this
    split at this
    · simp at this
    · rename_i hh; rw [hh]
  let idOf : Str → Handler := fun k => mkHandler (classOf (spelling ls k)) (spelling ls k)
  have hwire : ∀ f n, (mkHandler f n).wireName = strip n := by
    intro f n; unfold mkHandler; dsimp only; split <;> rfl
  obtain ⟨a, e1, p1⟩ := processLines_names idOf (fun k => (mkHandler_shown _).2.2) (P.linting.ready t) P.linting.defaults
    ⟨by rw [P.new]; intro k h he; exact (nomatch he), by intro k l _ hf; dsimp only [idOf]; rw [spelling_find hf]⟩ hok
  have hln : a = lines := List.append_cancel_left (e1.symm.trans h1)
  subst hln
  refine ⟨added, h2, fun x hx hc => ?_⟩
  obtain ⟨p, hp, ha, hs, hv⟩ := p1 x (h3 x hx hc) hc
  refine ⟨p, hp, ha, hs, ?_⟩
  dsimp only [idOf] at hv
  rw [hwire] at hv
  exact hv

/-- the names are those of the lines the notes are about, apart from the case of letters and white space around them -/
theorem spelling_same {ls : List Line} {l : Line} (h : l ∈ ls) : lower (spelling ls (lineKey l.1)) = lower (decodeName l.1) := by
  have : lineKey l.1 ∈ namesOf ls := mem_namesOf.2 ⟨l, h, rfl⟩
  rw [lower_spelling this]
  rfl

/-- what the notes about a section show as the name of a field that can be removed -/
def removables (kind : MsgKind) (ls : List Line) : List (Str × Option Val) :=
  ((processSection toyEnv none false ls (fresh toyEnv kind none false false)).1.notes.filter fun x => x.cls == .UNNECESSARY_HEADER).map fun x =>
    (x.subject, dget x.vars (str "header_name"))

/-- the spelling of the first line is shown for all of them -/
example : removables .response [(str "X-POWERED-by", str "PHP"), (str "Tcn", str "list"), (str "x-powered-by", str "ASP, Perl")] =
    [(str "offset-0", some (.str (str "X-POWERED-by"))), (str "offset-1", some (.str (str "Tcn"))), (str "offset-2", some (.str (str "X-POWERED-by"))),
      (str "offset-2", some (.str (str "X-POWERED-by")))] := by decide +kernel

/-- a line that is not accepted has no such note; its spelling is shown for the others -/
example : removables .request [(str "TCN", str "list"), (str "X-Runtime", str "1")] = [(str "offset-0", some (.str (str "X-Runtime")))] := by decide +kernel

end HL.Props
