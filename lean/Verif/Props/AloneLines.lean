import Verif.Props.AloneThm
import Verif.Props.Moved

/-!
# C126: lines are judged with the other lines of their field only

What is said about the lines of a field depends on these lines, not on any other line of the section.
-/

namespace HL.Props
open HL.F

/-! ### specification -/

/-- is the line one of the field `n`? Fields shown under the same name are the same field here -/
def ofField (n : Str) (l : Line) : Bool := lower (shownName (lineKey l.1)) == lower (shownName n)

/-- does the note name the field `n`? -/
def namesField (n : Str) (x : Note) : Bool :=
  match dget x.vars (str "field_name") with
  | some (.str s) => lower (shownName s) == lower (shownName n)
  | _ => false

/-- is the note about a line of the field `n`? -/
def picked (n : Str) (x : Note) : Bool := isOffset x.subject && namesField n x

/-- what was said about the lines of the field `n` when `m` became `m'` -/
def saidOfLines (n : Str) (m m' : Msg) : List Note := (m'.notes.drop m.notes.length).filter (picked n)

/-- the numbers of the lines of the field `n` -/
def lineNumbers (kind : MsgKind) (n : Str) (ls : List Line) : List Nat := ((numbered kind 0 ls).filter fun p => ofField n p.2).map (·.1)

theorem canon_shown (f : FieldId) {c : Str} (h : f.info.canonicalName = some c) : lower (shownName c) = lower c := by
  cases f <;> first
    | (cases h <;> rfl)

theorem deprecated_shown : deprecatedTable.all (fun p => lower (shownName p.2.1) == lower p.2.1) = true := by decide +kernel

theorem shown_idem {s : Str} (h : strip s = s) : lower (shownName (shownName s)) = lower (shownName s) := by
  have same : shownName s = s → lower (shownName (shownName s)) = lower (shownName s) := fun e => by rw [e, e]
  have key : ∀ f, classOf s = f → f ≠ .deprecatedField → lower (shownName (shownName s)) = lower (shownName s) := by
    intro f hf hd
    cases hc : f.info.canonicalName with
    | none => exact same (by unfold shownName; rw [hf]; cases f <;> first | exact absurd rfl hd | (dsimp only; rw [hc]; exact h))
    | some c =>
      have : shownName s = c := by unfold shownName; rw [hf]; cases f <;> first | exact absurd rfl hd | (dsimp only; rw [hc]; rfl)
      rw [this]
      exact canon_shown f hc
  by_cases hd : classOf s = .deprecatedField
  · cases hf : deprecatedTable.find? (fun p => p.1 == lower (strip s)) with
    | none => exact same (by unfold shownName; rw [hd]; dsimp only; rw [hf]; exact h)
    | some p =>
      have : shownName s = p.2.1 := by unfold shownName; rw [hd]; dsimp only; rw [hf]; rfl
      rw [this]
      have := List.all_eq_true.1 deprecated_shown p (List.mem_of_find?_eq_some hf)
      exact beq_iff_eq.1 this
  · exact key _ rfl hd

/-! ### what a line says, and what it leaves -/

/-- what a line says and the handler it leaves, given the handler it finds -/
def spoken (c : Ctx) (h : Handler) (p : Nat × Line) : Handler × List Note :=
  let k := h.preCheck c.msg.kind (c.msg.adder (offsetSubject p.1) [(str "field_name", .str h.canonicalName)])
  if k.2.1 = false then (k.1, encNotes c.msg p.1 p.2.1 p.2.2 ++ k.2.2)
  else
    let w := k.1.handleInput c p.2.2 p.1
    (w.1, encNotes c.msg p.1 p.2.1 p.2.2 ++ k.2.2 ++ w.2.notes ++ bigNotes c.msg p.1 p.2.1 p.2.2 w.1)

/-- the handler a line finds -/
def finds (H : Str → Option Handler) (l : Line) : Handler := (H (lineKey l.1)).getD (mkHandler (classOf (decodeName l.1)) (decodeName l.1))

/-- the handlers once one is changed -/
def updated (H : Str → Option Handler) (k : Str) (h : Handler) : Str → Option Handler := fun x => if k = x then some h else H x

/-- what some lines say, one after the other -/
def spokenAll (c : Ctx) : (Str → Option Handler) → List (Nat × Line) → List Note
  | _, [] => []
  | H, p :: ps => (spoken c (finds H p.2) p).2 ++ spokenAll c (updated H (lineKey p.2.1) (spoken c (finds H p.2) p).1) ps

theorem line_spoken {env related t} {m0 m m' : Msg} {o o' : Nat} {l : Line} (he : Ext t m0 m) (h : processLine env related t m o l = (m', .ok o')) :
    m'.notes = m.notes ++ (spoken ⟨env, m0, related⟩ (lineHandler t m l.1) (o, l)).2 ∧
    ∀ k, dget (m'.section t).handlers k = if lineKey l.1 = k then some (spoken ⟨env, m0, related⟩ (lineHandler t m l.1) (o, l)).1 else dget (m.section t).handlers k := by
  obtain ⟨name, value⟩ := l
  have hadd : ∀ s b, m.adder s b = m0.adder s b := by intro s b; unfold Msg.adder; rw [ext_defaults he]
  have henc : ∀ o, encNotes m o name value = encNotes m0 o name value := by intro o; unfold encNotes; simp only [hadd]
  have hbig : ∀ o hd, bigNotes m o name value hd = bigNotes m0 o name value hd := by intro o hd; unfold bigNotes; simp only [hadd]
  have hchk : lineCheck t m o name = (lineHandler t m name).preCheck m0.kind (m0.adder (offsetSubject o) [(str "field_name", .str (lineHandler t m name).canonicalName)]) := by
    unfold lineCheck; rw [ext_kind he, hadd]
  have hmid : Ext t m (lineMid t m o name value) := ⟨_, _, rfl⟩
  have hin : lineInput env related t m o name value = (lineCheck t m o name).1.handleInput ⟨env, m0, related⟩ value o := by
    unfold lineInput; rw [handleInput_ext (he.trans hmid)]
  rw [processLine_eq] at h
  unfold spoken
  dsimp only
  rw [← hchk]
  by_cases hf : (lineCheck t m o name).2.1 = false
  · rw [if_pos hf] at h ⊢
    simp only [Prod.mk.injEq] at h
    rw [← h.1]
    refine ⟨by unfold lineMid; rw [← henc]; cases t <;> rfl, fun k => ?_⟩
    unfold lineMid
    simp only [section_addNotes, section_setSection]
    rw [dget_recorded]
  · rw [if_neg hf] at h ⊢
    rw [hin] at h
    dsimp only at h
    generalize (lineCheck t m o name).1.handleInput ⟨env, m0, related⟩ value o = hw at *
    split at h
    · simp at h
    · simp only [Prod.mk.injEq] at h
      rw [← h.1]
      refine ⟨by rw [← henc, ← hbig]; cases t <;> simp [Msg.addNotes, Msg.setSection], fun k => ?_⟩
      simp only [section_addNotes, section_setSection]
      rw [dget_recorded]

theorem finds_line {t : Bool} {m : Msg} {H : Str → Option Handler} (hH : ∀ k, H k = dget (m.section t).handlers k) (l : Line) :
    finds H l = lineHandler t m l.1 := by
  unfold finds lineHandler findHandler
  rw [hH]
  change _ = (match dget (m.section t).handlers (lineKey l.1) with | some h => h | none => _)
  cases dget (m.section t).handlers (lineKey l.1) with
  | some h => rfl
  | none => rfl

theorem lines_spoken {env related t} {ls : List Line} : ∀ {m0 m m' : Msg} {o : Nat} (_ : Ready env t m) (_ : Ext t m0 m) {H : Str → Option Handler}
    (_ : ∀ k, H k = dget (m.section t).handlers k) (_ : processLines env related t ls o m = (m', .ok ())),
    m'.notes = m.notes ++ spokenAll ⟨env, m0, related⟩ H (numbered m.kind o ls) := by
  induction ls with
  | nil =>
    intro m0 m m' o _ _ H _ h
    simp only [processLines, Prod.mk.injEq] at h
    rw [← h.1]
    exact (List.append_nil _).symm
  | cons l ls ih =>
    intro m0 m m' o hr he H hH h
    unfold processLines at h
    split at h
    · simp at h
    · rename_i m1 o1 heq
      have hr1 : Ready env t m1 := by have := hr.line (related := related) o l; rwa [heq] at this
      have hx : Ext t m m1 := by have := processLine_ext env related t m o l; rwa [heq] at this
      have ho := (processLine_notes hr heq).1
      obtain ⟨n1, d1⟩ := line_spoken he heq
      have hf := finds_line hH l
      rw [← hf] at n1 d1
      have := ih hr1 (he.trans hx) (H := updated H (lineKey l.1) (spoken ⟨env, m0, related⟩ (finds H l) (o, l)).1)
        (fun k => by unfold updated; rw [d1 k, hH k]) h
      rw [this, n1, ext_kind hx, ho, List.append_assoc]
      rfl

/-! ### what the notes of a line are about -/

/-- the subject of a note about the line numbered `o` -/
def PlacedAt (o : Nat) (x : Note) : Prop := x.subject = (elsewhere x.cls).getD (offsetSubject o)

theorem elsewhere_not_offset {cls : NoteId} {s : Str} (h : elsewhere cls = some s) : isOffset s = false := by
  rcases elsewhere_two h with rfl | rfl <;> rfl

/-- a handler of the name `k` (in lower case) -/
def IsOf (k : Str) (h : Handler) : Prop := ∃ s, lower s = k ∧ strip s = s ∧ SameId h (mkHandler (classOf s) s)

theorem IsOf.moved {k h h'} (i : IsOf k h) (e : SameId h' h) : IsOf k h' := by
  obtain ⟨s, a, b, c⟩ := i; exact ⟨s, a, b, e.trans c⟩

theorem about_names {mt cat f ft k n} {h : Handler} {S : Str} (i : IsOf k h) {x : Note} (ha : AboutField mt h.canonicalName cat f S ft x) (ho : isOffset x.subject = true) :
    namesField n x = shownLike n k := by
  obtain ⟨s, e1, e2, e3⟩ := i
  cases he : elsewhere x.cls with
  | some S' =>
    rw [ha.subject, he] at ho
    rw [Option.getD_some, elsewhere_not_offset he] at ho
    exact nomatch ho
  | none =>
    unfold namesField shownLike
    rw [ha.fieldName he, e3.canon, (mkHandler_shown s).1]
    dsimp only
    rw [shown_idem e2, shown_lower (show lower s = lower k by rw [← e1, lower_lower])]

/-- a note about the line numbered `o`, of a field named `k` -/
def OfLine (k : Str) (o : Nat) (x : Note) : Prop :=
  PlacedAt o x ∧ (∀ n, isOffset x.subject = true → namesField n x = shownLike n k) ∧ ∀ s ∈ x.subnotes, s.subject = x.subject

theorem about_ofLine {mt cat f ft k o} {h : Handler} (i : IsOf k h) {x : Note} (ha : AboutField mt h.canonicalName cat f (offsetSubject o) ft x) : OfLine k o x :=
  ⟨ha.subject, fun _ => about_names i ha, fun s hs => (ha.kids s hs).1⟩

theorem enc_ofLine {m : Msg} {mt : Val} (hm : m.defaults = mtDefaults mt) (o : Nat) (name value : Str) : ∀ x ∈ encNotes m o name value, OfLine (lineKey name) o x := by
  intro x hx
  have key : elsewhere x.cls = none → x.subject = offsetSubject o → dget x.vars (str "field_name") = some (.str (decodeName name)) → x.subnotes = [] → OfLine (lineKey name) o x := by
    intro he h1 h2 h3
    refine ⟨by unfold PlacedAt; rw [he, h1]; rfl, fun n _ => ?_, by rw [h3]; exact fun s hs => nomatch hs⟩
    unfold namesField shownLike
    rw [h2]
    dsimp only
    rw [shown_lower (show lower (decodeName name) = lower (lineKey name) by unfold lineKey; rw [lower_lower])]
  unfold encNotes at hx
  have : ∀ cls, elsewhere cls = none → x = (m.adder (offsetSubject o)).mk1 cls [(str "field_name", .str (decodeName name))] → OfLine (lineKey name) o x := by
    intro cls he e
    subst e
    refine key he rfl ?_ rfl
    show dget (dupdate m.defaults _) _ = _
    rw [hm]; simp [mtDefaults, Msg.adder, dupdate, dset, dget]
  rcases List.mem_append.1 hx with hx | hx
  all_goals
    split at hx
    · rw [List.mem_singleton] at hx
      exact this _ rfl hx
    · exact nomatch hx

theorem spoken_ofLine (c : Ctx) {mt : Val} (hm : c.msg.defaults = mtDefaults mt) {h : Handler} {p : Nat × Line} (i : IsOf (lineKey p.2.1) h)
    (ha : Kept (fun _ => True) h.aux) :
    SameId (spoken c h p).1 h ∧ Kept (fun _ => True) (spoken c h p).1.aux ∧ ∀ x ∈ (spoken c h p).2, OfLine (lineKey p.2.1) p.1 x := by
  obtain ⟨o, name, value⟩ := p
  obtain ⟨s, e1, e2, e3⟩ := i
  have i : IsOf (lineKey name) h := ⟨s, e1, e2, e3⟩
  have hs : Sorted h := by unfold Sorted; rw [e3.fid, e3.cat]; exact (mkHandler_shown s).2.2
  have hf := adder_fits hm (offsetSubject o) h.canonicalName
  have hc := preCheck_about h c.msg.kind hf
  have hcid := preCheck_id h c.msg.kind (c.msg.adder (offsetSubject o) [(str "field_name", .str h.canonicalName)])
  have hcaux := preCheck_aux c.msg.kind (c.msg.adder (offsetSubject o) [(str "field_name", .str h.canonicalName)]) h
  have henc := enc_ofLine hm o name value
  unfold spoken
  dsimp only
  generalize h.preCheck c.msg.kind (c.msg.adder (offsetSubject o) [(str "field_name", .str h.canonicalName)]) = k at *
  have first : ∀ x ∈ encNotes c.msg o name value ++ k.2.2, OfLine (lineKey name) o x := by
    intro x hx
    rcases List.mem_append.1 hx with hx | hx
    · exact henc x hx
    · exact about_ofLine i (hc x hx)
  split
  · exact ⟨hcid, by rw [hcaux]; exact ha, first⟩
  · have hin := handleInput_about c hm k.1 (by unfold Sorted; rw [hcid.fid, hcid.cat]; exact hs) (by rw [hcaux]; exact ha) value o
    have hinid := handleInput_id c k.1 value o
    generalize k.1.handleInput c value o = w at *
    have iw := (i.moved hcid).moved hinid
    refine ⟨hinid.trans hcid, hin.1, fun x hx => ?_⟩
    rcases List.mem_append.1 hx with hx | hx
    · rcases List.mem_append.1 hx with hx | hx
      · exact first x hx
      · exact about_ofLine (i.moved hcid) (hin.2 x hx)
    · exact about_ofLine iw (bigNotes_about (cat := .GENERAL) (f := h.fid) hm o name value w.1 x hx)

/-! ### the lines of one field among the others -/

/-- the handlers are those of their names -/
def HandlersOk (H : Str → Option Handler) : Prop := ∀ k h, H k = some h → IsOf k h ∧ Kept (fun _ => True) h.aux

theorem finds_ok {H} (hH : HandlersOk H) {l : Line} (hu : strip (decodeName l.1) = decodeName l.1) : IsOf (lineKey l.1) (finds H l) ∧ Kept (fun _ => True) (finds H l).aux := by
  unfold finds
  cases hk : H (lineKey l.1) with
  | some h => exact hH _ _ hk
  | none => exact ⟨⟨decodeName l.1, rfl, hu, .refl _⟩, by show Kept _ (mkHandler _ _).aux; rw [mkHandler_aux]; exact kept_empty⟩

theorem updated_ok {H} (hH : HandlersOk H) {k h} (i : IsOf k h) (a : Kept (fun _ => True) h.aux) : HandlersOk (updated H k h) := by
  intro k' h' e
  unfold updated at e
  split at e
  · rename_i hk; subst hk; simp only [Option.some.injEq] at e; subst e; exact ⟨i, a⟩
  · exact hH _ _ e

theorem spokenAll_picked (c : Ctx) {mt : Val} (hm : c.msg.defaults = mtDefaults mt) (n : Str) (ps : List (Nat × Line)) :
    (∀ p ∈ ps, strip (decodeName p.2.1) = decodeName p.2.1) → ∀ H H' : Str → Option Handler, HandlersOk H → HandlersOk H' → (∀ k, shownLike n k = true → H k = H' k) →
    (spokenAll c H ps).filter (picked n) = (spokenAll c H' (ps.filter fun p => shownLike n (lineKey p.2.1))).filter (picked n) := by
  induction ps with
  | nil => intro _ H H' _ _ _; rfl
  | cons p ps ih =>
    intro hu H H' hH hH' hHH
    have hup := hu p (List.mem_cons_self ..)
    have hut := fun q hq => hu q (List.mem_cons_of_mem _ hq)
    obtain ⟨i, a⟩ := finds_ok hH hup
    obtain ⟨s1, s2, s3⟩ := spoken_ofLine c hm i a
    by_cases hp : shownLike n (lineKey p.2.1) = true
    · rw [List.filter_cons_of_pos (p := fun q : Nat × Line => shownLike n (lineKey q.2.1)) hp]
      have hfind : finds H p.2 = finds H' p.2 := by unfold finds; rw [hHH _ hp]
      show List.filter _ (_ ++ _) = List.filter _ (_ ++ _)
      rw [List.filter_append, List.filter_append, ← hfind]
      congr 1
      refine ih hut _ _ (updated_ok hH (i.moved s1) s2) (updated_ok hH' (i.moved s1) s2) ?_
      intro k hk
      unfold updated
      split
      · rfl
      · exact hHH k hk
    · rw [List.filter_cons_of_neg (p := fun q : Nat × Line => shownLike n (lineKey q.2.1)) hp]
      show List.filter _ (_ ++ _) = _
      have none : (spoken c (finds H p.2) p).2.filter (picked n) = [] := by
        rw [List.filter_eq_nil_iff]
        intro x hx hpick
        unfold picked at hpick
        rw [Bool.and_eq_true] at hpick
        exact hp (((s3 x hx).2.1 n hpick.1).symm.trans hpick.2)
      rw [List.filter_append, none, List.nil_append]
      refine ih hut _ _ (updated_ok hH (i.moved s1) s2) hH' ?_
      intro k hk
      unfold updated
      split
      · rename_i e; subst e; exact absurd hk hp
      · exact hHH k hk

/-! ### notes that differ in the number of the line only -/

/-- the notes agree up to the line they are about, and the lines belong together -/
inductive Pairs (Q : Nat → Nat → Prop) : List Note → List Note → Prop
  | nil : Pairs Q [] []
  | cons {x y : Note} {a b : Nat} {xs ys : List Note} : unplaced x = unplaced y → Q a b → x.subject = offsetSubject a → y.subject = offsetSubject b →
      Pairs Q xs ys → Pairs Q (x :: xs) (y :: ys)

variable {Q : Nat → Nat → Prop}

theorem Pairs.append {a a' b b' : List Note} (h : Pairs Q a a') (h' : Pairs Q b b') : Pairs Q (a ++ b) (a' ++ b') := by
  induction h with
  | nil => exact h'
  | cons h1 h2 h3 h4 _ ih => exact .cons h1 h2 h3 h4 ih

theorem Pairs.mono {Q' : Nat → Nat → Prop} (hq : ∀ a b, Q a b → Q' a b) {xs ys} (h : Pairs Q xs ys) : Pairs Q' xs ys := by
  induction h with
  | nil => exact .nil
  | cons h1 h2 h3 h4 _ ih => exact .cons h1 (hq _ _ h2) h3 h4 ih

theorem Pairs.offset {xs ys} (h : Pairs Q xs ys) : (∀ x ∈ xs, isOffset x.subject = true) ∧ ∀ y ∈ ys, isOffset y.subject = true := by
  induction h with
  | nil => exact ⟨fun x hx => (nomatch hx), fun x hx => (nomatch hx)⟩
  | cons h1 h2 h3 h4 _ ih =>
    refine ⟨fun x hx => ?_, fun x hx => ?_⟩
    · rcases List.mem_cons.1 hx with rfl | hx
      · rw [h3]; exact isOffset_offset _
      · exact ih.1 x hx
    · rcases List.mem_cons.1 hx with rfl | hx
      · rw [h4]; exact isOffset_offset _
      · exact ih.2 x hx

theorem unplaced_names {x y : Note} (h : unplaced x = unplaced y) (n : Str) : namesField n x = namesField n y := by
  have : x.vars = y.vars := by have := congrArg Note.vars h; exact this
  unfold namesField
  rw [this]

theorem Pairs.picked (n : Str) {xs ys} (h : Pairs Q xs ys) : Pairs Q (xs.filter (picked n)) (ys.filter (picked n)) := by
  induction h with
  | nil => exact .nil
  | cons h1 h2 h3 h4 _ ih =>
    rename_i x y a b xs ys _
    have e : HL.Props.picked n x = HL.Props.picked n y := by
      unfold HL.Props.picked
      rw [h3, h4, isOffset_offset, isOffset_offset, unplaced_names h1]
    by_cases hp : HL.Props.picked n x = true
    · rw [List.filter_cons_of_pos hp, List.filter_cons_of_pos (e ▸ hp)]
      exact .cons h1 h2 h3 h4 ih
    · rw [List.filter_cons_of_neg hp, List.filter_cons_of_neg (e ▸ hp)]
      exact ih

theorem pairs_of {a b : Nat} (q : Q a b) {xs : List Note} : ∀ {ys : List Note}, xs.map unplaced = ys.map unplaced → (∀ x ∈ xs, x.subject = offsetSubject a) →
    (∀ y ∈ ys, y.subject = offsetSubject b) → Pairs Q xs ys := by
  induction xs with
  | nil =>
    intro ys h _ _
    cases ys with
    | nil => exact .nil
    | cons _ _ => exact nomatch h
  | cons x xs ih =>
    intro ys h hx hy
    cases ys with
    | nil => exact nomatch h
    | cons y ys =>
      rw [List.map_cons, List.map_cons, List.cons.injEq] at h
      exact .cons h.1 q (hx x (List.mem_cons_self ..)) (hy y (List.mem_cons_self ..))
        (ih h.2 (fun z hz => hx z (List.mem_cons_of_mem _ hz)) (fun z hz => hy z (List.mem_cons_of_mem _ hz)))

theorem placed_exact {o : Nat} {x : Note} (h : PlacedAt o x) (hx : isOffset x.subject = true) : x.subject = offsetSubject o := by
  unfold PlacedAt at h
  cases he : elsewhere x.cls with
  | none => rw [he] at h; exact h
  | some s =>
    rw [he, Option.getD_some] at h
    rw [h, elsewhere_not_offset he] at hx
    exact nomatch hx

theorem pairs_picked {a b : Nat} (q : Q a b) (n : Str) {xs : List Note} : ∀ {ys : List Note}, xs.map unplaced = ys.map unplaced → (∀ x ∈ xs, PlacedAt a x) →
    (∀ y ∈ ys, PlacedAt b y) → Pairs Q (xs.filter (picked n)) (ys.filter (picked n)) := by
  induction xs with
  | nil =>
    intro ys h _ _
    cases ys with
    | nil => exact .nil
    | cons _ _ => exact nomatch h
  | cons x xs ih =>
    intro ys h hx hy
    cases ys with
    | nil => exact nomatch h
    | cons y ys =>
      rw [List.map_cons, List.map_cons, List.cons.injEq] at h
      have rest := ih h.2 (fun z hz => hx z (List.mem_cons_of_mem _ hz)) (fun z hz => hy z (List.mem_cons_of_mem _ hz))
      have px := hx x (List.mem_cons_self ..)
      have py := hy y (List.mem_cons_self ..)
      have hcls : x.cls = y.cls := by have := congrArg Note.cls h.1; exact this
      have hoff : isOffset x.subject = isOffset y.subject := by
        rw [px, py, hcls]
        cases he : elsewhere y.cls with
        | none => rw [Option.getD_none, Option.getD_none, isOffset_offset, isOffset_offset]
        | some s => rfl
      have e : picked n x = picked n y := by unfold picked; rw [hoff, unplaced_names h.1]
      by_cases hp : picked n x = true
      · have hox : isOffset x.subject = true := by unfold picked at hp; rw [Bool.and_eq_true] at hp; exact hp.1
        rw [List.filter_cons_of_pos hp, List.filter_cons_of_pos (e ▸ hp)]
        exact .cons h.1 q (placed_exact px hox) (placed_exact py (hoff ▸ hox)) rest
      · rw [List.filter_cons_of_neg hp, List.filter_cons_of_neg (e ▸ hp)]
        exact rest

/-! ### reading the same lines under other numbers -/

theorem elementSyntax_mv {add add'} (h : AddMv add add') (hd : Handler) (v : Str) : Mv (hd.elementSyntax add v) (hd.elementSyntax add' v) := by
  unfold Handler.elementSyntax
  split
  · exact .refl _
  · split
    · exact .refl _
    · split
      · exact mv_bind (.refl _) fun _ => mv_add h
      · exact mv_when (mv_add h)

theorem mv_prefix {α} {ns ns' : List Note} (h : ns.map unplaced = ns'.map unplaced) {w w' : W α} (hw : Mv w w') : Mv (prefixNotes ns w) (prefixNotes ns' w') :=
  ⟨hw.res, by unfold prefixNotes; dsimp only; rw [List.map_append, List.map_append, h, hw.notes]⟩

theorem listLoop_mv (c : Ctx) {add add'} (hm : AddMv add add') (vs : List Str) : ∀ h : Handler, AuxOwn h.fid h.aux → h.fid ≠ .set_cookie_ →
    Mv (h.listLoop c add vs).2 (h.listLoop c add' vs).2 := by
  induction vs with
  | nil => intro h _ _; exact .refl _
  | cons v vs ih =>
    intro h ha hf
    unfold Handler.listLoop
    have hs := elementSyntax_mv hm h v
    dsimp only
    generalize h.elementSyntax add v = s at *
    generalize h.elementSyntax add' v = s' at *
    rw [← hs.res]
    cases s.res with
    | error e => exact ⟨rfl, hs.notes⟩
    | ok u =>
      dsimp only
      have p1 := (parse_moved c ha hf add add' (strip v)).1
      have p2 := (Handler.parse_mv hm (hd := h) (hd' := h) rfl rfl (.refl _) c (strip v)).2
      have hp := parse_auxOwn (c := c) (add := add) (v := strip v) ha
      generalize h.parse c add (strip v) = p at *
      generalize h.parse c add' (strip v) = p' at *
      obtain ⟨aux, r⟩ := p
      obtain ⟨aux', r'⟩ := p'
      dsimp only at p1 p2 hp ⊢
      subst p1
      have hns : (s.notes ++ r.notes).map unplaced = (s'.notes ++ r'.notes).map unplaced := by
        rw [List.map_append, List.map_append, hs.notes, p2.notes]
      rw [← p2.res]
      cases r.res with
      | error e =>
        dsimp only
        split
        · exact mv_prefix hns (ih { h with aux } hp hf)
        · exact ⟨rfl, hns⟩
      | ok x =>
        dsimp only
        cases ha2 : ({ h with aux } : Handler).append x with
        | error e => exact ⟨rfl, hns⟩
        | ok h' =>
          have he : h'.fid = h.fid := (append_id ha2).fid
          exact mv_prefix hns (ih h' (by rw [he, append_aux ha2]; exact hp) (by rw [he]; exact hf))

/-- the handlers differ in what they have read of lines that cannot be combined only -/
structure Twin (h h' : Handler) : Prop where
  raw : h' = { h with raw := h'.raw }
  same : h.fid.info.kind ≠ .broken → h' = h

theorem Twin.refl (h : Handler) : Twin h h := ⟨rfl, fun _ => rfl⟩

theorem adder_mv (m : Msg) (s s' : Str) (b) : AddMv (m.adder s b) (m.adder s' b) := ⟨rfl, rfl⟩

theorem encNotes_unplaced (m : Msg) (o o' : Nat) (a b : Str) : (encNotes m o a b).map unplaced = (encNotes m o' a b).map unplaced := by
  unfold encNotes
  rw [List.map_append, List.map_append]
  congr 1
  all_goals
    split
    · rw [List.map_cons, List.map_cons, unplaced_mk1 (adder_mv m _ _ _)]
    · rfl

theorem bigNotes_unplaced (m : Msg) (o o' : Nat) (a b : Str) {h h' : Handler} (hc : h.canonicalName = h'.canonicalName) :
    (bigNotes m o a b h).map unplaced = (bigNotes m o' a b h').map unplaced := by
  unfold bigNotes
  rw [hc]
  split
  · rw [List.map_cons, List.map_cons, unplaced_mk1 (adder_mv m _ _ _)]
  · rfl

theorem preCheck_twin {h h' : Handler} (t : Twin h h') (kind : MsgKind) {add add'} (hm : AddMv add add') :
    Twin (h.preCheck kind add).1 (h'.preCheck kind add').1 ∧ (h.preCheck kind add).2.1 = (h'.preCheck kind add').2.1 ∧
    (h.preCheck kind add).2.2.map unplaced = (h'.preCheck kind add').2.2.map unplaced := by
  obtain ⟨t1, t2⟩ := t
  generalize h'.raw = r at *
  subst t1
  unfold Handler.preCheck
  split
  · exact ⟨⟨rfl, fun hk => by rw [t2 hk]⟩, rfl, by rw [List.map_cons, List.map_cons, unplaced_mk1 hm]⟩
  · split
    · exact ⟨⟨rfl, t2⟩, rfl, by rw [List.map_cons, List.map_cons, unplaced_mk1 hm]⟩
    · dsimp only
      split
      · refine ⟨⟨rfl, t2⟩, rfl, ?_⟩
        rw [List.map_cons, List.map_cons]
        congr 1
        unfold unplaced AddNote.mk1 mkNote
        rw [hm.1, hm.2]
      · refine ⟨⟨rfl, t2⟩, rfl, ?_⟩
        dsimp only
        split
        · rw [List.map_cons, List.map_cons, unplaced_mk1 hm]
        · rfl

theorem handleInput_twin {h h' : Handler} (t : Twin h h') (ha : AuxOwn h.fid h.aux) (c : Ctx) (v : Str) (o o' : Nat) :
    Twin (h.handleInput c v o).1 (h'.handleInput c v o').1 ∧ Mv (h.handleInput c v o).2 (h'.handleInput c v o').2 := by
  by_cases hk : h.fid.info.kind = .broken
  · obtain ⟨t1, _⟩ := t
    generalize h'.raw = r at *
    subst t1
    unfold Handler.handleInput
    dsimp only
    rw [hk]
    exact ⟨⟨rfl, fun h => absurd hk h⟩, .refl _⟩
  · have e := t.same hk
    subst e
    unfold Handler.handleInput
    split
    · have hf : h'.fid ≠ .set_cookie_ := by intro e; rw [e] at hk; exact hk rfl
      have hm : AddMv (h'.offsetAdd c.msg.defaults o) (h'.offsetAdd c.msg.defaults o') := ⟨rfl, rfl⟩
      refine ⟨?_, listLoop_mv c hm _ h' ha hf⟩
      rw [listLoop_moved c (h'.offsetAdd c.msg.defaults o) (h'.offsetAdd c.msg.defaults o') _ h' ha hf]
      exact .refl _
    · exact ⟨.refl _, .refl _⟩
    · rename_i hb; exact absurd hb hk
    · split <;> exact ⟨.refl _, .refl _⟩
    · split <;> exact ⟨.refl _, .refl _⟩
    · exact ⟨.refl _, .refl _⟩

theorem spoken_twin {h h' : Handler} (t : Twin h h') (ha : AuxOwn h.fid h.aux) (c : Ctx) (o o' : Nat) (l : Line) :
    Twin (spoken c h (o, l)).1 (spoken c h' (o', l)).1 ∧ AuxOwn h.fid (spoken c h (o, l)).1.aux ∧
    (spoken c h (o, l)).2.map unplaced = (spoken c h' (o', l)).2.map unplaced := by
  have hcan : h'.canonicalName = h.canonicalName := by rw [t.raw]
  have hm : AddMv (c.msg.adder (offsetSubject o) [(str "field_name", .str h.canonicalName)]) (c.msg.adder (offsetSubject o') [(str "field_name", .str h'.canonicalName)]) := by
    rw [hcan]; exact adder_mv _ _ _ _
  obtain ⟨k1, k2, k3⟩ := preCheck_twin t c.msg.kind hm
  have ki := preCheck_id h c.msg.kind (c.msg.adder (offsetSubject o) [(str "field_name", .str h.canonicalName)])
  have ka := preCheck_aux c.msg.kind (c.msg.adder (offsetSubject o) [(str "field_name", .str h.canonicalName)]) h
  have ee := encNotes_unplaced c.msg o o' l.1 l.2
  unfold spoken
  dsimp only
  generalize h.preCheck c.msg.kind (c.msg.adder (offsetSubject o) [(str "field_name", .str h.canonicalName)]) = k at *
  generalize h'.preCheck c.msg.kind (c.msg.adder (offsetSubject o') [(str "field_name", .str h'.canonicalName)]) = k' at *
  rw [← k2]
  split
  · exact ⟨k1, by rw [ka]; exact ha, by rw [List.map_append, List.map_append, ee, k3]⟩
  · have ha' : AuxOwn k.1.fid k.1.aux := by rw [ki.fid, ka]; exact ha
    obtain ⟨w1, w2⟩ := handleInput_twin k1 ha' c l.2 o o'
    refine ⟨w1, ?_, ?_⟩
    · have := handleInput_auxOwn (c := c) (v := l.2) (o := o) ha'
      rwa [ki.fid] at this
    · dsimp only
      simp only [List.map_append]
      rw [ee, k3, w2.notes, bigNotes_unplaced c.msg o o' l.1 l.2 (show (Handler.handleInput c k.1 l.2 o).1.canonicalName = (Handler.handleInput c k'.1 l.2 o').1.canonicalName by rw [w1.raw])]

/-- the handlers of two sections, one by one -/
def TwinAll (H H' : Str → Option Handler) : Prop := ∀ k, match H k, H' k with
  | none, none => True
  | some h, some h' => Twin h h' ∧ AuxOwn h.fid h.aux
  | _, _ => False

theorem finds_twin {H H'} (ht : TwinAll H H') (l : Line) : Twin (finds H l) (finds H' l) ∧ AuxOwn (finds H l).fid (finds H l).aux := by
  have := ht (lineKey l.1)
  unfold finds
  cases h1 : H (lineKey l.1) <;> cases h2 : H' (lineKey l.1) <;> rw [h1, h2] at this <;> dsimp only at this
  · exact ⟨.refl _, by show AuxOwn _ (mkHandler _ _).aux; rw [mkHandler_aux]; intro n hn; exact nomatch hn⟩
  · exact this

theorem updated_twin {H H'} (ht : TwinAll H H') {k h h'} (t : Twin h h') (a : AuxOwn h.fid h.aux) : TwinAll (updated H k h) (updated H' k h') := by
  intro x
  unfold updated
  by_cases hx : k = x
  · rw [if_pos hx, if_pos hx]; exact ⟨t, a⟩
  · rw [if_neg hx, if_neg hx]; exact ht x

theorem spokenAll_pairs (c : Ctx) {mt : Val} (hm : c.msg.defaults = mtDefaults mt) (n : Str) (ps : List (Nat × Line)) : ∀ (ps' : List (Nat × Line)) (H H' : Str → Option Handler),
    ps.map (·.2) = ps'.map (·.2) → (∀ p ∈ ps, strip (decodeName p.2.1) = decodeName p.2.1) → HandlersOk H → HandlersOk H' → TwinAll H H' →
    (∀ q ∈ (ps.map (·.1)).zip (ps'.map (·.1)), Q q.1 q.2) →
    Pairs Q ((spokenAll c H ps).filter (picked n)) ((spokenAll c H' ps').filter (picked n)) := by
  induction ps with
  | nil =>
    intro ps' H H' h _ _ _ _ _
    cases ps' with
    | nil => exact .nil
    | cons _ _ => exact nomatch h
  | cons p ps ih =>
    intro ps' H H' h hu hH hH' ht hq
    cases ps' with
    | nil => exact nomatch h
    | cons p' ps' =>
      obtain ⟨o, l⟩ := p
      obtain ⟨o', l'⟩ := p'
      rw [List.map_cons, List.map_cons, List.cons.injEq] at h
      obtain ⟨h1, h2⟩ := h
      dsimp only at h1
      subst h1
      have hul := hu _ (List.mem_cons_self ..)
      obtain ⟨i, a⟩ := finds_ok hH hul
      obtain ⟨i', a'⟩ := finds_ok hH' hul
      obtain ⟨s1, s2, s3⟩ := spoken_ofLine c hm (p := (o, l)) i a
      obtain ⟨s1', s2', s3'⟩ := spoken_ofLine c hm (p := (o', l)) i' a'
      obtain ⟨t, ao⟩ := finds_twin ht l
      obtain ⟨t1, t2, t3⟩ := spoken_twin t ao c o o' l
      have hq0 : Q o o' := hq (o, o') (List.mem_cons_self ..)
      show Pairs Q (List.filter _ (_ ++ _)) (List.filter _ (_ ++ _))
      rw [List.filter_append, List.filter_append]
      refine .append (pairs_picked hq0 n t3 (fun x hx => (s3 x hx).1) (fun x hx => (s3' x hx).1)) ?_
      refine ih ps' _ _ h2 (fun p hp => hu p (List.mem_cons_of_mem _ hp)) (updated_ok hH (i.moved s1) s2) (updated_ok hH' (i'.moved s1') s2') ?_
        (fun q hq' => hq q (List.mem_cons_of_mem _ hq'))
      exact updated_twin ht t1 (by rw [s1.fid]; exact t2)

/-! ### finishing fields whose lines cannot be combined -/

theorem broken_parse (c : Ctx) {h₁ h₂ : Handler} (hk : h₁.fid.info.kind = .broken) (hi : SameId h₁ h₂) {a b : Nat} (q : Q a b) (d : Dict Val)
    (ha : Pairs Q h₁.aux.notes h₂.aux.notes) (v : Str) :
    (h₁.parse c (h₁.offsetAdd d a) v).2.notes = [] ∧ (h₂.parse c (h₂.offsetAdd d b) v).2.notes = [] ∧
    Pairs Q (h₁.parse c (h₁.offsetAdd d a) v).1.notes (h₂.parse c (h₂.offsetAdd d b) v).1.notes := by
  unfold Handler.parse Handler.noAux
  rw [← hi.fid]
  rcases kind_broken hk with hf | hf <;> rw [hf] <;> dsimp only
  · exact ⟨rfl, rfl, ha⟩
  · unfold set_cookie.parse
    cases c.env.urlsplit c.msg.baseUri with
    | error e => exact ⟨rfl, rfl, ha⟩
    | ok u =>
      refine ⟨rfl, rfl, .append ha (pairs_of q ?_ ?_ ?_)⟩
      · exact (looseParse_mv (show AddMv (h₁.offsetAdd d a) (h₂.offsetAdd d b) from ⟨rfl, by unfold Handler.offsetAdd; rw [hi.canon]⟩) _ _ _).notes
      · intro x hx; exact (looseParse_own _ _ _ x hx).subject _ rfl
      · intro x hx; exact (looseParse_own _ _ _ x hx).subject _ rfl

theorem brokenNotes_pairs {c₁ c₂ : Ctx} {d : Dict Val} (e₁ : c₁.msg.defaults = d) (e₂ : c₂.msg.defaults = d) {h₁ h₂ : Handler} (hi : SameId h₁ h₂) {a b : Nat} (q : Q a b) (raw : Str) :
    Pairs Q (brokenNotes c₁ h₁ raw a) (brokenNotes c₂ h₂ raw b) := by
  have hm : AddMv (h₁.offsetAdd c₁.msg.defaults a) (h₂.offsetAdd c₂.msg.defaults b) := ⟨e₁.trans e₂.symm, by unfold Handler.offsetAdd; rw [hi.canon]⟩
  refine pairs_of q ?_ ?_ ?_
  · unfold brokenNotes
    rw [← hi.fid]
    split
    · rfl
    · split
      · rfl
      · rw [List.map_cons, List.map_cons, unplaced_mk1 hm, hi.ref]
  all_goals
    intro x hx
    unfold brokenNotes at hx
    split at hx
    · exact nomatch hx
    · split at hx
      · exact nomatch hx
      · rw [List.mem_singleton] at hx
        subst hx
        rfl

theorem brokenLoop_pairs {env related t m} {c₁ c₂ : Ctx} (d₁ : During env related t m c₁) (d₂ : During env related t m c₂) (rs₁ : List (Str × Nat)) :
    ∀ (rs₂ : List (Str × Nat)) (h₁ h₂ : Handler) (acc : List Val), rs₁.map (·.1) = rs₂.map (·.1) → (∀ q ∈ (rs₁.map (·.2)).zip (rs₂.map (·.2)), Q q.1 q.2) →
    h₁.fid.info.kind = .broken → SameId h₁ h₂ → Pairs Q h₁.aux.notes h₂.aux.notes →
    (h₁.brokenLoop c₁ rs₁ acc).2.res = (h₂.brokenLoop c₂ rs₂ acc).2.res ∧ Pairs Q (h₁.brokenLoop c₁ rs₁ acc).2.notes (h₂.brokenLoop c₂ rs₂ acc).2.notes ∧
    Pairs Q (h₁.brokenLoop c₁ rs₁ acc).1.aux.notes (h₂.brokenLoop c₂ rs₂ acc).1.aux.notes := by
  have e₁ : c₁.msg.defaults = m.defaults := ext_defaults d₁.ext
  have e₂ : c₂.msg.defaults = m.defaults := ext_defaults d₂.ext
  induction rs₁ with
  | nil =>
    intro rs₂ h₁ h₂ acc h _ _ _ ha
    cases rs₂ with
    | nil => exact ⟨rfl, .nil, ha⟩
    | cons _ _ => exact nomatch h
  | cons r₁ rs₁ ih =>
    intro rs₂ h₁ h₂ acc h hq hk hi ha
    cases rs₂ with
    | nil => exact nomatch h
    | cons r₂ rs₂ =>
      obtain ⟨raw, a⟩ := r₁
      obtain ⟨raw', b⟩ := r₂
      rw [List.map_cons, List.map_cons, List.cons.injEq] at h
      obtain ⟨hr, h⟩ := h
      dsimp only at hr
      subst hr
      have q : Q a b := hq (a, b) (List.mem_cons_self ..)
      have hq' : ∀ q ∈ (rs₁.map (·.2)).zip (rs₂.map (·.2)), Q q.1 q.2 := fun q hq' => hq q (List.mem_cons_of_mem _ hq')
      have bn := brokenNotes_pairs e₁ e₂ hi q raw
      rw [brokenLoop_cons, brokenLoop_cons, e₁, e₂, ← parse_both d₁ d₂ h₂]
      obtain ⟨n1, n2, n3⟩ := broken_parse c₁ hk hi q m.defaults ha (strip raw)
      have hres : (h₁.parse c₁ (h₁.offsetAdd m.defaults a) (strip raw)).2.res = (h₂.parse c₁ (h₂.offsetAdd m.defaults b) (strip raw)).2.res := by
        rw [parse_res, parse_res, hi.fid]
      generalize h₁.parse c₁ (h₁.offsetAdd m.defaults a) (strip raw) = p₁ at *
      generalize h₂.parse c₁ (h₂.offsetAdd m.defaults b) (strip raw) = p₂ at *
      rw [n1, n2, List.append_nil, List.append_nil, ← hres]
      have go : ∀ acc, _ := fun acc => ih rs₂ { h₁ with aux := p₁.1 } { h₂ with aux := p₂.1 } acc h hq' hk ⟨hi.fid, hi.wire, hi.norm, hi.canon, hi.cat, hi.ref⟩ n3
      cases p₁.2.res with
      | ok v =>
        obtain ⟨g1, g2, g3⟩ := go (acc ++ [v])
        exact ⟨g1, .append bn g2, g3⟩
      | error e =>
        dsimp only
        split
        · obtain ⟨g1, g2, g3⟩ := go acc
          exact ⟨g1, .append bn g2, g3⟩
        · exact ⟨rfl, bn, n3⟩

theorem unpicked {n : Str} {ns : List Note} (h : ∀ x ∈ ns, isOffset x.subject = false) : ns.filter (picked n) = [] := by
  rw [List.filter_eq_nil_iff]
  intro x hx hp
  unfold picked at hp
  rw [h x hx] at hp
  exact nomatch hp

theorem set_cookie_quiet (add : AddNote) (hs : isOffset add.subject = false) (h : Handler) (ha : h.aux.notes = []) :
    ∀ x ∈ (set_cookie.evaluate add h).notes, isOffset x.subject = false := by
  have hadd : ∀ X vrs, Emits (fun n => isOffset n.subject = false) (add.add X vrs) := by
    intro X vrs n hn
    simp only [AddNote.add, List.mem_singleton] at hn
    subst hn
    exact hs
  change Emits (fun n => isOffset n.subject = false) (set_cookie.evaluate add h)
  unfold set_cookie.evaluate
  rw [ha]
  refine emits_bind (emits_lift _) fun s => ?_
  dsimp only
  refine emits_bind (emits_when (fun _ => hadd _ _)) fun _ => emits_bind (emits_when (fun _ => hadd _ _)) fun _ => ?_
  intro x hx
  exact nomatch hx

theorem evaluate_pairs (c₁ c₂ : Ctx) (add : AddNote) (hs : isOffset add.subject = false) (n : Str) {h₁ h₂ : Handler} (hk : h₁.fid.info.kind = .broken) (hf : h₁.fid = h₂.fid)
    {vs : List Val} (v₁ : h₁.value = .list vs) (v₂ : h₂.value = .list vs) (ha : Pairs Q h₁.aux.notes h₂.aux.notes) :
    Pairs Q ((h₁.evaluate c₁ add).2.notes.filter (picked n)) ((h₂.evaluate c₂ add).2.notes.filter (picked n)) := by
  unfold Handler.evaluate
  rw [← hf]
  rcases kind_broken hk with e | e <;> rw [e] <;> dsimp only
  · exact .nil
  · obtain ⟨front, hfr⟩ := set_cookie_front add h₁ vs v₁
    show Pairs Q ((set_cookie.evaluate add h₁).notes.filter _) ((set_cookie.evaluate add h₂).notes.filter _)
    have hq : ∀ x ∈ front, isOffset x.subject = false := by
      have := set_cookie_quiet add hs { h₁ with aux := {} } rfl
      rw [hfr { h₁ with aux := {} } v₁] at this
      intro x hx
      exact this x (List.mem_append_left _ hx)
    rw [hfr _ v₁, hfr _ v₂, List.filter_append, List.filter_append, unpicked hq]
    exact ha.picked n

theorem finishBroken_pairs {env related t m} {c₁ c₂ : Ctx} (d₁ : During env related t m c₁) (d₂ : During env related t m c₂) (add : AddNote)
    (hs : isOffset add.subject = false) (n : Str) {h₁ h₂ : Handler}
    (hi : SameId h₁ h₂) (hk : h₁.fid.info.kind = .broken) (hr : h₁.raw.map (·.1) = h₂.raw.map (·.1)) (a₁ : h₁.aux = {}) (a₂ : h₂.aux = {})
    (hq : ∀ q ∈ (h₁.raw.map (·.2)).zip (h₂.raw.map (·.2)), Q q.1 q.2) :
    Pairs Q ((h₁.finish c₁ add).2.notes.filter (picked n)) ((h₂.finish c₂ add).2.notes.filter (picked n)) := by
  have f₁ : h₁.finish c₁ add = h₁.finishBroken c₁ add := by unfold Handler.finish; rw [hk]
  have f₂ : h₂.finish c₂ add = h₂.finishBroken c₂ add := by unfold Handler.finish; rw [← hi.fid, hk]
  rw [f₁, f₂]
  unfold Handler.finishBroken
  obtain ⟨l1, l2, l3⟩ := brokenLoop_pairs d₁ d₂ h₁.raw h₂.raw h₁ h₂ [] hr hq hk hi (by rw [a₁, a₂]; exact .nil)
  have i₁ := brokenLoop_id c₁ h₁.raw h₁ []
  have i₂ := brokenLoop_id c₂ h₂.raw h₂ []
  generalize h₁.brokenLoop c₁ h₁.raw [] = p₁ at *
  generalize h₂.brokenLoop c₂ h₂.raw [] = p₂ at *
  obtain ⟨g₁, w₁⟩ := p₁
  obtain ⟨g₂, w₂⟩ := p₂
  dsimp only at *
  rw [← l1]
  cases w₁.res with
  | error e => exact l2.picked n
  | ok vs =>
    dsimp only
    unfold Handler.evalAfter
    rw [if_neg (by exact fun h => nomatch h), if_neg (by exact fun h => nomatch h)]
    show Pairs Q (List.filter _ (_ ++ _)) (List.filter _ (_ ++ _))
    rw [List.filter_append, List.filter_append]
    exact .append (l2.picked n) (evaluate_pairs c₁ c₂ add hs n (by show g₁.fid.info.kind = _; rw [i₁.fid]; exact hk)
      (by show g₁.fid = g₂.fid; rw [i₁.fid, i₂.fid, hi.fid]) rfl rfl l3)

/-! ### what finishing the other fields says -/

theorem readHandler_of {c : Ctx} {ls : List Line} {k : Str} (hu : Unpadded ls) (hk : k ∈ namesOf ls) : IsOf k (readHandler c ls k) := by
  refine ⟨spelling ls k, lower_spelling hk, ?_, ?_⟩
  · obtain ⟨l, hl, e, _⟩ := spelling_mem hk
    rw [e]; exact hu l hl
  · unfold readHandler handlerFor
    split
    · exact fed_id _ _ _
    · exact checked_id _ _

theorem readHandler_broken {c : Ctx} {ls : List Line} {k : Str} (hk : k ∈ namesOf ls) (hb : (classOf k).info.kind = .broken) :
    (readHandler c ls k).aux = {} ∧ (readHandler c ls k).raw = if okName c.msg.kind k then (sent c.msg.kind k ls).map fun p => (p.2, p.1) else [] := by
  unfold readHandler handlerFor
  rw [okName_spelling hk]
  split
  · rw [fed_broken (by rw [classOf_spelling hk]; exact hb)]
    exact ⟨by show (mkHandler _ _).aux = _; rw [mkHandler_aux], rfl⟩
  · unfold checked
    split
    · exact ⟨by rw [mkHandler_aux], by rw [mkHandler_raw]⟩
    · exact ⟨by show (mkHandler _ _).aux = _; rw [mkHandler_aux], by show (mkHandler _ _).raw = _; rw [mkHandler_raw]⟩

theorem readHandler_kept {env related} {ls : List Line} {m : Msg} {mt : Val} {k : Str} (hm : m.defaults = mtDefaults mt) :
    Kept (fun _ => True) (readHandler ⟨env, m, related⟩ ls k).aux := by
  unfold readHandler handlerFor
  split
  · exact fed_kept _ _ _ hm
  · unfold checked; split <;> (show Kept _ (mkHandler _ _).aux; rw [mkHandler_aux]; exact kept_empty)

theorem finishSaid_unpicked {env related t} {ls : List Line} {m : Msg} {mt : Val} {ctx : Str → Ctx} {n k : Str} (hm : m.defaults = mtDefaults mt) (hu : Unpadded ls)
    (hk : k ∈ namesOf ls) (hd : During env related t m (ctx k)) (hno : (classOf k).info.kind ≠ .broken ∨ shownLike n k = false) :
    (finishSaid env related t m ls ctx k).filter (picked n) = [] := by
  rw [List.filter_eq_nil_iff]
  intro x hx hp
  unfold picked at hp
  rw [Bool.and_eq_true] at hp
  unfold finishSaid at hx
  have hcm : (ctx k).msg.defaults = mtDefaults mt := (ext_defaults hd.ext).trans hm
  have hio := readHandler_of (c := ⟨env, m, related⟩) hu hk
  have hfid := readHandler_fid (c := ⟨env, m, related⟩) hk
  have hbr := fun hb => (readHandler_broken (c := ⟨env, m, related⟩) hk hb).1
  have hkept := readHandler_kept (env := env) (related := related) (ls := ls) (k := k) hm
  generalize readHandler ⟨env, m, related⟩ ls k = hd1 at *
  have hsorted : Sorted hd1 := by obtain ⟨s, _, _, e⟩ := hio; unfold Sorted; rw [e.fid, e.cat]; exact (mkHandler_shown _).2.2
  have hfin := finish_about (mt := mt) (ctx k) hcm hd1 (fieldAdder_fits hm t hd1) hsorted hkept (fun h => hbr (hfid ▸ h)) x hx
  unfold FinishAbout at hfin
  rcases hfin with hfin | ⟨hb, q, _, hfin⟩
  · have hs := hfin.subject
    cases he : elsewhere x.cls with
    | none => rw [he] at hs; rw [hs] at hp; exact nomatch hp.1
    | some S => rw [he, Option.getD_some] at hs; rw [hs, elsewhere_not_offset he] at hp; exact nomatch hp.1
  · rcases hno with hno | hno
    · exact hno (hfid ▸ hb)
    · rw [about_names hio hfin hp.1, hno] at hp
      exact nomatch hp.2

/-! ### the theorem -/

theorem Pairs.list {xs ys} (h : Pairs Q xs ys) : ∃ L : List (Note × Note), xs = L.map (·.1) ∧ ys = L.map (·.2) ∧
    ∀ p ∈ L, unplaced p.1 = unplaced p.2 ∧ ∃ a b, Q a b ∧ p.1.subject = offsetSubject a ∧ p.2.subject = offsetSubject b := by
  induction h with
  | nil => exact ⟨[], rfl, rfl, fun p hp => nomatch hp⟩
  | cons h1 h2 h3 h4 _ ih =>
    rename_i x y a b _ _ _
    obtain ⟨L, rfl, rfl, hL⟩ := ih
    refine ⟨(x, y) :: L, rfl, rfl, fun p hp => ?_⟩
    rcases List.mem_cons.1 hp with rfl | hp
    · exact ⟨h1, a, b, h2, h3, h4⟩
    · exact hL p hp

theorem pairs_flatMap {α} {f g : α → List Note} {l : List α} (h : ∀ k ∈ l, Pairs Q (f k) (g k)) : Pairs Q (l.flatMap f) (l.flatMap g) := by
  induction l with
  | nil => exact .nil
  | cons k l ih =>
    rw [List.flatMap_cons, List.flatMap_cons]
    exact .append (h k (List.mem_cons_self ..)) (ih fun x hx => h x (List.mem_cons_of_mem _ hx))

theorem filter_zip {α β} (g : β → Bool) (A : List (α × β)) : ∀ B : List (α × β), A.map (·.2) = B.map (·.2) →
    ∀ q ∈ ((A.filter fun p => g p.2).map (·.1)).zip ((B.filter fun p => g p.2).map (·.1)), q ∈ (A.map (·.1)).zip (B.map (·.1)) := by
  induction A with
  | nil => intro B h q hq; exact nomatch hq
  | cons a A ih =>
    intro B h q hq
    cases B with
    | nil => exact nomatch h
    | cons b B =>
      rw [List.map_cons, List.map_cons, List.cons.injEq] at h
      obtain ⟨h1, h2⟩ := h
      by_cases hg : g a.2 = true
      · rw [List.filter_cons_of_pos (p := fun p : α × β => g p.2) hg, List.filter_cons_of_pos (p := fun p : α × β => g p.2) (h1 ▸ hg)] at hq
        rw [List.map_cons, List.map_cons, List.zip_cons_cons] at hq ⊢
        rcases List.mem_cons.1 hq with rfl | hq
        · exact List.mem_cons_self ..
        · exact List.mem_cons_of_mem _ (ih B h2 q hq)
      · rw [List.filter_cons_of_neg (p := fun p : α × β => g p.2) hg, List.filter_cons_of_neg (p := fun p : α × β => g p.2) (h1 ▸ hg)] at hq
        rw [List.map_cons, List.map_cons, List.zip_cons_cons]
        exact List.mem_cons_of_mem _ (ih B h2 q hq)

/-- the numbered lines of a field -/
def ownLines (kind : MsgKind) (n : Str) (ls : List Line) : List (Nat × Line) := (numbered kind 0 ls).filter fun p => shownLike n (lineKey p.2.1)

theorem ownLines_snd (kind : MsgKind) (n : Str) (ls : List Line) : (ownLines kind n ls).map (·.2) = ls.filter fun l => shownLike n (lineKey l.1) := by
  have := congrArg (List.filter fun l : Line => shownLike n (lineKey l.1)) (numbered_snd kind ls 0)
  rw [List.filter_map] at this
  exact this

theorem sent_own (kind : MsgKind) {n k : Str} (hs : shownLike n k = true) (ls : List Line) :
    (sent kind k ls).map (·.1) = ((ownLines kind n ls).filter fun p => lineKey p.2.1 == k).map (·.1) := by
  unfold sent linesOf ownLines
  rw [List.map_map, List.filter_filter]
  generalize numbered kind 0 ls = ps
  have : (ps.filter fun p => lineKey p.2.1 == k) = ps.filter fun p => (lineKey p.2.1 == k) && shownLike n (lineKey p.2.1) := by
    apply List.filter_congr
    intro p _
    by_cases h : lineKey p.2.1 = k
    · rw [h, hs, Bool.and_true]
    · simp [h]
  rw [← this]
  rfl

section
variable {env : Env} {related : Option Msg} {t : Bool} {ls₁ ls₂ : List Line} {m m₁ m₂ : Msg}

/-- what is said about the lines of a field: while they are read, and while the section is finished -/
theorem saidOfLines_eq {ls : List Line} {m m' : Msg} (P : Processed env related t ls m m') (hu : Unpadded ls) (n : Str) : ∃ ctx : Str → Ctx,
    (∀ k ∈ namesOf ls, During env related t m (ctx k)) ∧
    saidOfLines n m m' = (spokenAll ⟨env, m, related⟩ (fun _ => none) (ownLines m.kind n ls)).filter (picked n) ++
      ((namesOf ls).filter (shownLike n)).flatMap fun k => (finishSaid env related t m ls ctx k).filter (picked n) := by
  have hr := P.linting.ready t
  have hm : m.defaults = mtDefaults _ := P.linting.defaults
  obtain ⟨lineNotes, sizeNotes, ctx, h1, _, h3, h4, h5, _, h7⟩ := section_outcome_full hr P.new P.ok
  refine ⟨ctx, fun k hk => (h4 k hk).1, ?_⟩
  have hok : processLines env related t ls 0 m = ((processLines env related t ls 0 m).1, .ok ()) := by
    have := P.ok
    unfold processSection at this
    split at this
    · simp at this
    · rename_i hh; rw [hh]
  have hsp := lines_spoken hr (.refl t m) (H := fun _ => none) (fun k => by rw [P.new]; rfl) hok
  have hln : lineNotes = spokenAll ⟨env, m, related⟩ (fun _ => none) (numbered m.kind 0 ls) := List.append_cancel_left (h1.symm.trans hsp)
  have hsize : sizeNotes.filter (picked n) = [] := by
    refine unpicked ?_
    intro x hx
    rw [h3] at hx
    unfold sectionSizeNotes at hx
    dsimp only at hx
    split at hx
    · rw [List.mem_singleton] at hx
      subst hx
      rfl
    · exact nomatch hx
  have hnone : HandlersOk (fun _ => none) := by intro k h e; simp at e
  unfold saidOfLines
  rw [h5, List.drop_left, List.filter_append, List.filter_append, hsize, List.append_nil, List.filter_flatMap, hln]
  congr 1
  · refine spokenAll_picked _ hm n _ ?_ _ _ hnone hnone fun _ _ => rfl
    intro p hp
    refine hu p.2 ?_
    rw [← numbered_snd m.kind ls 0]
    exact List.mem_map_of_mem hp
  · have key : ∀ l : List Str, (∀ k ∈ l, k ∈ namesOf ls) →
        (l.flatMap fun k => (finishSaid env related t m ls ctx k).filter (picked n)) =
        (l.filter (shownLike n)).flatMap fun k => (finishSaid env related t m ls ctx k).filter (picked n) := by
      intro l
      induction l with
      | nil => intro _; rfl
      | cons k l ih =>
        intro hl
        rw [List.flatMap_cons, ih fun x hx => hl x (List.mem_cons_of_mem _ hx)]
        by_cases hk : shownLike n k = true
        · rw [List.filter_cons_of_pos hk, List.flatMap_cons]
        · have hkn := hl k (List.mem_cons_self ..)
          rw [List.filter_cons_of_neg hk, finishSaid_unpicked hm hu hkn (h4 k hkn).1 (.inr (by simpa using hk)), List.nil_append]
    exact key _ fun k hk => hk

/-- **C126**: in two sections that a message could have, the same is said about the lines of a field if these lines are the same, in the
same order: the notes correspond one by one, differ in the number of the line they are about only, and are about lines that
correspond. No line of another field makes a difference, except that lines are counted. -/
theorem C126_lines (P₁ : Processed env related t ls₁ m m₁) (P₂ : Processed env related t ls₂ m m₂) (hu₁ : Unpadded ls₁) (hu₂ : Unpadded ls₂)
    (n : Str) (h : ls₁.filter (ofField n) = ls₂.filter (ofField n)) :
    ∃ L : List (Note × Note), saidOfLines n m m₁ = L.map (·.1) ∧ saidOfLines n m m₂ = L.map (·.2) ∧
      ∀ p ∈ L, unplaced p.1 = unplaced p.2 ∧ ∃ q ∈ (lineNumbers m.kind n ls₁).zip (lineNumbers m.kind n ls₂),
        p.1.subject = offsetSubject q.1 ∧ p.2.subject = offsetSubject q.2 := by
  have hown : ofField n = fun l => shownLike n (lineKey l.1) := rfl
  rw [hown] at h
  have hm : m.defaults = mtDefaults _ := P₁.linting.defaults
  obtain ⟨ctx₁, d₁, e₁⟩ := saidOfLines_eq P₁ hu₁ n
  obtain ⟨ctx₂, d₂, e₂⟩ := saidOfLines_eq P₂ hu₂ n
  have hnames : (namesOf ls₁).filter (shownLike n) = (namesOf ls₂).filter (shownLike n) := by rw [namesOf_filter, namesOf_filter, h]
  have hsnd : (ownLines m.kind n ls₁).map (·.2) = (ownLines m.kind n ls₂).map (·.2) := by rw [ownLines_snd, ownLines_snd, h]
  have hnone : HandlersOk (fun _ => none) := by intro k h e; simp at e
  have all : Pairs (fun a b => (a, b) ∈ (lineNumbers m.kind n ls₁).zip (lineNumbers m.kind n ls₂)) (saidOfLines n m m₁) (saidOfLines n m m₂) := by
    rw [e₁, e₂]
    refine .append ?_ ?_
    · refine spokenAll_pairs _ hm n _ _ _ _ hsnd ?_ hnone hnone (fun k => trivial) fun q hq => hq
      intro p hp
      refine hu₁ p.2 ?_
      rw [← numbered_snd m.kind ls₁ 0]
      exact List.mem_map_of_mem (List.mem_filter.1 hp).1
    · rw [hnames]
      refine pairs_flatMap fun k hk => ?_
      obtain ⟨k₁, hs⟩ := List.mem_filter.1 (hnames ▸ hk : k ∈ (namesOf ls₁).filter (shownLike n))
      have k₂ := (List.mem_filter.1 hk).1
      by_cases hb : (classOf k).info.kind = .broken
      · have f₁ := readHandler_fid (c := ⟨env, m, related⟩) k₁
        have hsp : spelling ls₁ k = spelling ls₂ k := by rw [← spelling_filter hs ls₁, h, spelling_filter hs ls₂]
        have hi : SameId (readHandler ⟨env, m, related⟩ ls₁ k) (readHandler ⟨env, m, related⟩ ls₂ k) := by
          unfold readHandler handlerFor
          rw [hsp]
          split
          · have a := fed_id ⟨env, m, related⟩ (spelling ls₂ k) (sent m.kind k ls₁)
            have b := fed_id ⟨env, m, related⟩ (spelling ls₂ k) (sent m.kind k ls₂)
            exact ⟨a.fid.trans b.fid.symm, a.wire.trans b.wire.symm, a.norm.trans b.norm.symm, a.canon.trans b.canon.symm, a.cat.trans b.cat.symm, a.ref.trans b.ref.symm⟩
          · exact .refl _
        have hv : (sent m.kind k ls₁).map (·.2) = (sent m.kind k ls₂).map (·.2) := by
          rw [sent_snd, sent_snd, ← valuesOf_filter hs ls₁, h, valuesOf_filter hs ls₂]
        have hz : ∀ q ∈ ((sent m.kind k ls₁).map (·.1)).zip ((sent m.kind k ls₂).map (·.1)), q ∈ (lineNumbers m.kind n ls₁).zip (lineNumbers m.kind n ls₂) := by
          rw [sent_own m.kind hs, sent_own m.kind hs]
          exact filter_zip (fun l : Line => lineKey l.1 == k) _ _ hsnd
        obtain ⟨a₁, r₁⟩ := readHandler_broken (c := ⟨env, m, related⟩) k₁ hb
        obtain ⟨a₂, r₂⟩ := readHandler_broken (c := ⟨env, m, related⟩) k₂ hb
        dsimp only at r₁ r₂
        unfold finishSaid finishIn
        have hadd : m.fieldAdder t (readHandler ⟨env, m, related⟩ ls₁ k) = m.fieldAdder t (readHandler ⟨env, m, related⟩ ls₂ k) := by
          unfold Msg.fieldAdder; rw [hi.canon]
        rw [hadd]
        refine finishBroken_pairs (d₁ k k₁) (d₂ k k₂) _ (isOffset_field _) n hi (by rw [f₁]; exact hb) ?_ a₁ a₂ ?_
        · rw [r₁, r₂]
          split
          · rw [List.map_map, List.map_map]; exact hv
          · rfl
        · rw [r₁, r₂]
          split
          · rw [List.map_map, List.map_map]; exact hz
          · intro q hq; exact nomatch hq
      · rw [finishSaid_unpicked hm hu₁ k₁ (d₁ k k₁) (.inl hb), finishSaid_unpicked hm hu₂ k₂ (d₂ k k₂) (.inl hb)]
        exact .nil
  obtain ⟨L, hl₁, hl₂, hL⟩ := all.list
  exact ⟨L, hl₁, hl₂, fun p hp => ⟨(hL p hp).1, by obtain ⟨a, b, q, s₁, s₂⟩ := (hL p hp).2; exact ⟨(a, b), q, s₁, s₂⟩⟩⟩

/-- **C126**, in short: the notes about the lines of a field are the same but for their subjects -/
theorem C126_same (P₁ : Processed env related t ls₁ m m₁) (P₂ : Processed env related t ls₂ m m₂) (hu₁ : Unpadded ls₁) (hu₂ : Unpadded ls₂)
    (n : Str) (h : ls₁.filter (ofField n) = ls₂.filter (ofField n)) : (saidOfLines n m m₁).map unplaced = (saidOfLines n m m₂).map unplaced := by
  obtain ⟨L, h₁, h₂, hL⟩ := C126_lines P₁ P₂ hu₁ hu₂ n h
  rw [h₁, h₂, List.map_map, List.map_map]
  exact List.map_congr_left fun p hp => (hL p hp).1

theorem spokenAll_ofLine (c : Ctx) {mt : Val} (hm : c.msg.defaults = mtDefaults mt) (ps : List (Nat × Line)) : ∀ H : Str → Option Handler, HandlersOk H →
    (∀ p ∈ ps, strip (decodeName p.2.1) = decodeName p.2.1) → ∀ x ∈ spokenAll c H ps, ∃ p ∈ ps, OfLine (lineKey p.2.1) p.1 x := by
  induction ps with
  | nil => intro H _ _ x hx; exact nomatch hx
  | cons p ps ih =>
    intro H hH hu x hx
    obtain ⟨i, a⟩ := finds_ok hH (hu p (List.mem_cons_self ..))
    obtain ⟨s1, s2, s3⟩ := spoken_ofLine c hm i a
    rcases List.mem_append.1 hx with hx | hx
    · exact ⟨p, List.mem_cons_self .., s3 x hx⟩
    · obtain ⟨q, hq, hh⟩ := ih _ (updated_ok hH (i.moved s1) s2) (fun q hq => hu q (List.mem_cons_of_mem _ hq)) x hx
      exact ⟨q, List.mem_cons_of_mem _ hq, hh⟩

theorem shownLike_self (k : Str) : shownLike k k = true := by unfold shownLike; exact beq_self_eq_true _

/-- **C126**: no note about a line is left out: each is among those about the lines of the field of one of the lines -/
theorem C126_complete {ls : List Line} {m m' : Msg} (P : Processed env related t ls m m') (hu : Unpadded ls) (x : Note)
    (hx : x ∈ m'.notes.drop m.notes.length) (ho : isOffset x.subject = true) : ∃ l ∈ ls, x ∈ saidOfLines (lineKey l.1) m m' := by
  have hr := P.linting.ready t
  have hm : m.defaults = mtDefaults _ := P.linting.defaults
  suffices h : ∃ l ∈ ls, namesField (lineKey l.1) x = true by
    obtain ⟨l, hl, hn⟩ := h
    refine ⟨l, hl, List.mem_filter.2 ⟨hx, ?_⟩⟩
    unfold picked
    rw [ho, hn]; rfl
  obtain ⟨lineNotes, sizeNotes, ctx, h1, _, h3, h4, h5, _, h7⟩ := section_outcome_full hr P.new P.ok
  have hok : processLines env related t ls 0 m = ((processLines env related t ls 0 m).1, .ok ()) := by
    have := P.ok
    unfold processSection at this
    split at this
    · simp at this
    · rename_i hh; rw [hh]
  have hsp := lines_spoken hr (.refl t m) (H := fun _ => none) (fun k => by rw [P.new]; rfl) hok
  have hln : lineNotes = spokenAll ⟨env, m, related⟩ (fun _ => none) (numbered m.kind 0 ls) := List.append_cancel_left (h1.symm.trans hsp)
  rw [h5, List.drop_left] at hx
  rcases List.mem_append.1 hx with hx | hx
  · rcases List.mem_append.1 hx with hx | hx
    · rw [hln] at hx
      have mem : ∀ p ∈ numbered m.kind 0 ls, p.2 ∈ ls := by
        intro p hp
        have := List.mem_map_of_mem (f := (·.2)) hp
        rwa [numbered_snd] at this
      obtain ⟨p, hp, _, hh, _⟩ := spokenAll_ofLine _ hm _ _ (by intro k h e; simp at e) (fun p hp => hu p.2 (mem p hp)) x hx
      exact ⟨p.2, mem p hp, by rw [hh _ ho, shownLike_self]⟩
    · rw [h3] at hx
      unfold sectionSizeNotes at hx
      dsimp only at hx
      split at hx
      · rw [List.mem_singleton] at hx
        subst hx
        exact nomatch ho
      · exact nomatch hx
  · obtain ⟨k, hk, hx⟩ := List.mem_flatMap.1 hx
    obtain ⟨l, hl, e⟩ := mem_namesOf.1 hk
    refine ⟨l, hl, ?_⟩
    rw [e]
    by_cases hpk : picked k x = true
    · unfold picked at hpk; rw [Bool.and_eq_true] at hpk; exact hpk.2
    · exfalso
      have hio := readHandler_of (c := ⟨env, m, related⟩) hu hk
      have hbr := fun hb => (readHandler_broken (c := ⟨env, m, related⟩) hk hb).1
      have hfid := readHandler_fid (c := ⟨env, m, related⟩) hk
      have hkept := readHandler_kept (env := env) (related := related) (ls := ls) (k := k) hm
      unfold finishIn at hx
      have hcm : (ctx k).msg.defaults = mtDefaults _ := (ext_defaults (h4 k hk).1.ext).trans hm
      generalize readHandler ⟨env, m, related⟩ ls k = hd1 at *
      have hsorted : Sorted hd1 := by obtain ⟨s, _, _, e⟩ := hio; unfold Sorted; rw [e.fid, e.cat]; exact (mkHandler_shown _).2.2
      have hfin := finish_about (ctx k) hcm hd1 (fieldAdder_fits hm t hd1) hsorted hkept (fun h => hbr (hfid ▸ h)) x hx
      unfold FinishAbout at hfin
      have name : namesField k x = true := by
        rcases hfin with hfin | ⟨hb, q, _, hfin⟩
        · rw [about_names hio hfin ho, shownLike_self]
        · rw [about_names hio hfin ho, shownLike_self]
      apply hpk
      unfold picked
      rw [ho, name]; rfl

end

/-! ### examples -/

def linesOne : List Line := [(str "ETag", str "x"), (str "Set-Cookie", str "a=b; Path"), (str "Vary", str "a b"), (str "x y", str "1"), (str "set-cookie", str "c=d; Max-Age=z; Foo=1")]
def linesTwo : List Line := [(str "Set-Cookie", str "a=b; Path"), (str "set-cookie", str "c=d; Max-Age=z; Foo=1"), (str "Age", str "x"), (str "Vary", str "a b")]

/-- what is said about the lines of a field when a response has these headers -/
def saidWhen (n : Str) (ls : List Line) : List (NoteId × Str) :=
  let m := fresh toyEnv .response none false false
  (saidOfLines n m (processSection toyEnv none false ls m).1).map fun x => (x.cls, x.subject)

/-- two sections with the same lines of `Set-Cookie` and of `Vary`, among other lines and under other numbers, meet the hypotheses -/
example : Processed toyEnv none false linesOne (fresh toyEnv .response none false false) (processSection toyEnv none false linesOne (fresh toyEnv .response none false false)).1 ∧
    Processed toyEnv none false linesTwo (fresh toyEnv .response none false false) (processSection toyEnv none false linesTwo (fresh toyEnv .response none false false)).1 ∧
    Unpadded linesOne ∧ Unpadded linesTwo ∧ linesOne.filter (ofField (str "set-cookie")) = linesTwo.filter (ofField (str "set-cookie")) ∧
    linesOne.filter (ofField (str "vary")) = linesTwo.filter (ofField (str "vary")) :=
  ⟨fresh_processed (by kernel_rfl), fresh_processed (by kernel_rfl), by unfold Unpadded; decide +kernel, by unfold Unpadded; decide +kernel, by decide +kernel, by decide +kernel⟩

/-- the line that is no field (`x y`) is not counted -/
example : lineNumbers .response (str "set-cookie") linesOne = [1, 3] ∧ lineNumbers .response (str "set-cookie") linesTwo = [0, 1] := by decide +kernel
example : saidWhen (str "set-cookie") linesOne = [(.SET_COOKIE_NON_DIGIT_MAX_AGE, str "offset-3"), (.SET_COOKIE_UNKNOWN_ATTRIBUTE, str "offset-3")] := by kernel_rfl
example : saidWhen (str "set-cookie") linesTwo = [(.SET_COOKIE_NON_DIGIT_MAX_AGE, str "offset-1"), (.SET_COOKIE_UNKNOWN_ATTRIBUTE, str "offset-1")] := by kernel_rfl
example : saidWhen (str "vary") linesOne = [(.BAD_SYNTAX_DETAILED, str "offset-2")] := by kernel_rfl
example : saidWhen (str "vary") linesTwo = [(.BAD_SYNTAX_DETAILED, str "offset-3")] := by kernel_rfl

end HL.Props
