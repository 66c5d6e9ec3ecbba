import Verif.Props.DateThm
import Verif.Props.HstsThm
import Verif.Props.Notes

/-!
# What the examination of a field's value reports, in full

For a set `Xs` of note classes that only the `evaluate` methods of the field classes `fs` use, the notes of these classes a
section adds are described exactly: which, in which order, about which field, with which variables and sub-notes.
-/

namespace HL.Props
open HL.F

/-- what a note says: its class, variables given to it, sub-notes with variables given to them -/
structure Report where
  cls : NoteId
  vars : Dict Val := []
  kids : List (NoteId × Dict Val) := []

/-- `x` is a note about `s` (a field, or a line) that says `r` -/
structure Reports (x : Note) (s : Str) (r : Report) : Prop where
  cls : x.cls = r.cls
  subject : x.subject = s
  vars : ∀ p ∈ r.vars, dget x.vars p.1 = some p.2
  kids : Each (fun (k : SubNote) q => k.cls = q.1 ∧ k.subject = s ∧ ∀ p ∈ q.2, dget k.vars p.1 = some p.2) x.subnotes r.kids

/-- the notes of classes `Xs` added to `m` on the way to `m'` are exactly these, about these things, in this order -/
def Reported (Xs : List NoteId) (m m' : Msg) (l : List (Str × Report)) : Prop :=
  ∃ added, m'.notes = m.notes ++ added ∧ Each (fun (x : Note) p => Reports x p.1 p.2) (added.filter fun x => Xs.contains x.cls) l

/-- the note that says `r`, added by `add` -/
def Report.note (add : AddNote) (r : Report) : Note := r.kids.foldl (fun n k => n.addChild k.1 k.2) (add.mk1 r.cls r.vars)

/-- no variable is given twice -/
def Report.Clean (r : Report) : Prop := (r.vars.map (·.1)).Nodup ∧ ∀ k ∈ r.kids, (k.2.map (·.1)).Nodup

theorem dget_given {vrs d : Dict Val} (h : (vrs.map (·.1)).Nodup) : ∀ p ∈ vrs, dget (dupdate d vrs) p.1 = some p.2 :=
  fun p hp => (dupdate_get d vrs h p.1).1 p.2 hp

theorem Report.note_reports {add : AddNote} {r : Report} {s : Str} (h : r.Clean) (hs : add.subject = s) (hb : UniqueKeys add.base) :
    Reports (r.note add) s r := by
  unfold Report.note
  rw [foldl_addChild]
  refine ⟨rfl, hs, ?_, ?_⟩
  · show ∀ p ∈ r.vars, dget (dupdate add.defaults (dupdate add.base r.vars)) p.1 = some p.2
    intro p hp
    rw [dget_dupdate, dget_reverse (hb.dupdate _), dget_given h.1 p hp]
    rfl
  · show Each _ ([] ++ _) _
    rw [List.nil_append]
    have : ∀ l : List (NoteId × Dict Val), (∀ k ∈ l, (k.2.map (·.1)).Nodup) →
        Each (fun (k : SubNote) q => k.cls = q.1 ∧ k.subject = s ∧ ∀ p ∈ q.2, dget k.vars p.1 = some p.2)
          (l.map fun k => ⟨k.1, (add.mk1 r.cls r.vars).subject, dupdate (add.mk1 r.cls r.vars).vars k.2⟩) l := by
      intro l
      induction l with
      | nil => intro _; exact .nil
      | cons k l ih => intro hl; exact .cons ⟨rfl, hs, dget_given (hl k (by simp))⟩ (ih fun q hq => hl q (by simp [hq]))
    exact this _ h.2

/-- classes of note only the field classes `fs` use -/
structure Only (Xs : List NoteId) (fs : List FieldId) : Prop where
  origin : ∀ X ∈ Xs, X.origin = .field
  parse : ∀ g, g ∉ fs → ∀ X ∈ Xs, (parseOwn g).contains X = false
  evaluate : ∀ g, g ∉ fs → ∀ X ∈ Xs, (evalOwn g).contains X = false
  known : FieldId.unknownField ∉ fs

/-- closes the above -/
macro "only_these" : tactic => `(tactic| exact ⟨by decide, fun g => by cases g <;> decide, fun g => by cases g <;> decide, by decide⟩)

/-- classes of note only the `evaluate` methods of the field classes `fs` use -/
structure EvalAmong (Xs : List NoteId) (fs : List FieldId) : Prop where
  origin : ∀ X ∈ Xs, X.origin = .field
  parse : ∀ g, ∀ X ∈ Xs, (parseOwn g).contains X = false
  evaluate : ∀ g, g ∉ fs → ∀ X ∈ Xs, (evalOwn g).contains X = false
  known : FieldId.unknownField ∉ fs

/-- closes the above -/
macro "eval_among" : tactic => `(tactic| exact ⟨by decide, fun g => by cases g <;> decide, fun g => by cases g <;> decide, by decide⟩)

/-- the notes of these classes -/
def amongClass (Xs : List NoteId) (ns : List Note) : List Note := ns.filter fun x => Xs.contains x.cls

theorem amongClass_append (Xs : List NoteId) (a b : List Note) : amongClass Xs (a ++ b) = amongClass Xs a ++ amongClass Xs b := List.filter_append ..

theorem amongClass_nil {Xs : List NoteId} {ns : List Note} (h : ∀ X ∈ Xs, ofClass X ns = []) : amongClass Xs ns = [] := by
  unfold amongClass
  rw [List.filter_eq_nil_iff]
  intro x hx hc
  have hX : x.cls ∈ Xs := by simpa using hc
  have : x ∈ ofClass x.cls ns := List.mem_filter.2 ⟨hx, by simp⟩
  rw [h _ hX] at this
  exact absurd this (by simp)

section
variable {env : Env} {related : Option Msg} {t : Bool} {ls : List Line} {m m' : Msg}

theorem among_isField {Xs : List NoteId} (ho : ∀ X ∈ Xs, X.origin = .field) (ns : List Note) : amongClass Xs ns = amongClass Xs (ns.filter isField) := by
  unfold amongClass
  rw [List.filter_filter]
  apply List.filter_congr
  intro n _
  by_cases h : n.cls ∈ Xs
  · have h2 : isField n = true := by unfold isField; rw [ho _ h]; rfl
    rw [h2, Bool.and_true]
  · have : Xs.contains n.cls = false := by simpa using h
    rw [this]; rfl

theorem append_both {α} {a b c d : List α} (h : a = b) (h' : c = d) : a ++ c = b ++ d := by rw [h, h']

/-- the notes of a piece, from what parsing it reports -/
theorem parsed_reports {c : Ctx} {Xs : List NoteId} {ns : List Note} {ps : List Snippet} (spec : Snippet → List Report)
    (hc : ∀ p ∈ ps, ∀ r ∈ spec p, r.Clean)
    (hs : ∀ p ∈ ps, ∀ (add : AddNote) (hd : Handler), hd.fid = p.cls → amongClass Xs (hd.parse c add p.text).2.notes = (spec p).map (Report.note add))
    (h : ParsedNotes c ns ps) :
    Each (fun (x : Note) p => Reports x p.1 p.2) (amongClass Xs ns) (ps.flatMap fun p => (spec p).map (p.subject, ·)) := by
  obtain ⟨ch, rfl, h⟩ := h
  induction h with
  | nil => exact .nil
  | @cons a b as bs h _ ih =>
    obtain ⟨add, hd, h1, h2, h3, h4⟩ := h
    rw [List.flatten_cons, amongClass_append, List.flatMap_cons, h4, hs b (by simp) add hd h3]
    refine Each.append (Each.map fun r hr => ?_) (ih (fun p hp => hc p (by simp [hp])) fun p hp => hs p (by simp [hp]))
    exact Report.note_reports (hc b (by simp) r hr) h1 h2

/-- the elements of a list before the first `n` -/
def before (n : Str) (l : List Str) : List Str := l.takeWhile (· != n)

theorem before_split {n : Str} {l : List Str} (_ : l.Nodup) (hn : n ∈ l) : ∃ b, l = before n l ++ n :: b := by
  induction l with
  | nil => exact absurd hn (by simp)
  | cons x l ih =>
    unfold before
    by_cases hx : x = n
    · subst hx
      exact ⟨l, by rw [List.takeWhile_cons_of_neg (by simp)]; rfl⟩
    · obtain ⟨b, e⟩ := ih (List.nodup_cons.1 ‹_›).2 (by rcases List.mem_cons.1 hn with h | h; exact absurd h.symm hx; exact h)
      refine ⟨b, ?_⟩
      rw [List.takeWhile_cons_of_pos (by simpa using hx), List.cons_append]
      exact congrArg _ e

/-- the names whose field is examined: the class is one of these, allowed in this kind of message, and the value could be read -/
def examined (env : Env) (related : Option Msg) (m : Msg) (fs : List FieldId) (ls : List Line) : List Str :=
  (namesAmong fs ls).filter fun n => (classOf n).validIn m.kind && valueOf env related m (classOf n) ls n != .none

theorem mem_examined {fs n} : n ∈ examined env related m fs ls ↔
    n ∈ namesOf ls ∧ classOf n ∈ fs ∧ (classOf n).validIn m.kind = true ∧ valueOf env related m (classOf n) ls n ≠ .none := by
  unfold examined
  rw [List.mem_filter, mem_namesAmong, Bool.and_eq_true, bne_iff_ne, and_assoc]

/-- what is parsed of a section, line by line -/
def sectionPieces (kind : MsgKind) (ls : List Line) : List Snippet := (numbered kind 0 ls).flatMap (linePieces kind)

/-- **what a section reports**, from what parsing each piece of text and what the examination of each value reports.  (As the section was processed without an
exception, every `evaluate` succeeded.) -/
theorem Processed.reports_full_ok (P : Processed env related t ls m m') {Xs : List NoteId} (ho : ∀ X ∈ Xs, X.origin = .field)
    (specP : Snippet → List Report) (specE : Str → List Report)
    (hcP : ∀ p, ∀ r ∈ specP p, r.Clean) (hcE : ∀ n ∈ namesOf ls, ∀ r ∈ specE n, r.Clean)
    (hP : ∀ (p : Snippet) (add : AddNote) (hd : Handler), hd.fid = p.cls →
      amongClass Xs (hd.parse ⟨env, m, related⟩ add p.text).2.notes = (specP p).map (Report.note add))
    (hE : ∀ (c : Ctx) (add : AddNote) (hd : Handler), ∀ n ∈ namesOf ls, okName m.kind n = true → valueOf env related m (classOf n) ls n ≠ .none →
      During env related t m c → Seen env related t ls m (before n (namesOf ls)) c →
      (add, hd) = evalSetup m t c related ls n → hd.fid = classOf n → hd.value = valueOf env related m (classOf n) ls n →
      (hd.evaluate c add).2.res = .ok () →
      amongClass Xs (hd.evaluate c add).2.notes = (specE n).map (Report.note add)) :
    Reported Xs m m' (((sectionPieces m.kind ls).flatMap fun p => (specP p).map (p.subject, ·)) ++
      (namesOf ls).flatMap fun n => if okName m.kind n then
        ((finishPieces (classOf n) (fieldSubject n) (sent m.kind n ls)).flatMap fun p => (specP p).map (p.subject, ·)) ++
        (if valueOf env related m (classOf n) ls n = .none then [] else (specE n).map (fieldSubject n, ·)) else []) := by
  obtain ⟨added, lines, fin, ctx, e, hd, ha, hl, hf, hseen⟩ := section_pieces P.linting P.new P.ok
  refine ⟨added, e, ?_⟩
  show Each _ (amongClass Xs added) _
  rw [among_isField ho, ha, amongClass_append]
  refine (parsed_reports specP (fun p _ => hcP p) (fun p _ => hP p) hl).append ?_
  have h2 : amongClass Xs ((namesOf ls).flatMap fin) = (namesOf ls).flatMap fun n => amongClass Xs (fin n) := List.filter_flatMap ..
  rw [h2]
  apply Each.flatMap
  intro n hn
  have hfn := hf n hn
  by_cases hok : okName m.kind n = true
  · rw [if_pos hok] at hfn ⊢
    obtain ⟨pre, e1, e2, e3⟩ := hfn
    rw [e1, amongClass_append]
    refine (parsed_reports specP (fun p _ => hcP p) (fun p _ => hP p) e2).append ?_
    have hval := evalSetup_value P.linting P.ok hn hok (hd n hn).1
    change _ = valueOf env related m (classOf n) ls n at hval
    have hsub := evalSetup_subject (t := t) (m := m) (related := related) (c := ctx n) hn
    have hfid : (evalSetup m t (ctx n) related ls n).2.fid = classOf n := evalSetup_fid hn
    unfold evalNotes
    rw [hval]
    by_cases h0 : valueOf env related m (classOf n) ls n = .none
    · rw [if_pos h0, if_pos h0]; exact .nil
    · rw [if_neg h0, if_neg h0]
      rw [hE (ctx n) (evalSetup m t (ctx n) related ls n).1 (evalSetup m t (ctx n) related ls n).2 n hn hok h0 (hd n hn).1
        (hseen _ n _ (before_split (dedup_nodup _) hn).choose_spec) rfl hfid hval (e3 (by rw [hval]; exact h0))]
      exact Each.map fun r hr => Report.note_reports (hcE n hn r hr) hsub (show ([str "field_name", str "field_type"] : List Str).Nodup by decide)
  · rw [if_neg hok] at hfn ⊢
    rw [hfn]; exact .nil

/-- **what a section reports**, from what parsing each piece of text and what the examination of each value reports -/
theorem Processed.reports_full (P : Processed env related t ls m m') {Xs : List NoteId} (ho : ∀ X ∈ Xs, X.origin = .field)
    (specP : Snippet → List Report) (specE : Str → List Report)
    (hcP : ∀ p, ∀ r ∈ specP p, r.Clean) (hcE : ∀ n ∈ namesOf ls, ∀ r ∈ specE n, r.Clean)
    (hP : ∀ (p : Snippet) (add : AddNote) (hd : Handler), hd.fid = p.cls →
      amongClass Xs (hd.parse ⟨env, m, related⟩ add p.text).2.notes = (specP p).map (Report.note add))
    (hE : ∀ (c : Ctx) (add : AddNote) (hd : Handler), ∀ n ∈ namesOf ls, okName m.kind n = true → valueOf env related m (classOf n) ls n ≠ .none →
      During env related t m c → Seen env related t ls m (before n (namesOf ls)) c →
      (add, hd) = evalSetup m t c related ls n → hd.fid = classOf n → hd.value = valueOf env related m (classOf n) ls n →
      amongClass Xs (hd.evaluate c add).2.notes = (specE n).map (Report.note add)) :
    Reported Xs m m' (((sectionPieces m.kind ls).flatMap fun p => (specP p).map (p.subject, ·)) ++
      (namesOf ls).flatMap fun n => if okName m.kind n then
        ((finishPieces (classOf n) (fieldSubject n) (sent m.kind n ls)).flatMap fun p => (specP p).map (p.subject, ·)) ++
        (if valueOf env related m (classOf n) ls n = .none then [] else (specE n).map (fieldSubject n, ·)) else []) :=
  P.reports_full_ok ho specP specE hcP hcE hP fun c add hd n hn h1 h2 h3 h4 h5 h6 h7 _ => hE c add hd n hn h1 h2 h3 h4 h5 h6 h7

theorem parse_among {c : Ctx} {Xs : List NoteId} {add : AddNote} {hd : Handler} {v : Str} (h : ∀ X ∈ Xs, (parseOwn hd.fid).contains X = false) :
    amongClass Xs (hd.parse c add v).2.notes = [] := by
  unfold amongClass
  rw [List.filter_eq_nil_iff]
  intro x hx hc
  have h1 := (Handler.parse_own (add := add) c hd v x hx).cls
  rw [h x.cls (by simpa using hc)] at h1
  exact Bool.noConfusion h1

theorem evaluate_among {c : Ctx} {Xs : List NoteId} {add : AddNote} {hd : Handler} (ha : AuxOwn hd.fid hd.aux) (h : ∀ X ∈ Xs, (evalOwn hd.fid).contains X = false) :
    amongClass Xs (hd.evaluate c add).2.notes = [] := by
  unfold amongClass
  rw [List.filter_eq_nil_iff]
  intro x hx hc
  have h1 := (Handler.evaluate_own (add := add) c hd ha x hx).cls
  rw [h x.cls (by simpa using hc)] at h1
  exact Bool.noConfusion h1

theorem setup_aux {c : Ctx} {add : AddNote} {hd : Handler} {n : Str} (hn : n ∈ namesOf ls) (e : (add, hd) = evalSetup m t c related ls n) : AuxOwn hd.fid hd.aux := by
  have : hd = (evalSetup m t c related ls n).2 := congrArg Prod.snd e
  rw [this, evalSetup_fid hn]
  exact evalSetup_aux hn

/-- **what the examination of values reports** -/
theorem Processed.reports_ok (P : Processed env related t ls m m') {Xs fs} (hX : EvalAmong Xs fs) (spec : Str → List Report)
    (hc : ∀ n ∈ examined env related m fs ls, ∀ r ∈ spec n, r.Clean)
    (hs : ∀ (c : Ctx) (add : AddNote) (hd : Handler), ∀ n ∈ examined env related m fs ls, During env related t m c → Seen env related t ls m (before n (namesOf ls)) c →
      (add, hd) = evalSetup m t c related ls n → hd.fid = classOf n → hd.value = valueOf env related m (classOf n) ls n →
      (hd.evaluate c add).2.res = .ok () →
      amongClass Xs (hd.evaluate c add).2.notes = (spec n).map (Report.note add)) :
    Reported Xs m m' ((examined env related m fs ls).flatMap fun n => (spec n).map (fieldSubject n, ·)) := by
  have := P.reports_full_ok hX.origin (fun _ => []) (fun n => if n ∈ examined env related m fs ls then spec n else []) (fun _ _ hr => absurd hr (by simp))
    (fun n _ r hr => by
      split at hr
      · exact hc n ‹_› r hr
      · exact absurd hr (by simp))
    (fun p add hd _ => parse_among (hX.parse _))
    (by
      intro c add hd n hn hok hne h1 h2 h3 h4 h5 h6
      split
      · exact hs c add hd n ‹_› h1 h2 h3 h4 h5 h6
      · rename_i hex
        refine evaluate_among (setup_aux hn h3) (hX.evaluate _ fun hm => hex (mem_examined.2 ⟨hn, h4 ▸ hm, ?_, hne⟩))
        unfold okName at hok
        exact (Bool.and_eq_true _ _ ▸ hok).1)
  refine (congrArg (Reported Xs m m') ?_).mp this
  have h0 : ∀ l : List Snippet, (l.flatMap fun p => ([] : List Report).map (p.subject, ·)) = [] := by intro l; simp
  rw [h0, List.nil_append]
  have hsplit : examined env related m fs ls = (namesOf ls).filter fun a => (classOf a).validIn m.kind && valueOf env related m (classOf a) ls a != Val.none && fs.contains (classOf a) := by
    unfold examined namesAmong
    rw [List.filter_filter]
  rw [show ∀ g : Str → List (Str × Report), (examined env related m fs ls).flatMap g = ((namesOf ls).filter fun a => (classOf a).validIn m.kind && valueOf env related m (classOf a) ls a != Val.none && fs.contains (classOf a)).flatMap g from fun g => by rw [hsplit], flatMap_filter_if]
  clear hsplit
  apply flatMap_congr_mem
  intro n hn
  rw [h0, List.nil_append]
  by_cases hex : n ∈ examined env related m fs ls
  · obtain ⟨_, h2, h3, h4⟩ := mem_examined.1 hex
    have hne : classOf n ≠ .unknownField := fun e => hX.known (e ▸ h2)
    rw [if_pos (by rw [okName_class rfl hne]; exact h3), if_neg h4, if_pos hex]
    have hc' : fs.contains (classOf n) = true := by simpa using h2
    have hv' : (valueOf env related m (classOf n) ls n != Val.none) = true := by simpa using h4
    rw [h3, hv', hc']
    rfl
  · rw [if_neg hex]
    have hz : ((classOf n).validIn m.kind && valueOf env related m (classOf n) ls n != Val.none && fs.contains (classOf n)) = false := by
      rw [Bool.eq_false_iff]
      intro hall
      simp only [Bool.and_eq_true, bne_iff_ne, List.contains_iff_mem] at hall
      exact hex (mem_examined.2 ⟨hn, hall.2, hall.1.1, hall.1.2⟩)
    rw [hz]
    simp

/-- **what the examination of values reports** -/
theorem Processed.reports (P : Processed env related t ls m m') {Xs fs} (hX : EvalAmong Xs fs) (spec : Str → List Report)
    (hc : ∀ n ∈ examined env related m fs ls, ∀ r ∈ spec n, r.Clean)
    (hs : ∀ (c : Ctx) (add : AddNote) (hd : Handler), ∀ n ∈ examined env related m fs ls, During env related t m c → Seen env related t ls m (before n (namesOf ls)) c →
      (add, hd) = evalSetup m t c related ls n → hd.fid = classOf n → hd.value = valueOf env related m (classOf n) ls n →
      amongClass Xs (hd.evaluate c add).2.notes = (spec n).map (Report.note add)) :
    Reported Xs m m' ((examined env related m fs ls).flatMap fun n => (spec n).map (fieldSubject n, ·)) :=
  P.reports_ok hX spec hc fun c add hd n hn h1 h2 h3 h4 h5 _ => hs c add hd n hn h1 h2 h3 h4 h5

/-- the same, when all the notes of the examination are known -/
theorem Processed.reports_all (P : Processed env related t ls m m') {Xs fs} (hX : EvalAmong Xs fs) (spec : Str → List Report)
    (hc : ∀ n ∈ examined env related m fs ls, ∀ r ∈ spec n, r.Clean)
    (hs : ∀ (c : Ctx) (add : AddNote) (hd : Handler), ∀ n ∈ examined env related m fs ls, During env related t m c → Seen env related t ls m (before n (namesOf ls)) c →
      (add, hd) = evalSetup m t c related ls n → hd.fid = classOf n → hd.value = valueOf env related m (classOf n) ls n →
      (hd.evaluate c add).2.notes = (spec n).map (Report.note add)) :
    Reported Xs m m' ((examined env related m fs ls).flatMap fun n => ((spec n).filter fun r => Xs.contains r.cls).map (fieldSubject n, ·)) := by
  refine P.reports hX (fun n => (spec n).filter fun r => Xs.contains r.cls) (fun n hn r hr => hc n hn r (List.mem_filter.1 hr).1) ?_
  intro c add hd n hn h1 h2 h3 h4 h5
  rw [hs c add hd n hn h1 h2 h3 h4 h5]
  unfold amongClass
  rw [List.filter_map]
  congr 1
  apply List.filter_congr
  intro r _
  show Xs.contains (Report.note add r).cls = _
  rw [Report.note, foldl_addChild]
  rfl

/-- reports of classes only one field class uses, from those of its pieces and its values -/
theorem Processed.class_reports_ok (P : Processed env related t ls m m') {Xs : List NoteId} {f : FieldId} (hX : Only Xs [f]) (hv : f.validIn m.kind = true)
    (specP : Str → List Report) (specE : Str → List Report)
    (hcP : ∀ v, ∀ r ∈ specP v, r.Clean) (hcE : ∀ n ∈ namesFor f ls, ∀ r ∈ specE n, r.Clean)
    (hP : ∀ (add : AddNote) (hd : Handler) v, hd.fid = f → amongClass Xs (hd.parse ⟨env, m, related⟩ add v).2.notes = (specP v).map (Report.note add))
    (hE : ∀ (c : Ctx) (add : AddNote) (hd : Handler), ∀ n ∈ namesFor f ls, valueOf env related m f ls n ≠ .none →
      During env related t m c → Seen env related t ls m (before n (namesOf ls)) c →
      (add, hd) = evalSetup m t c related ls n → hd.fid = f → hd.value = valueOf env related m f ls n →
      (hd.evaluate c add).2.res = .ok () →
      amongClass Xs (hd.evaluate c add).2.notes = (specE n).map (Report.note add)) :
    Reported Xs m m' (((linesFor m.kind f ls).flatMap fun p => (elementPieces f p.1 p.2.2).flatMap fun q => (specP q.text).map (q.subject, ·)) ++
      (namesFor f ls).flatMap fun n =>
        ((finishPieces f (fieldSubject n) (sent m.kind n ls)).flatMap fun q => (specP q.text).map (q.subject, ·)) ++
        (if valueOf env related m f ls n = .none then [] else (specE n).map (fieldSubject n, ·))) := by
  have hknown : f ≠ .unknownField := fun e => hX.known (by simp [e])
  have := P.reports_full_ok hX.origin (fun p => if p.cls = f then specP p.text else []) (fun n => if n ∈ namesFor f ls then specE n else [])
    (fun p r hr => by
      split at hr
      · exact hcP _ r hr
      · exact absurd hr (by simp))
    (fun n _ r hr => by
      split at hr
      · exact hcE n ‹_› r hr
      · exact absurd hr (by simp))
    (fun p add hd hf => by
      split
      · exact hP add hd p.text (hf.trans ‹_›)
      · exact parse_among (hX.parse _ (by rw [hf]; simpa using ‹¬ p.cls = f›)))
    (by
      intro c add hd n hn hok hne h1 h2 h3 h4 h5 h6
      by_cases hc : classOf n = f
      · have hm : n ∈ namesFor f ls := mem_namesFor.2 ⟨hn, hc⟩
        rw [if_pos hm]
        rw [hc] at h4 h5 hne
        exact hE c add hd n hm hne h1 h2 h3 h4 h5 h6
      · rw [if_neg (fun hm => hc (mem_namesFor.1 hm).2)]
        exact evaluate_among (setup_aux hn h3) (hX.evaluate _ (by rw [h4]; simpa using hc)))
  refine (congrArg (Reported Xs m m') ?_).mp this
  apply append_both
  · unfold sectionPieces linesFor
    rw [List.flatMap_assoc, flatMap_filter_if]
    apply flatMap_congr_mem
    intro p _
    unfold linePieces
    by_cases hc : classOf (decodeName p.2.1) = f
    · have ha : accepted m.kind p.2 = f.validIn m.kind := okName_class hc hknown
      rw [ha, hv, if_pos rfl, decide_eq_true hc, if_pos rfl, hc]
      apply flatMap_congr_mem
      intro q hq
      have : q.cls = f := by
        unfold elementPieces at hq
        split at hq
        · obtain ⟨x, _, rfl⟩ := List.mem_map.1 hq; rfl
        · exact absurd hq (by simp)
      rw [if_pos this]
    · rw [decide_eq_false hc]
      show _ = []
      rw [List.flatMap_eq_nil_iff]
      intro q hq
      split at hq
      · have : q.cls ≠ f := by
          unfold elementPieces at hq
          split at hq
          · obtain ⟨x, _, rfl⟩ := List.mem_map.1 hq; exact hc
          · exact absurd hq (by simp)
        rw [if_neg this]; rfl
      · exact absurd hq (by simp)
  · unfold namesFor
    rw [flatMap_filter_if]
    apply flatMap_congr_mem
    intro n hn
    by_cases hc : classOf n = f
    · have hz : n ∈ (namesOf ls).filter fun n => decide (classOf n = f) := List.mem_filter.2 ⟨hn, by simpa using hc⟩
      rw [if_pos (by rw [okName_class hc hknown]; exact hv), if_pos (c := decide (classOf n = f) = true) (by simpa using hc), if_pos hz, hc]
      apply append_both _ rfl
      apply flatMap_congr_mem
      intro q hq
      have : q.cls = f := by
        unfold finishPieces at hq
        split at hq
        · split at hq
          · rw [List.mem_singleton] at hq; rw [hq]
          · exact absurd hq (by simp)
        · obtain ⟨x, _, rfl⟩ := List.mem_map.1 hq; rfl
        · exact absurd hq (by simp)
      rw [if_pos this]
    · have hz : n ∉ (namesOf ls).filter fun n => decide (classOf n = f) := fun hm => hc (by simpa using (List.mem_filter.1 hm).2)
      rw [if_neg (show ¬ decide (classOf n = f) = true by simpa using hc)]
      rw [if_neg hz]
      split
      · have : ((finishPieces (classOf n) (fieldSubject n) (sent m.kind n ls)).flatMap fun p => (if p.cls = f then specP p.text else []).map (p.subject, ·)) = [] := by
          rw [List.flatMap_eq_nil_iff]
          intro q hq
          have : q.cls ≠ f := by
            unfold finishPieces at hq
            split at hq
            · split at hq
              · rw [List.mem_singleton] at hq; rw [hq]; exact hc
              · exact absurd hq (by simp)
            · obtain ⟨x, _, rfl⟩ := List.mem_map.1 hq; exact hc
            · exact absurd hq (by simp)
          rw [if_neg this]; rfl
        rw [this]
        simp
      · rfl

/-- reports of classes only one field class uses, from those of its pieces and its values -/
theorem Processed.class_reports (P : Processed env related t ls m m') {Xs : List NoteId} {f : FieldId} (hX : Only Xs [f]) (hv : f.validIn m.kind = true)
    (specP : Str → List Report) (specE : Str → List Report)
    (hcP : ∀ v, ∀ r ∈ specP v, r.Clean) (hcE : ∀ n ∈ namesFor f ls, ∀ r ∈ specE n, r.Clean)
    (hP : ∀ (add : AddNote) (hd : Handler) v, hd.fid = f → amongClass Xs (hd.parse ⟨env, m, related⟩ add v).2.notes = (specP v).map (Report.note add))
    (hE : ∀ (c : Ctx) (add : AddNote) (hd : Handler), ∀ n ∈ namesFor f ls, valueOf env related m f ls n ≠ .none →
      During env related t m c → Seen env related t ls m (before n (namesOf ls)) c →
      (add, hd) = evalSetup m t c related ls n → hd.fid = f → hd.value = valueOf env related m f ls n →
      amongClass Xs (hd.evaluate c add).2.notes = (specE n).map (Report.note add)) :
    Reported Xs m m' (((linesFor m.kind f ls).flatMap fun p => (elementPieces f p.1 p.2.2).flatMap fun q => (specP q.text).map (q.subject, ·)) ++
      (namesFor f ls).flatMap fun n =>
        ((finishPieces f (fieldSubject n) (sent m.kind n ls)).flatMap fun q => (specP q.text).map (q.subject, ·)) ++
        (if valueOf env related m f ls n = .none then [] else (specE n).map (fieldSubject n, ·))) :=
  P.class_reports_ok hX hv specP specE hcP hcE hP fun c add hd n hn h0 h1 h2 h3 h4 h5 _ => hE c add hd n hn h0 h1 h2 h3 h4 h5

/-- for a list: reports on its elements, line by line, then on its value -/
theorem Processed.list_reports_ok (P : Processed env related t ls m m') {Xs : List NoteId} {f : FieldId} (hX : Only Xs [f]) (hk : f.info.kind = .list) (hv : f.validIn m.kind = true)
    (specP : Str → List Report) (specE : Str → List Report)
    (hcP : ∀ v, ∀ r ∈ specP v, r.Clean) (hcE : ∀ n ∈ namesFor f ls, ∀ r ∈ specE n, r.Clean)
    (hP : ∀ (add : AddNote) (hd : Handler) v, hd.fid = f → amongClass Xs (hd.parse ⟨env, m, related⟩ add v).2.notes = (specP v).map (Report.note add))
    (hE : ∀ (c : Ctx) (add : AddNote) (hd : Handler), ∀ n ∈ namesFor f ls,
      During env related t m c → Seen env related t ls m (before n (namesOf ls)) c →
      (add, hd) = evalSetup m t c related ls n → hd.fid = f → hd.value = valueOf env related m f ls n →
      (hd.evaluate c add).2.res = .ok () →
      amongClass Xs (hd.evaluate c add).2.notes = (specE n).map (Report.note add)) :
    Reported Xs m m' (((linesFor m.kind f ls).flatMap fun p => (lineElements p.2.2).flatMap fun e => (specP e).map (offsetSubject p.1, ·)) ++
      (namesFor f ls).flatMap fun n => (specE n).map (fieldSubject n, ·)) := by
  have := P.class_reports_ok hX hv specP specE hcP hcE hP (fun c add hd n hn _ => hE c add hd n hn)
  refine (congrArg (Reported Xs m m') ?_).mp this
  apply append_both
  · apply flatMap_congr_mem
    intro p _
    unfold elementPieces lineElements
    rw [hk]
    dsimp only
    rw [List.flatMap_map, List.flatMap_map]
  · apply flatMap_congr_mem
    intro n _
    have h0 : valueOf env related m f ls n ≠ .none := by
      unfold valueOf lineValue; rw [hk]; simp
    unfold finishPieces
    rw [hk, if_neg h0]
    rfl

/-- for a list: reports on its elements, line by line, then on its value -/
theorem Processed.list_reports (P : Processed env related t ls m m') {Xs : List NoteId} {f : FieldId} (hX : Only Xs [f]) (hk : f.info.kind = .list) (hv : f.validIn m.kind = true)
    (specP : Str → List Report) (specE : Str → List Report)
    (hcP : ∀ v, ∀ r ∈ specP v, r.Clean) (hcE : ∀ n ∈ namesFor f ls, ∀ r ∈ specE n, r.Clean)
    (hP : ∀ (add : AddNote) (hd : Handler) v, hd.fid = f → amongClass Xs (hd.parse ⟨env, m, related⟩ add v).2.notes = (specP v).map (Report.note add))
    (hE : ∀ (c : Ctx) (add : AddNote) (hd : Handler), ∀ n ∈ namesFor f ls,
      During env related t m c → Seen env related t ls m (before n (namesOf ls)) c →
      (add, hd) = evalSetup m t c related ls n → hd.fid = f → hd.value = valueOf env related m f ls n →
      amongClass Xs (hd.evaluate c add).2.notes = (specE n).map (Report.note add)) :
    Reported Xs m m' (((linesFor m.kind f ls).flatMap fun p => (lineElements p.2.2).flatMap fun e => (specP e).map (offsetSubject p.1, ·)) ++
      (namesFor f ls).flatMap fun n => (specE n).map (fieldSubject n, ·)) :=
  P.list_reports_ok hX hk hv specP specE hcP hcE hP fun c add hd n hn h1 h2 h3 h4 h5 _ => hE c add hd n hn h1 h2 h3 h4 h5

/-- for a field with one value: reports on its text, then, if it could be read, on its value -/
theorem Processed.text_reports (P : Processed env related t ls m m') {Xs : List NoteId} {f : FieldId} (hX : Only Xs [f]) (hk : f.info.kind = .singleton) (hv : f.validIn m.kind = true)
    (specP : Str → List Report) (specE : Str → List Report)
    (hcP : ∀ v, ∀ r ∈ specP v, r.Clean) (hcE : ∀ n ∈ namesFor f ls, ∀ r ∈ specE n, r.Clean)
    (hP : ∀ (add : AddNote) (hd : Handler) v, hd.fid = f → amongClass Xs (hd.parse ⟨env, m, related⟩ add v).2.notes = (specP v).map (Report.note add))
    (hE : ∀ (c : Ctx) (add : AddNote) (hd : Handler), ∀ n ∈ namesFor f ls, valueOf env related m f ls n ≠ .none →
      During env related t m c → Seen env related t ls m (before n (namesOf ls)) c →
      (add, hd) = evalSetup m t c related ls n → hd.fid = f → hd.value = valueOf env related m f ls n →
      amongClass Xs (hd.evaluate c add).2.notes = (specE n).map (Report.note add)) :
    Reported Xs m m' ((namesFor f ls).flatMap fun n => (specP (textOf ls n) ++ if valueOf env related m f ls n = .none then [] else specE n).map (fieldSubject n, ·)) := by
  have := P.class_reports hX hv specP specE hcP hcE hP hE
  refine (congrArg (Reported Xs m m') ?_).mp this
  have h1 : ((linesFor m.kind f ls).flatMap fun p => (elementPieces f p.1 p.2.2).flatMap fun q => (specP q.text).map (q.subject, ·)) = [] := by
    rw [List.flatMap_eq_nil_iff]
    intro p _
    unfold elementPieces
    rw [hk]
    rfl
  rw [h1, List.nil_append]
  apply flatMap_congr_mem
  intro n hn
  rw [List.map_append]
  apply append_both
  · unfold finishPieces
    rw [hk]
    dsimp only
    have ht : textOf ls n = strip (((sent m.kind n ls).map (·.2)).headD []) := by rw [sent_snd]; rfl
    cases hs : sent m.kind n ls with
    | nil => exact absurd hs (sent_ne_nil (mem_namesFor.1 hn).1)
    | cons p ps =>
      rw [ht, hs]
      simp
  · split <;> rfl

end

/-! ### reading off what a check reports -/

/-- `r`, if `b` -/
def sayIf (b : Bool) (r : Report) : List Report := if b then [r] else []

/-- a check that returns, having reported `l` -/
structure Told {α} (add : AddNote) (w : W α) (l : List Report) (a : α) : Prop where
  notes : w.notes = l.map (Report.note add)
  res : w.res = .ok a

theorem Told.pure {α} {add : AddNote} {a : α} : Told add (pure a : W α) [] a := ⟨rfl, rfl⟩

theorem Told.lift {α} {add : AddNote} {r : Except Exn α} {a : α} (h : r = .ok a) : Told add (W.lift r) [] a := ⟨rfl, h⟩

theorem Told.add {add : AddNote} {X vrs} : Told add (add.add X vrs) [⟨X, vrs, []⟩] () := ⟨rfl, rfl⟩

theorem Told.when {add : AddNote} {b : Bool} {X vrs} : Told add (W.when b (add.add X vrs)) (sayIf b ⟨X, vrs, []⟩) () := by
  unfold W.when sayIf
  cases b
  · exact ⟨rfl, rfl⟩
  · exact ⟨rfl, rfl⟩

theorem Told.addWith {add : AddNote} {X vrs kids} : Told add (add.addWith X vrs Option.none kids) [⟨X, vrs, kids⟩] () := ⟨rfl, rfl⟩

theorem Told.bind {α β} {add : AddNote} {x : W α} {f : α → W β} {l l' a b} (h : Told add x l a) (h' : Told add (f a) l' b) : Told add (x >>= f) (l ++ l') b := by
  refine ⟨?_, ?_⟩
  · rw [W.bind_ok h.res, List.map_append, ← h.notes, ← h'.notes]
  · rw [W.bind_ok h.res, h'.res]

theorem Told.forEach {α} {add : AddNote} {l : List α} {f : α → W Unit} {g : α → List Report} (h : ∀ x ∈ l, Told add (f x) (g x) ()) :
    Told add (W.forEach l f) (l.flatMap g) () := by
  induction l with
  | nil => exact ⟨rfl, rfl⟩
  | cons x l ih =>
    unfold W.forEach
    exact (h x (by simp)).bind (ih fun y hy => h y (by simp [hy]))

theorem Told.of {α} {add : AddNote} {w : W α} {l l' a} (h : Told add w l a) (e : l = l') : Told add w l' a := e ▸ h

theorem Told.ite {α} {add : AddNote} {p : Prop} [Decidable p] {x y : W α} {l l' a} (h : p → Told add x l a) (h' : ¬ p → Told add y l' a) :
    Told add (if p then x else y) (if p then l else l') a := by
  split
  · exact h ‹_›
  · exact h' ‹_›

theorem sayIf_clean {b r} (h : r.Clean) : ∀ x ∈ sayIf b r, x.Clean := by
  unfold sayIf
  cases b
  · intro x hx; exact absurd hx (by simp)
  · intro x hx
    have : x = r := by simpa using hx
    exact this ▸ h

/-! ### what the parser leaves for `evaluate` -/

theorem listLoop_aux (c : Ctx) (add : AddNote) {f : FieldId} (step : Aux → Str → Aux) (hok : ∀ x, ∃ v, parseText c f x = .ok v)
    (hstep : ∀ (add : AddNote) (h : Handler) v, h.fid = f → (h.parse c add v).1 = step h.aux v) (vs : List Str) :
    ∀ (h : Handler) (xs : List Val), h.fid = f → h.value = .list xs →
      (h.listLoop c add vs).1.aux = (vs.map strip).foldl step h.aux ∧ (h.listLoop c add vs).1.fid = f ∧ ∃ ys, (h.listLoop c add vs).1.value = .list ys := by
  induction vs with
  | nil => intro h xs hf hv; exact ⟨rfl, hf, xs, hv⟩
  | cons v vs ih =>
    intro h xs hf hv
    unfold Handler.listLoop
    dsimp only
    rw [elementSyntax_res]
    dsimp only
    have hp := parse_res c add h (strip v)
    obtain ⟨x, hx⟩ := hok (strip v)
    rw [hf, hx] at hp
    have hst := hstep add h (strip v) hf
    generalize h.parse c add (strip v) = p at *
    obtain ⟨aux, r⟩ := p
    dsimp only at *
    rw [hp]
    dsimp only
    have ha : ({ h with aux } : Handler).append x = .ok { h with aux, value := .list (xs ++ [x]) } := by
      unfold Handler.append; simp only [hv]
    rw [ha]
    dsimp only
    have := ih { h with aux, value := .list (xs ++ [x]) } (xs ++ [x]) hf rfl
    rw [List.map_cons, List.foldl_cons, ← hst]
    exact this

/-- what the parser of a list field leaves, folding over the elements -/
theorem list_aux {env : Env} {related : Option Msg} {t : Bool} {ls : List Line} {m : Msg} {c : Ctx} {n : Str} {f : FieldId} (hn : n ∈ namesOf ls) (hc : classOf n = f)
    (hk : f.info.kind = .list) (henv : c.env = env) (step : Aux → Str → Aux) (hok : ∀ x, ∃ v, parseText ⟨env, m, related⟩ f x = .ok v)
    (hstep : ∀ (add : AddNote) (h : Handler) v, h.fid = f → (h.parse ⟨env, m, related⟩ add v).1 = step h.aux v) :
    (evalSetup m t c related ls n).2.aux = (elementsOf ls n).foldl step {} := by
  have hc' : classOf (spelling ls n) = f := by rw [classOf_spelling hn, hc]
  unfold evalSetup evalHandler
  dsimp only
  rw [hc', hk, henv]
  dsimp only
  unfold fedLines
  have key : ∀ (ps : List (Nat × Str)) (h : Handler) (xs : List Val), h.fid = f → h.value = .list xs →
      (ps.foldl (fun h p => (h.handleInput ⟨env, m, related⟩ p.2 p.1).1) h).aux = ((ps.flatMap fun p => splitListField p.2).map strip).foldl step h.aux := by
    intro ps
    induction ps with
    | nil => intro h xs _ hv; rfl
    | cons p ps ih =>
      intro h xs hf hv
      obtain ⟨e1, e2, ys, e3⟩ := listLoop_aux ⟨env, m, related⟩ (h.offsetAdd m.defaults p.1) step hok hstep (splitListField p.2) h xs hf hv
      have e' : h.handleInput ⟨env, m, related⟩ p.2 p.1 = h.listLoop ⟨env, m, related⟩ (h.offsetAdd m.defaults p.1) (splitListField p.2) := by
        unfold Handler.handleInput; rw [hf, hk]
      rw [List.foldl_cons, ih _ ys (by rw [e']; exact e2) (by rw [e']; exact e3), e', e1, List.flatMap_cons, List.map_append, List.foldl_append]
  rw [key _ _ [] (by rw [mkHandler_fid, hc']) (mkHandler_value _ _), mkHandler_aux]
  congr 2
  rw [← sent_snd m.kind, List.flatMap_map]

/-- all the notes of a check are of these classes -/
theorem Told.among {α} {add : AddNote} {w : W α} {l : List Report} {a : α} {Xs : List NoteId} (h : Told add w l a) (hX : ∀ r ∈ l, Xs.contains r.cls = true) :
    amongClass Xs w.notes = l.map (Report.note add) := by
  rw [h.notes]
  unfold amongClass
  rw [List.filter_eq_self]
  intro x hx
  obtain ⟨r, hr, rfl⟩ := List.mem_map.1 hx
  have : (Report.note add r).cls = r.cls := by rw [Report.note, foldl_addChild]; rfl
  rw [this]
  exact hX r hr

end HL.Props
