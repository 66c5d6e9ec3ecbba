import Verif.Props.StructuredThm

/-!
# Fields that are times (C90, C91)

Date (and its relation to Age), Last-Modified, Sunset, Deprecation.
-/

namespace HL.Props
open HL.F Syntax

open Classical in
/-- the time an HTTP date denotes, if the date library can read it -/
noncomputable def timeOf (env : Env) (s : Str) : Option Int :=
  if HttpDate s then
    match env.parsedate s with
    | some (y, mo, d, h, mi, sec) =>
      if 1 ≤ fullYear y ∧ fullYear y ≤ 9999 ∧ 1 ≤ mo ∧ mo ≤ 12 then some (86400 * dayNumber (fullYear y) mo d + 3600 * h + 60 * mi + sec) else none
    | none => none
  else none

/-- when the message was received, if that is known (zero means that it isn't) -/
def clock (m : Msg) : Option Rat := match m.startTime with | some t => if t = 0 then none else some t | none => none

section
variable {env : Env} {related : Option Msg} {t : Bool} {ls : List Line} {m m' : Msg}

theorem time_text (c : Ctx) {f : FieldId} (hf : f ∈ dateFields) (s : Str) (hs : ∀ P, Lined P s ↔ P s) :
    (parseText c f s).toOption = (timeOf c.env s).map Val.int := by
  obtain ⟨⟨cat, h⟩, _⟩ := date_fields_parse c f hf s
  rw [h]
  unfold timeOf
  by_cases hd : HttpDate s
  · rw [if_pos hd, (C52_date c.env _ _ cat ((hs _).2 hd)).2]
    cases c.env.parsedate s with
    | none => rfl
    | some q =>
      obtain ⟨y, mo, d, hh, mi, sec⟩ := q
      dsimp only
      by_cases hr : 1 ≤ fullYear y ∧ fullYear y ≤ 9999 ∧ 1 ≤ mo ∧ mo ≤ 12
      · rw [if_pos hr, C52_timegm _ _ _ _ _ _ ⟨hr.1, hr.2.1⟩ hr.2.2]; rfl
      · rw [if_neg hr]
        unfold timegm
        rw [if_pos (by simp; omega)]
        rfl
  · rw [if_neg hd, (C52_bad_syntax c.env _ _ cat (fun x => hd ((hs _).1 x))).1]; rfl

/-- the value of a date field -/
theorem time_value {f : FieldId} (hf : f ∈ dateFields) {n : Str} (hn : n ∈ namesFor f ls) :
    valueOf env related m f ls n = (match timeOf env (textOf ls n) with | some a => Val.int a | none => .none) := by
  have hk : f.info.kind = .singleton := by
    simp only [dateFields, List.mem_cons, List.not_mem_nil, or_false] at hf
    rcases hf with rfl | rfl | rfl | rfl <;> rfl
  rw [singleton_value hk n (mem_namesFor.1 hn).1, time_text ⟨env, m, related⟩ hf (textOf ls n) (fun P => strip_not_nl _ P)]
  show ((timeOf env (textOf ls n)).map Val.int).getD _ = _
  cases timeOf env (textOf ls n) <;> rfl

theorem during_start {c : Ctx} (hd : During env related t m c) : c.msg.startTime = m.startTime := by
  obtain ⟨ns, s, e⟩ := hd.ext
  rw [e]; cases t <;> rfl

/-! ### Sunset -/

/-- what is reported on a `Sunset`: that it's past -/
def sunsetReports (now : Option Rat) (s : Int) : List Report :=
  match now with
  | some t => sayIf (s != 0 && decide ((s : Rat) < t)) { cls := .SUNSET_PAST }
  | none => []

/-- **C90** `Sunset` is reported exactly when the time is before the response was received -/
theorem C90_sunset (P : Processed env related t ls m m') (hk : m.kind = .response) :
    Reported [.SUNSET_PAST] m m' ((namesFor .sunset_ ls).flatMap fun n => (onParsed (timeOf env (textOf ls n)) (sunsetReports (clock m))).map (fieldSubject n, ·)) := by
  have hX : EvalAmong [.SUNSET_PAST] [.sunset_] := by eval_among
  refine P.parsed_reports hX (by rw [hk]; rfl) (fun n => timeOf env (textOf ls n)) Val.int (fun a => by simp)
    (fun n hn => by rw [time_value (by decide) hn]; cases timeOf env (textOf ls n) <;> rfl) _ ?_ ?_
  · intro a r hr
    unfold sunsetReports at hr
    split at hr
    · obtain ⟨_, rfl⟩ := mem_sayIf.1 hr
      exact ⟨⟨by simp, by simp⟩, rfl⟩
    · exact absurd hr (by simp)
  · intro c add hd n a hdur hn hl hf hval
    unfold Handler.evaluate
    rw [hf]
    show Told add (sunset.evaluate c add hd) _ ()
    unfold sunset.evaluate sunsetReports clock
    rw [hval, during_start hdur]
    cases m.startTime with
    | none => exact Told.pure
    | some t =>
      dsimp only
      by_cases h0 : t = 0
      · rw [if_pos h0, h0]
        have : ((0 : Rat) != 0 && a != 0 && decide ((a : Rat) < 0)) = false := by simp
        rw [this]
        exact Told.pure
      · rw [if_neg h0]
        have : (t != 0 && a != 0 && decide ((a : Rat) < t)) = (a != 0 && decide ((a : Rat) < t)) := by rw [bne_iff_ne.2 h0, Bool.true_and]
        rw [this]
        exact Told.when

/-! ### Deprecation -/

/-- what is reported on a `Deprecation`: whether its date is past or future (if the time of the response is known), that it is `?1`, or that it is something else -/
def deprecationReports (env : Env) (now : Option Rat) (v : Val) : List Report :=
  match v with
  | .date d => (match now with
    | some t => (match env.render.pyStr v with
      | .ok iso => [{ cls := if (d : Rat) > t then .DEPRECATION_FUTURE else .DEPRECATION_PAST, vars := [(str "date", .str iso)] }]
      | .error _ => [])
    | none => [])
  | .bool b => if b then [{ cls := .DEPRECATION_TRUE }] else [{ cls := .DEPRECATION_BAD_TYPE, vars := [(str "item_type", .str (str "Boolean False"))] }]
  | v => [{ cls := .DEPRECATION_BAD_TYPE, vars := [(str "item_type", .str v.typeName)] }]

def deprecationClasses : List NoteId := [.DEPRECATION_FUTURE, .DEPRECATION_PAST, .DEPRECATION_TRUE, .DEPRECATION_BAD_TYPE]

theorem deprecation_tells {c : Ctx} (add : AddNote) {hd : Handler} {v p : Val} (hv : hd.value = .tuple [v, p]) :
    Tells deprecationClasses add (deprecation.evaluate c add hd) (deprecationReports c.env (clock c.msg) v) (fun _ => True) := by
  unfold deprecation.evaluate
  rw [hv]
  refine Tells.silent fun v' hv' => ?_
  injection hv' with hv'
  subst hv'
  unfold deprecationReports clock
  rcases v with a | _
  · cases a with
    | date d =>
      dsimp only
      cases c.msg.startTime with
      | none => exact Tells.pure trivial
      | some t =>
        dsimp only
        by_cases h0 : t = 0
        · rw [if_pos h0, if_pos h0]; exact Tells.pure trivial
        · rw [if_neg h0, if_neg h0]
          refine Tells.silent fun iso hi => ?_
          rw [show c.env.render.pyStr (Val.atom (.date d)) = .ok iso from hi]
          dsimp only
          by_cases ht : (d : Rat) > t
          · rw [if_pos ht, if_pos ht]; exact Tells.add rfl
          · rw [if_neg ht, if_neg ht]; exact Tells.add rfl
    | bool b => cases b <;> exact Tells.add rfl
    | _ => exact Tells.add rfl
  · exact Tells.add rfl

/-- **C90** `Deprecation`, in full -/
theorem C90_deprecation (P : Processed env related t ls m m') (hk : m.kind = .response) (hi : ItemShape env) :
    Reported deprecationClasses m m' ((namesFor .deprecation_ ls).flatMap fun n =>
      (onParsed (itemOf env ls n) fun q => deprecationReports env (clock m) q.1).map (fieldSubject n, ·)) := by
  have hX : EvalAmong deprecationClasses [.deprecation_] := by eval_among
  refine P.parsed_tells hX (by rw [hk]; rfl) (itemOf env ls) (fun q => .tuple [q.1, q.2]) (fun a => by simp)
    (fun n _ => by rw [item_value rfl hi n]; cases itemOf env ls n <;> rfl) _ ?_ ?_
  · intro q r hr
    unfold deprecationReports at hr
    split at hr
    · split at hr
      · split at hr
        · rw [List.mem_singleton] at hr; subst hr
          refine ⟨⟨by simp, by simp⟩, ?_⟩
          dsimp only
          split <;> rfl
        · exact absurd hr (by simp)
      · exact absurd hr (by simp)
    · split at hr <;> (rw [List.mem_singleton] at hr; subst hr; exact ⟨⟨by simp, by simp⟩, rfl⟩)
    · rw [List.mem_singleton] at hr; subst hr; exact ⟨⟨by simp, by simp⟩, rfl⟩
  · intro c add hd q hdur hf hval
    unfold Handler.evaluate
    rw [hf]
    have := deprecation_tells (c := c) add hval
    rw [hdur.env, show clock c.msg = clock m by unfold clock; rw [during_start hdur]] at this
    exact this

/-- a date field, in full, from what its `evaluate` reports on a time -/
theorem Processed.timed_reports (P : Processed env related t ls m m') {Xs : List NoteId} {f : FieldId} (hX : EvalAmong Xs [f]) (hv : f.validIn m.kind = true) (hf : f ∈ dateFields)
    (g : Str → Int → List Report) (hcl : ∀ n a, ∀ r ∈ g n a, r.Clean ∧ Xs.contains r.cls = true)
    (hs : ∀ (c : Ctx) (add : AddNote) (hd : Handler) n a, During env related t m c → Seen env related t ls m (before n (namesOf ls)) c → hd.fid = f → hd.value = .int a →
      Heard Xs add (hd.evaluate c add).2 (g n a) ()) :
    Reported Xs m m' ((namesFor f ls).flatMap fun n => (onParsed (timeOf env (textOf ls n)) (g n)).map (fieldSubject n, ·)) := by
  have hcl' : ∀ n, ∀ r ∈ onParsed (timeOf env (textOf ls n)) (g n), r.Clean ∧ Xs.contains r.cls = true := by
    intro n r hr
    unfold onParsed at hr
    split at hr
    · exact hcl _ _ r hr
    · exact absurd hr (by simp)
  have := P.reports (Xs := Xs) (fs := [f]) hX (fun n => onParsed (timeOf env (textOf ls n)) (g n)) (fun n _ r hr => (hcl' n r hr).1) (by
      intro c add hd n hn hdur hseen _ hf' hval'
      have hc := examined_class hn
      obtain ⟨hmem, _, _, hne'⟩ := mem_examined.1 hn
      have hmf : n ∈ namesFor f ls := mem_namesFor.2 ⟨hmem, hc⟩
      rw [hc, time_value hf hmf] at hval' hne'
      rw [hc] at hf'
      unfold onParsed
      cases hio : timeOf env (textOf ls n) with
      | none => rw [hio] at hne'; exact absurd rfl hne'
      | some q =>
        rw [hio] at hval'
        exact (hs c add hd n q hdur hseen hf' hval').notes)
  refine this.congr ?_
  unfold examined
  rw [flatMap_filter_if]
  have e : namesAmong [f] ls = namesFor f ls := by
    unfold namesAmong namesFor
    apply List.filter_congr
    intro n _
    simp [eq_comm]
  rw [e]
  apply flatMap_congr_mem
  intro n hn
  have hc := (mem_namesFor.1 hn).2
  rw [hc, time_value hf hn, hv]
  unfold onParsed
  cases timeOf env (textOf ls n) with
  | none => simp
  | some p => rfl

/-! ### Last-Modified -/

/-- the time the response was made, as far as it is known when a field is examined: its `Date`, if that comes before, or when it was received -/
noncomputable def madeAt (env : Env) (m : Msg) (ls : List Line) (n : Str) : Option Rat :=
  match (if str "date" ∈ before n (namesOf ls) then timeOf env (textOf ls (str "date")) else none) with
  | some d => if d = 0 then clock m else some d
  | none => clock m

/-- what is reported on `Last-Modified`: that it's in the future, or how long ago it was -/
def modifiedReports (now : Option Rat) (lm : Int) : List Report :=
  if lm = 0 then [] else match now with
    | some s => [if (lm : Rat) > s then { cls := .LM_FUTURE } else { cls := .LM_PRESENT, vars := [(str "last_modified_string", .rel lm s 1)] }]
    | none => []

/-- what the examination of a field sees of another one -/
theorem seen_value {c : Ctx} {n k : Str} (hs : Seen env related false ls m (before n (namesOf ls)) c) (hu : Unpadded ls) (hp : dget m.headers.parsed k = none)
    {f : FieldId} (hc : classOf k = f) (hf : f ≠ .unknownField) (hv : f.validIn m.kind = true) (he : ∀ v, evaluated f v = v) :
    dget c.msg.headers.parsed k = if k ∈ before n (namesOf ls) then some (valueOf env related m f ls k) else none := by
  have := hs.parsed hu k
  change dget c.msg.headers.parsed k = _ at this
  rw [this]
  by_cases h : k ∈ before n (namesOf ls)
  · rw [if_pos h, if_pos h]
    unfold fieldValue
    rw [if_pos (by rw [okName_class hc hf]; exact hv), hc]
    unfold afterCheck valueOf
    split
    · rename_i h; exact congrArg some h.symm
    · rw [he]
  · rw [if_neg h, if_neg h]; exact hp

theorem mem_before {n k : Str} {l : List Str} (h : k ∈ before n l) : k ∈ l := List.takeWhile_sublist _ |>.subset h

theorem servDate_eq {c : Ctx} {n : Str} (hs : Seen env related false ls m (before n (namesOf ls)) c) (hu : Unpadded ls) (hp : dget m.headers.parsed (str "date") = none)
    (hk : m.kind = .response) (hst : c.msg.startTime = m.startTime) : servDate c = .ok (madeAt env m ls n) := by
  have hcl : classOf (str "date") = .date_ := by decide +kernel
  have hb : (c.msg.startTime.bind fun t => if t = 0 then none else some t) = clock m := by
    rw [hst]; unfold clock; cases m.startTime <;> rfl
  unfold servDate madeAt
  rw [seen_value hs hu hp hcl (by decide) (by rw [hk]; rfl) (fun _ => rfl), hb]
  by_cases h : str "date" ∈ before n (namesOf ls)
  · rw [if_pos h, if_pos h, time_value (by decide) (mem_namesFor.2 ⟨mem_before h, hcl⟩)]
    cases timeOf env (textOf ls (str "date")) with
    | none => rfl
    | some d =>
      dsimp only
      by_cases h0 : d = 0
      · subst h0; rfl
      · rw [if_neg h0]
        have : (Val.int d).truthy = true := by show (d != 0) = true; simpa using h0
        rw [if_pos this]
  · rw [if_neg h, if_neg h]

/-- **C91** `Last-Modified`: reported as in the future, or as so long ago, relative to the `Date` if that comes *before* it, else to when the response was received -/
theorem C91_last_modified_partial (P : Processed env related false ls m m') (hk : m.kind = .response) (hu : Unpadded ls) (hp : dget m.headers.parsed (str "date") = none) :
    Reported [.LM_FUTURE, .LM_PRESENT] m m' ((namesFor .last_modified_ ls).flatMap fun n =>
      (onParsed (timeOf env (textOf ls n)) (modifiedReports (madeAt env m ls n))).map (fieldSubject n, ·)) := by
  have hX : EvalAmong [.LM_FUTURE, .LM_PRESENT] [.last_modified_] := by eval_among
  have hclean : ∀ n a, ∀ r ∈ modifiedReports (madeAt env m ls n) a, r.Clean ∧ [NoteId.LM_FUTURE, NoteId.LM_PRESENT].contains r.cls = true := by
    intro n a r hr
    unfold modifiedReports at hr
    split at hr
    · exact absurd hr (by simp)
    · split at hr
      · rw [List.mem_singleton] at hr; subst hr
        split
        · exact ⟨⟨by simp, by simp⟩, rfl⟩
        · exact ⟨⟨by simp, by simp⟩, rfl⟩
      · exact absurd hr (by simp)
  refine P.timed_reports hX (by rw [hk]; rfl) (by decide) (fun n => modifiedReports (madeAt env m ls n)) hclean ?_
  · intro c add hd n a hdur hs hf hval
    unfold Handler.evaluate
    rw [hf]
    refine Told.heard (l := modifiedReports (madeAt env m ls n) a) (w := last_modified.evaluate c add hd) ?_ (fun r hr => (hclean n a r hr).2)
    unfold last_modified.evaluate modifiedReports
    rw [hval]
    dsimp only
    by_cases h0 : a = 0
    · rw [if_pos h0, if_pos h0]; exact Told.pure
    · rw [if_neg h0, if_neg h0]
      refine Told.of (Told.bind (l := []) (.lift (servDate_eq hs hu hp hk (during_start hdur))) ?_) (List.nil_append _)
      cases madeAt env m ls n with
      | none => exact Told.pure
      | some s =>
        dsimp only
        by_cases hg : (a : Rat) > s
        · rw [if_pos hg, if_pos hg]; exact Told.add
        · rw [if_neg hg, if_neg hg]; exact Told.add

/-! ### Date and Age -/

/-- the age the response had when it was received, as far as it is known when a field is examined -/
def ageSeen (ls : List Line) (n : Str) : Int :=
  if str "age" ∈ before n (namesOf ls) then (match pyInt (textOf ls (str "age")) with | some k => if k < 0 then 0 else k | none => 0) else 0

/-- how far the sender's clock is ahead: the difference of `Date` and reception, plus `Age` -/
def skewOf (now : Rat) (age d : Int) : Int := d - truncRat now + age

/-- was `Date` changed by a cache? -/
def penalised (now : Rat) (age d : Int) : Prop := age > 5 ∧ 5 > age - skewOf now age d

instance (now : Rat) (age d : Int) : Decidable (penalised now age d) := by unfold penalised; infer_instance

/-- what `date.evaluate` does once it knows everything -/
def sayDate (add : AddNote) (t : Rat) (age d : Int) : W Unit :=
  if penalised t age d then (add.on (str "field-date field-age")).add .AGE_PENALTY
  else if skewOf t age d > 5 ∨ skewOf t age d < -5 then add.add .DATE_INCORRECT [(str "clock_skew_string", .rel (skewOf t age d) 0 2)]
  else add.add .DATE_CORRECT

/-- what is reported on `Date`, and about what: that it was changed (about `Date` and `Age`), or that the clock is wrong, and by how much, or that it's right -/
def dateReports (n : Str) (now : Option Rat) (age d : Int) : List (Str × Report) :=
  match now with
  | some t =>
    if d = 0 then []
    else if penalised t age d then [(str "field-date field-age", { cls := .AGE_PENALTY })]
    else if skewOf t age d > 5 ∨ skewOf t age d < -5 then [(fieldSubject n, { cls := .DATE_INCORRECT, vars := [(str "clock_skew_string", .rel (skewOf t age d) 0 2)] })]
    else [(fieldSubject n, { cls := .DATE_CORRECT })]
  | none => []

/-- **what the examination of values reports**, about whatever -/
theorem Processed.reports_at (P : Processed env related t ls m m') {Xs fs} (hX : EvalAmong Xs fs) (spec : Str → List (Str × Report))
    (hs : ∀ (c : Ctx) (add : AddNote) (hd : Handler), ∀ n ∈ examined env related m fs ls, During env related t m c → Seen env related t ls m (before n (namesOf ls)) c →
      add.subject = fieldSubject n → UniqueKeys add.base → hd.fid = classOf n → hd.value = valueOf env related m (classOf n) ls n →
      Each (fun (x : Note) p => Reports x p.1 p.2) (amongClass Xs (hd.evaluate c add).2.notes) (spec n)) :
    Reported Xs m m' ((examined env related m fs ls).flatMap spec) := by
  obtain ⟨added, lines, fin, ctx, e, hd, ha, hl, hf, hseen⟩ := section_pieces P.linting P.new P.ok
  refine ⟨added, e, ?_⟩
  have hsilent : ∀ {c : Ctx} {ns : List Note} {ps : List Snippet}, ParsedNotes c ns ps → amongClass Xs ns = [] := by
    intro c ns ps h
    have := HL.Props.parsed_reports (Xs := Xs) (fun _ => []) (fun _ _ r hr => absurd hr (by simp)) (fun p _ add hd _ => parse_among (hX.parse _)) h
    have h0 : (ps.flatMap fun p => ([] : List Report).map (p.subject, ·)) = [] := by simp
    rw [h0] at this
    cases hz : amongClass Xs ns with
    | nil => rfl
    | cons => rw [hz] at this; cases this
  show Each _ (amongClass Xs added) _
  rw [among_isField hX.origin, ha, amongClass_append, hsilent hl, List.nil_append]
  have h2 : amongClass Xs ((namesOf ls).flatMap fin) = (namesOf ls).flatMap fun n => amongClass Xs (fin n) := List.filter_flatMap ..
  rw [h2]
  have hsplit : (examined env related m fs ls).flatMap spec = (namesOf ls).flatMap fun n => if n ∈ examined env related m fs ls then spec n else [] := by
    have : examined env related m fs ls = (namesOf ls).filter fun n => decide (n ∈ examined env related m fs ls) := by
      conv => lhs; unfold examined namesAmong; rw [List.filter_filter]
      apply List.filter_congr
      intro n hn
      rw [Bool.eq_iff_iff, decide_eq_true_iff, mem_examined]
      simp [hn]
      constructor <;> intro h <;> simp_all
    conv => lhs; rw [this]
    rw [flatMap_filter_if]
    apply flatMap_congr_mem
    intro n _
    by_cases h : n ∈ examined env related m fs ls <;> simp [h]
  rw [hsplit]
  apply Each.flatMap
  intro n hn
  have hfn := hf n hn
  by_cases hok : okName m.kind n = true
  · rw [if_pos hok] at hfn
    obtain ⟨pre, e1, e2, _⟩ := hfn
    rw [e1, amongClass_append, hsilent e2, List.nil_append]
    have hval := evalSetup_value P.linting P.ok hn hok (hd n hn).1
    change _ = valueOf env related m (classOf n) ls n at hval
    have hsub := evalSetup_subject (t := t) (m := m) (related := related) (c := ctx n) hn
    have hfid : (evalSetup m t (ctx n) related ls n).2.fid = classOf n := evalSetup_fid hn
    unfold evalNotes
    rw [hval]
    by_cases h0 : valueOf env related m (classOf n) ls n = .none
    · rw [if_pos h0, if_neg (fun h => (mem_examined.1 h).2.2.2 h0)]; exact .nil
    · rw [if_neg h0]
      by_cases hex : n ∈ examined env related m fs ls
      · rw [if_pos hex]
        exact hs (ctx n) _ _ n hex (hd n hn).1 (hseen _ n _ (before_split (dedup_nodup _) hn).choose_spec) hsub
          (show ([str "field_name", str "field_type"] : List Str).Nodup by decide) hfid hval
      · rw [if_neg hex, evaluate_among (hd := (evalSetup m t (ctx n) related ls n).2) (setup_aux (add := (evalSetup m t (ctx n) related ls n).1) hn rfl) (hX.evaluate _ fun hm => hex (mem_examined.2 ⟨hn, hfid ▸ hm, ?_, h0⟩))]
        · exact .nil
        · unfold okName at hok
          exact (Bool.and_eq_true _ _ ▸ hok).1
  · rw [if_neg hok] at hfn
    rw [hfn]
    by_cases hex : n ∈ examined env related m fs ls
    · obtain ⟨_, h2, h3, h4⟩ := mem_examined.1 hex
      have hne : classOf n ≠ .unknownField := fun e => hX.known (e ▸ h2)
      exact absurd (by rw [okName_class rfl hne]; exact h3) hok
    · rw [if_neg hex]; exact .nil

theorem age_seen {c : Ctx} {n : Str} (hs : Seen env related false ls m (before n (namesOf ls)) c) (hu : Unpadded ls) (hp : dget m.headers.parsed (str "age") = none)
    (hk : m.kind = .response) : (dget c.msg.headers.parsed (str "age") = none ∧ ageSeen ls n = 0) ∨
      ∃ v, dget c.msg.headers.parsed (str "age") = some v ∧ ((v.truthy = true ∧ v = .int (ageSeen ls n)) ∨ (v.truthy = false ∧ ageSeen ls n = 0)) := by
  have hcl : classOf (str "age") = .age_ := by decide +kernel
  rw [seen_value hs hu hp hcl (by decide) (by rw [hk]; rfl) (fun _ => rfl)]
  unfold ageSeen
  by_cases h : str "age" ∈ before n (namesOf ls)
  · right
    rw [if_pos h, if_pos h]
    refine ⟨_, rfl, ?_⟩
    rw [singleton_value rfl _ (mem_before h), (age_text _ _).1]
    cases pyInt (textOf ls (str "age")) with
    | none => exact Or.inr ⟨rfl, rfl⟩
    | some k =>
      dsimp only
      by_cases h0 : k < 0
      · rw [if_pos h0, if_pos h0]; exact Or.inr ⟨rfl, rfl⟩
      · rw [if_neg h0, if_neg h0]
        by_cases hz : k = 0
        · subst hz; exact Or.inr ⟨rfl, rfl⟩
        · exact Or.inl ⟨show ((k != 0) = true) by simpa using hz, rfl⟩
  · left
    rw [if_neg h, if_neg h]
    exact ⟨rfl, rfl⟩

theorem reports_add {add : AddNote} {r : Report} {s : Str} {Xs : List NoteId} (hc : r.Clean) (hs : add.subject = s) (hb : UniqueKeys add.base) (hX : Xs.contains r.cls = true) (hk : r.kids = []) :
    Each (fun (x : Note) p => Reports x p.1 p.2) (amongClass Xs (add.add r.cls r.vars).notes) [(s, r)] := by
  have : (add.add r.cls r.vars).notes = [r.note add] := by
    unfold Report.note; rw [hk]; rfl
  rw [this]
  have h2 : amongClass Xs [r.note add] = [r.note add] := by
    unfold amongClass
    rw [List.filter_cons_of_pos (by rw [Report.note, foldl_addChild]; exact hX)]; rfl
  rw [h2]
  exact .cons (Report.note_reports hc hs hb) .nil

/-- **C91** `Date`: compared with when the response was received, allowing for `Age` if that comes *before* it -/
theorem C91_date_partial (P : Processed env related false ls m m') (hk : m.kind = .response) (hu : Unpadded ls) (hp : dget m.headers.parsed (str "age") = none) :
    Reported [.AGE_PENALTY, .DATE_INCORRECT, .DATE_CORRECT] m m' ((namesFor .date_ ls).flatMap fun n =>
      match timeOf env (textOf ls n) with | some d => dateReports n (clock m) (ageSeen ls n) d | none => []) := by
  have hX : EvalAmong [.AGE_PENALTY, .DATE_INCORRECT, .DATE_CORRECT] [.date_] := by eval_among
  have := P.reports_at hX (fun n => match timeOf env (textOf ls n) with | some d => dateReports n (clock m) (ageSeen ls n) d | none => []) (by
    intro c add hd n hn hdur hseen hsub hbase hf' hval'
    have hc := examined_class hn
    obtain ⟨hmem, _, _, hne'⟩ := mem_examined.1 hn
    have hmf : n ∈ namesFor .date_ ls := mem_namesFor.2 ⟨hmem, hc⟩
    rw [hc, time_value (by decide) hmf] at hval' hne'
    rw [hc] at hf'
    cases hio : timeOf env (textOf ls n) with
    | none => rw [hio] at hne'; exact absurd rfl hne'
    | some d =>
      rw [hio] at hval'
      dsimp only at hval' ⊢
      unfold Handler.evaluate
      rw [hf']
      show Each _ (amongClass _ (date.evaluate c add hd).notes) _
      unfold date.evaluate dateReports clock
      have hreq : c.isRequest = false := by
        unfold Ctx.isRequest; rw [hdur.kind, hk]; rfl
      rw [hreq, during_start hdur, hval']
      cases m.startTime with
      | none => exact .nil
      | some t =>
        dsimp only
        by_cases h0 : t = 0
        · rw [if_pos (Or.inl h0), if_pos h0]; exact .nil
        · rw [if_neg h0]
          dsimp only
          by_cases hd0 : d = 0
          · rw [if_pos (Or.inr hd0), if_pos hd0]; exact .nil
          · rw [if_neg (by simp [h0, hd0]), if_neg hd0]
            have go : ∀ a : Int, Each (fun (x : Note) (p : Str × Report) => Reports x p.1 p.2) (amongClass [.AGE_PENALTY, .DATE_INCORRECT, .DATE_CORRECT] (sayDate add t a d).notes)
                (if penalised t a d then [(str "field-date field-age", { cls := .AGE_PENALTY })]
                  else if skewOf t a d > 5 ∨ skewOf t a d < -5 then [(fieldSubject n, { cls := .DATE_INCORRECT, vars := [(str "clock_skew_string", .rel (skewOf t a d) 0 2)] })]
                  else [(fieldSubject n, { cls := .DATE_CORRECT })]) := by
              intro a
              unfold sayDate
              by_cases hpen : penalised t a d
              · rw [if_pos hpen, if_pos hpen]
                exact reports_add (add := add.on (str "field-date field-age")) (r := { cls := .AGE_PENALTY }) ⟨by simp, by simp⟩ rfl (by show ([] : List Str).Nodup; simp) rfl rfl
              · rw [if_neg hpen, if_neg hpen]
                by_cases hsk : skewOf t a d > 5 ∨ skewOf t a d < -5
                · rw [if_pos hsk, if_pos hsk]
                  exact reports_add (add := add) (r := { cls := .DATE_INCORRECT, vars := [(str "clock_skew_string", .rel (skewOf t a d) 0 2)] }) ⟨by simp, by simp⟩ hsub hbase rfl rfl
                · rw [if_neg hsk, if_neg hsk]
                  exact reports_add (add := add) (r := { cls := .DATE_CORRECT }) ⟨by simp, by simp⟩ hsub hbase rfl rfl
            rcases age_seen hseen hu hp hk with ⟨hv, ha⟩ | ⟨v, hv, ha⟩
            · rw [hv, ha]; exact go 0
            · rw [hv]
              dsimp only
              rcases ha with ⟨htr, ha⟩ | ⟨htr, ha⟩
              · rw [if_pos htr]
                subst ha
                exact go _
              · rw [if_neg (by rw [htr]; simp), ha]; exact go 0)
  refine this.congr ?_
  unfold examined
  rw [flatMap_filter_if]
  have e : namesAmong [.date_] ls = namesFor .date_ ls := by
    unfold namesAmong namesFor
    apply List.filter_congr
    intro n _
    simp [eq_comm]
  rw [e]
  apply flatMap_congr_mem
  intro n hn
  have hc := (mem_namesFor.1 hn).2
  rw [hc, time_value (by decide) hn, hk]
  cases timeOf env (textOf ls n) with
  | none => simp
  | some p => rfl

end
end HL.Props
