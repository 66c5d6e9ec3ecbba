import Verif.Props.CacheReport
import Verif.Props.TimeThm
import Verif.Props.TypesEx
import Verif.Props.Notes

/-!
# What the user reads

The claims on notes say which class, subject and variables they have.  Here: the text this amounts to.
-/

namespace HL.Props

/-! ### filling in a text -/

/-- `text` is the template `t` with each `%(k)s` replaced by what `val` has for `k`, and `%%` by `%` -/
inductive Filled (val : Str → Option Str) : Str → Str → Prop
  | nil : Filled val [] []
  | sign {t text} : Filled val t text → Filled val (37 :: 37 :: t) (37 :: text)
  | var {k v t text} : val k = some v → ¬ 41 ∈ k → Filled val t text → Filled val (37 :: 40 :: (k ++ 41 :: 115 :: t)) (v ++ text)
  | char {c t text} : c ≠ 37 → Filled val t text → Filled val (c :: t) (c :: text)

theorem readName_append {k r : Str} (h : ¬ 41 ∈ k) : readName (k ++ 41 :: r) = some (k, r) := by
  induction k with
  | nil => rfl
  | cons c k ih =>
    have hc : c ≠ 41 := fun e => h (e ▸ List.mem_cons_self ..)
    rw [List.cons_append]
    unfold readName
    split
    · rename_i e; cases e
    · rename_i e; cases e; exact absurd rfl hc
    · rename_i e
      cases e
      rw [ih fun hm => h (List.mem_cons_of_mem _ hm)]
      rfl

theorem render_consText (conv : Val → Except Exn Str) (vars : Dict Val) (c : Nat) (segs : List Seg) {s : Str}
    (h : renderSegs conv vars segs = .ok s) : renderSegs conv vars (consText c segs) = .ok (c :: s) := by
  unfold consText
  split
  · rename_i t r
    simp only [renderSegs, bind, Except.bind, pure, Except.pure] at h ⊢
    cases hr : renderSegs conv vars r with
    | error e => rw [hr] at h; exact nomatch h
    | ok w =>
      rw [hr] at h
      dsimp only at h ⊢
      cases h
      rfl
  · simp only [renderSegs, bind, Except.bind, pure, Except.pure, h]
    rfl

theorem Filled.parse {val : Str → Option Str} {conv : Val → Except Exn Str} {vars : Dict Val}
    (hv : ∀ k v, val k = some v → ∃ w, dget vars k = some w ∧ conv w = .ok v) {t text : Str} (h : Filled val t text) :
    ∀ fuel, t.length ≤ fuel → ∃ segs, parseTpl fuel t = some segs ∧ renderSegs conv vars segs = .ok text := by
  induction h with
  | nil => intro fuel _; exact ⟨[], by cases fuel <;> rfl, rfl⟩
  | @sign t text _ ih =>
    intro fuel hf
    cases fuel with
    | zero => simp at hf
    | succ fuel =>
      obtain ⟨segs, h1, h2⟩ := ih fuel (by simp at hf; omega)
      exact ⟨consText 37 segs, by simp only [parseTpl, h1, Option.map_some], render_consText _ _ _ _ h2⟩
  | @var k v t text hk hn _ ih =>
    intro fuel hf
    cases fuel with
    | zero => simp at hf
    | succ fuel =>
      obtain ⟨segs, h1, h2⟩ := ih fuel (by simp at hf; omega)
      obtain ⟨w, hw, hc⟩ := hv k v hk
      refine ⟨.var k :: segs, ?_, ?_⟩
      · simp only [parseTpl, readName_append hn, h1, Option.map_some]
      · simp only [renderSegs, hw, hc, h2, bind, Except.bind, pure, Except.pure]
  | @char c t text hc _ ih =>
    intro fuel hf
    cases fuel with
    | zero => simp at hf
    | succ fuel =>
      obtain ⟨segs, h1, h2⟩ := ih fuel (by simp at hf; omega)
      refine ⟨consText c segs, ?_, render_consText _ _ _ _ h2⟩
      unfold parseTpl
      split
      · rename_i e; cases e
      · rename_i e; cases e; exact absurd rfl hc
      · rename_i e; cases e; exact absurd rfl hc
      · rename_i e; cases e; exact absurd rfl hc
      · rename_i e; cases e; rw [h1]; rfl

theorem Filled.percent_eq {val : Str → Option Str} {conv : Val → Except Exn Str} {vars : Dict Val}
    (hv : ∀ k v, val k = some v → ∃ w, dget vars k = some w ∧ conv w = .ok v) {t text : Str} (h : Filled val t text) :
    percent conv t vars = .ok text := by
  obtain ⟨segs, h1, h2⟩ := h.parse hv t.length (Nat.le_refl _)
  unfold percent tpl
  rw [h1]
  exact h2

/-- the text a variable of a report is shown as in a summary -/
def shownIn (e : RenderEnv) (r : Report) (k : Str) : Option Str :=
  match r.vars.find? fun p => p.1 == k with
  | some p => (e.toStr p.2).toOption
  | none => none

/-- **C117** (summaries) the summary of a note that says `r` — in any of the claims on what is reported — is the text of its class, translated,
with the values in `r` filled in -/
theorem C117_summary (e : RenderEnv) {x : Note} {s : Str} {r : Report} (hx : Reports x s r) {text : Str}
    (h : Filled (shownIn e r) (e.translate r.cls.summary) text) : e.summary x.cls x.vars = .ok text := by
  unfold RenderEnv.summary
  rw [hx.cls]
  refine h.percent_eq fun k v hv => ?_
  unfold shownIn at hv
  split at hv
  · rename_i p hp
    have hk : p.1 = k := by simpa using List.find?_some hp
    refine ⟨p.2, hk ▸ hx.vars p (List.mem_of_find?_eq_some hp), ?_⟩
    cases hs : e.toStr p.2 with
    | ok t => rw [hs] at hv; simpa [Except.toOption] using hv
    | error => rw [hs] at hv; simp [Except.toOption] at hv
  · exact nomatch hv

/-- the text a variable of a report is shown as in a detail: without backticks, unless it was composed as Markdown -/
def shownInDetail (e : RenderEnv) (r : Report) (k : Str) : Option Str :=
  match r.vars.find? fun p => p.1 == k with
  | some p => (match p.2 with
    | .md t => some t
    | v => (e.toStr v).toOption.map fun t => t.filter (· != 96))
  | none => none

theorem coerceAll_shown (e : RenderEnv) {vars safe : Dict Val} (h : e.coerceAll vars = .ok safe) {k : Str} {w : Val} (hw : dget vars k = some w) :
    ∃ t, e.coerce w = .ok t ∧ dget safe k = some (.str t) := by
  induction vars generalizing safe with
  | nil => simp [dget] at hw
  | cons p vars ih =>
    obtain ⟨k', v⟩ := p
    simp only [RenderEnv.coerceAll, bind, Except.bind, pure, Except.pure] at h
    cases hc : e.coerce v with
    | error => rw [hc] at h; exact nomatch h
    | ok t =>
      rw [hc] at h
      cases hr : e.coerceAll vars with
      | error => rw [hr] at h; exact nomatch h
      | ok r =>
        rw [hr] at h
        cases h
        by_cases hk : k' = k
        · subst hk
          have : v = w := by simpa [dget] using hw
          subst this
          exact ⟨t, hc, by simp [dget]⟩
        · have hw' : dget vars k = some w := by
            have : (k' == k) = false := by simpa using hk
            simpa [dget, List.find?_cons, this] using hw
          obtain ⟨t', h1, h2⟩ := ih hr hw'
          refine ⟨t', h1, ?_⟩
          have : (k' == k) = false := by simpa using hk
          simpa [dget, List.find?_cons, this] using h2

/-- **C117** (details) likewise the Markdown of its detail, if all of the note's variables can be shown -/
theorem C117_detail (e : RenderEnv) {x : Note} {s : Str} {r : Report} (hx : Reports x s r) (hp : ∀ p ∈ x.vars, Printable e p.2) {text : Str}
    (h : Filled (shownInDetail e r) (e.translate r.cls.text) text) : e.detail x.cls x.vars = .ok (e.markdown text) := by
  obtain ⟨safe, hs, -, -⟩ := coerceAll_ok e x.vars fun p hm => (hp p hm).toStr
  have : e.detailSource x.cls x.vars = .ok text := by
    unfold RenderEnv.detailSource
    simp only [hs, bind, Except.bind]
    rw [hx.cls]
    refine h.percent_eq fun k v hv => ?_
    unfold shownInDetail at hv
    split at hv
    · rename_i p hp
      have hk : p.1 = k := by simpa using List.find?_some hp
      obtain ⟨t, ht, hg⟩ := coerceAll_shown e hs (hk ▸ hx.vars p (List.mem_of_find?_eq_some hp))
      refine ⟨.str t, hg, ?_⟩
      have : t = v := by
        unfold RenderEnv.coerce at ht
        split at ht
        · rename_i e1
          rw [e1] at hv
          cases ht
          simpa using hv
        · rename_i hne
          simp only [bind, Except.bind, pure, Except.pure] at ht
          split at hv
          · rename_i t' e1; exact absurd e1 (hne t')
          · cases hs' : e.toStr p.2 with
            | error => rw [hs'] at ht; exact nomatch ht
            | ok w =>
              rw [hs'] at ht hv
              cases ht
              simp only [Except.toOption, Option.map_some, Option.some.injEq] at hv
              exact hv
      rw [this]; rfl
    · exact nomatch hv
  unfold RenderEnv.detail
  rw [this]
  rfl

/-! ### times and durations -/

/-- a time difference of so many seconds, in Babel's words -/
def inWords (e : RenderEnv) (q : Rat) : Str := e.timedelta (roundEven (q * 1000000)) false

/-- a time difference that can be shown -/
def Showable (q : Rat) : Prop := -(999999999 * 86400) ≤ q ∧ q ≤ 999999999 * 86400

theorem roundEven_int (i : Int) : roundEven (i : Rat) = i := by
  unfold roundEven
  rw [Rat.floor_intCast]
  dsimp only
  rw [if_pos (by grind)]

theorem inWords_int (e : RenderEnv) (i : Int) : inWords e i = e.timedelta (i * 1000000) false := by
  unfold inWords
  have : ((i : Rat) * 1000000) = ((i * 1000000 : Int) : Rat) := by simp [Rat.intCast_mul]
  rw [this, roundEven_int]

theorem toStr_plain {e : RenderEnv} {q : Rat} (h : Showable q) : e.toStr (.rel q 0 0) = .ok (inWords e q) := by
  show e.relative q 0 0 = _
  unfold RenderEnv.relative inWords
  dsimp only
  have h0 : q - 0 = q := by grind
  rw [h0, timedeltaOf_ok h.1 h.2]
  rfl

theorem toStr_skew {e : RenderEnv} (ht : ∀ s, e.translate s = s) {q : Rat} (h : Showable q) :
    e.toStr (.rel q 0 2) = .ok (inWords e q ++ (if q > 0 then str " ahead" else str " behind")) := by
  show e.relative q 0 2 = _
  unfold RenderEnv.relative inWords
  dsimp only
  have h0 : q - 0 = q := by grind
  rw [h0, timedeltaOf_ok h.1 h.2]
  simp only [bind, Except.bind, pure, Except.pure, ht]
  rw [if_neg (by decide), if_pos (by decide)]
  split
  · rw [List.append_assoc]; rfl
  · rw [List.append_assoc]; rfl

theorem toStr_ago {e : RenderEnv} {u n : Rat} (h : Showable (u - n)) :
    e.toStr (.rel u n 1) = .ok (e.timedelta (roundEven ((u - n) * 1000000)) true) := by
  show e.relative u n 1 = _
  unfold RenderEnv.relative
  dsimp only
  rw [timedeltaOf_ok h.1 h.2]
  rfl

theorem Filled.text {val : Str → Option Str} (s : Str) (h : ∀ c ∈ s, c ≠ 37) {t text : Str} (hf : Filled val t text) : Filled val (s ++ t) (s ++ text) := by
  induction s with
  | nil => exact hf
  | cons c s ih => exact .char (h c (List.mem_cons_self ..)) (ih fun d hd => h d (List.mem_cons_of_mem _ hd))

/-- the summary of the note on a clock that is wrong -/
theorem summary_clock {e : RenderEnv} (ht : ∀ s, e.translate s = s) {x : Note} {s : Str} {k : Int} (hk : Showable k)
    (hx : Reports x s { cls := .DATE_INCORRECT, vars := [(str "clock_skew_string", .rel k 0 2)] }) :
    e.summary x.cls x.vars = .ok (str "The server's clock is " ++ inWords e k ++ (if k > 0 then str " ahead." else str " behind.")) := by
  refine C117_summary e hx ?_
  rw [ht]
  have h0 : ((k : Rat) > 0) = (k > 0) := by
    have : ((0 : Int) : Rat) < (k : Rat) ↔ (0 : Int) < k := Rat.intCast_lt_intCast
    exact propext this
  have hv : shownIn e { cls := .DATE_INCORRECT, vars := [(str "clock_skew_string", .rel k 0 2)] } (str "clock_skew_string") =
      some (inWords e k ++ (if k > 0 then str " ahead" else str " behind")) := by
    have h1 : shownIn e { cls := .DATE_INCORRECT, vars := [(str "clock_skew_string", .rel k 0 2)] } (str "clock_skew_string") = (e.toStr (.rel k 0 2)).toOption := by
      unfold shownIn
      rw [show ([(str "clock_skew_string", Val.rel k 0 2)].find? fun p => p.1 == str "clock_skew_string") = some (str "clock_skew_string", Val.rel k 0 2) from rfl]
    rw [h1, toStr_skew ht hk]
    simp only [h0]
    rfl
  have hf := Filled.text (str "The server's clock is ") (by decide) (Filled.var hv (by decide) (Filled.text (str ".") (by decide) .nil))
  have : str "The server's clock is " ++ inWords e k ++ (if k > 0 then str " ahead." else str " behind.") =
      str "The server's clock is " ++ (inWords e k ++ (if k > 0 then str " ahead" else str " behind") ++ (str "." ++ [])) := by
    split <;> simp only [List.append_assoc] <;> rfl
  rw [this]
  exact hf

theorem Each.partner {α β} {R : α → β → Prop} {as : List α} {bs : List β} (h : Each R as bs) {a : α} (ha : a ∈ as) : ∃ b ∈ bs, R a b := by
  induction h with
  | nil => exact nomatch ha
  | cons h _ ih =>
    rcases List.mem_cons.1 ha with rfl | ha
    · exact ⟨_, List.mem_cons_self .., h⟩
    · obtain ⟨b, hb, hr⟩ := ih ha
      exact ⟨b, List.mem_cons_of_mem _ hb, hr⟩

theorem Reported.partner {Xs : List NoteId} {m m' : Msg} {l : List (Str × Report)} (h : Reported Xs m m' l) :
    ∃ added, m'.notes = m.notes ++ added ∧ ∀ x ∈ added, x.cls ∈ Xs → ∃ p ∈ l, Reports x p.1 p.2 := by
  obtain ⟨added, e, ha⟩ := h
  refine ⟨added, e, fun x hx hc => ha.partner (List.mem_filter.2 ⟨hx, ?_⟩)⟩
  simpa using hc

variable {env : Env} {related : Option Msg} {ls : List Line} {m m' : Msg}

/-- **C117** (the clock) a note that the server's clock is wrong reads `The server's clock is 5 minutes ahead.`, in Babel's words for the difference between
`Date` and the time of reception less the age; and `behind` if `Date` is before that -/
theorem C117_clock (P : Processed env related false ls m m') (hk : m.kind = .response) (hu : Unpadded ls) (hp : dget m.headers.parsed (str "age") = none)
    (ht : ∀ s, env.render.translate s = s) :
    ∃ added, m'.notes = m.notes ++ added ∧ ∀ x ∈ added, x.cls = .DATE_INCORRECT →
      ∃ n ∈ namesFor .date_ ls, ∃ d now, timeOf env (textOf ls n) = some d ∧ m.startTime = some now ∧
        (Showable (d - F.truncRat now + ageSeen ls n : Int) → env.render.summary x.cls x.vars =
          .ok (str "The server's clock is " ++ inWords env.render (d - F.truncRat now + ageSeen ls n : Int) ++
            (if d + ageSeen ls n > F.truncRat now then str " ahead." else str " behind."))) := by
  obtain ⟨added, e, h⟩ := (C91_date_partial P hk hu hp).partner
  refine ⟨added, e, fun x hx hc => ?_⟩
  obtain ⟨p, hpm, hr⟩ := h x hx (by rw [hc]; simp)
  obtain ⟨n, hn, hpm⟩ := List.mem_flatMap.1 hpm
  split at hpm
  · rename_i d hd
    unfold dateReports at hpm
    split at hpm
    · rename_i now hnow
      have hst : m.startTime = some now := by
        unfold clock at hnow
        cases hs : m.startTime with
        | none => rw [hs] at hnow; exact nomatch hnow
        | some t =>
          rw [hs] at hnow
          dsimp only at hnow
          split at hnow
          · exact nomatch hnow
          · exact hnow
      split at hpm
      · exact nomatch hpm
      · split at hpm
        · rw [List.mem_singleton] at hpm
          subst hpm
          exact nomatch (show NoteId.DATE_INCORRECT = NoteId.AGE_PENALTY from hc.symm.trans hr.cls)
        · split at hpm
          · rw [List.mem_singleton] at hpm
            subst hpm
            refine ⟨n, hn, d, now, hd, hst, fun hs => ?_⟩
            have := summary_clock ht hs hr
            rw [this]
            by_cases h0 : d + ageSeen ls n > F.truncRat now
            · rw [if_pos h0, if_pos (by omega)]
            · rw [if_neg h0, if_neg (by omega)]
          · rw [List.mem_singleton] at hpm
            subst hpm
            exact nomatch (show NoteId.DATE_INCORRECT = NoteId.DATE_CORRECT from hc.symm.trans hr.cls)
    · exact nomatch hpm
  · exact nomatch hpm

/-- **C117** (Last-Modified) the note on a `Last-Modified` that isn't in the future reads `The resource last changed 5 minutes ago.`, in Babel's words for the
time since; so it never is an `in 5 minutes` -/
theorem C117_last_modified (P : Processed env related false ls m m') (hk : m.kind = .response) (hu : Unpadded ls) (hp : dget m.headers.parsed (str "date") = none)
    (ht : ∀ s, env.render.translate s = s) :
    ∃ added, m'.notes = m.notes ++ added ∧ ∀ x ∈ added, x.cls = .LM_PRESENT →
      ∃ n ∈ namesFor .last_modified_ ls, ∃ (changed : Int) (made : Rat), timeOf env (textOf ls n) = some changed ∧ madeAt env m ls n = some made ∧ (changed : Rat) ≤ made ∧
        (Showable (changed - made) → env.render.summary x.cls x.vars =
          .ok (str "The resource last changed " ++ env.render.timedelta (roundEven ((changed - made) * 1000000)) true ++ str ".")) := by
  obtain ⟨added, e, h⟩ := (C91_last_modified_partial P hk hu hp).partner
  refine ⟨added, e, fun x hx hc => ?_⟩
  obtain ⟨p, hpm, hr⟩ := h x hx (by rw [hc]; simp)
  obtain ⟨n, hn, hpm⟩ := List.mem_flatMap.1 hpm
  obtain ⟨r, hrm, rfl⟩ := List.mem_map.1 hpm
  unfold onParsed at hrm
  split at hrm
  · rename_i lm hlm
    unfold modifiedReports at hrm
    split at hrm
    · exact nomatch hrm
    · split at hrm
      · rename_i s hs
        rw [List.mem_singleton] at hrm
        subst hrm
        by_cases hg : (lm : Rat) > s
        · rw [if_pos hg] at hr
          exact nomatch (show NoteId.LM_PRESENT = NoteId.LM_FUTURE from hc.symm.trans hr.cls)
        · rw [if_neg hg] at hr
          refine ⟨n, hn, lm, s, hlm, hs, by grind, fun hsh => ?_⟩
          refine C117_summary env.render hr ?_
          rw [ht, List.append_assoc]
          have hv : shownIn env.render { cls := .LM_PRESENT, vars := [(str "last_modified_string", .rel lm s 1)] } (str "last_modified_string") =
              some (env.render.timedelta (roundEven ((lm - s) * 1000000)) true) := by
            unfold shownIn
            rw [show ([(str "last_modified_string", Val.rel lm s 1)].find? fun p => p.1 == str "last_modified_string") = some (str "last_modified_string", Val.rel lm s 1) from rfl]
            dsimp only
            rw [toStr_ago hsh]
            rfl
          exact Filled.text (str "The resource last changed ") (by decide) (Filled.var hv (by decide) (Filled.text (str ".") (by decide) .nil))
      · exact nomatch hrm
  · exact nomatch hrm

theorem truncRat_natAbs {q : Rat} (h : 0 ≤ q) : ((F.truncRat q).natAbs : Int) = F.truncRat q := by
  have : 0 ≤ F.truncRat q := by
    unfold F.truncRat
    rw [if_pos h]
    exact Rat.le_floor_iff.2 (by simpa using h)
  omega

/-- one of the rows -/
theorem Facts.mem_made {rows : List Facts.Row} {p : Str × Report} (h : p ∈ Facts.made rows) : ∃ r ∈ rows, r.made = true ∧ p = (r.subject, r.says) := by
  obtain ⟨r, hr, rfl⟩ := List.mem_map.1 h
  exact ⟨r, (List.mem_filter.1 hr).1, (List.mem_filter.1 hr).2, rfl⟩

/-- "fresh" or "stale" -/
def freshOrStale (b : Bool) : Str := if b then str "fresh" else str "stale"

/-- **C117** (caching) the notes on the age and the freshness of a response read `This response has already been cached for 5 minutes.` and
`This response is fresh for 1 hour.`, in Babel's words for the age and for what is left of its freshness lifetime, in whole seconds; or, if private and
shared caches differ, `This response is fresh for 1 hour (stale for 5 minutes in shared caches).` -/
theorem C117_caching {co ts rn} {f : Facts} (hr : Reachable env m) (hk : m.kind = .response) (h : Finishes env related co ts m m' rn)
    (hf : FactsOf m related f) {dateSent modifiedSent : Bool} (hd : dateSent = true ↔ Sent m (str "date"))
    (hl : modifiedSent = true ↔ Sent m (str "last-modified")) (ht : ∀ s, env.render.translate s = s) :
    ∃ vs, sel isCache m'.notes = sel isCache m.notes ++ vs ∧ ∀ x ∈ vs,
      (x.cls = .CURRENT_AGE → Showable f.currentAge → env.render.summary x.cls x.vars =
        .ok (str "This response has already been cached for " ++ inWords env.render f.currentAge ++ str ".")) ∧
      (x.cls = .FRESHNESS_FRESH → f.Fresh ∧ (Showable (F.truncRat (f.lifetimePrivate - f.currentAge)) → env.render.summary x.cls x.vars =
        .ok (str "This response is fresh for " ++ inWords env.render (F.truncRat (f.lifetimePrivate - f.currentAge)) ++ str "."))) ∧
      (x.cls = .FRESHNESS_SHARED_PRIVATE → Showable (F.truncRat (f.lifetimePrivate - f.currentAge)).natAbs → Showable (F.truncRat (f.lifetimeShared - f.currentAge)).natAbs →
        env.render.summary x.cls x.vars =
        .ok (str "This response is " ++ freshOrStale (decide (f.currentAge < f.lifetimePrivate)) ++ str " for " ++ inWords env.render (F.truncRat (f.lifetimePrivate - f.currentAge)).natAbs ++
          str " (" ++ freshOrStale (decide (f.currentAge < f.lifetimeShared)) ++ str " for " ++ inWords env.render (F.truncRat (f.lifetimeShared - f.currentAge)).natAbs ++ str " in shared caches).")) := by
  obtain ⟨vs, e, hv⟩ := C105_caching_report hr hk h hf hd hl
  refine ⟨vs, e, fun x hx => ?_⟩
  obtain ⟨p, hp, hrep⟩ := hv.partner hx
  obtain ⟨r, hrow, hmade, rfl⟩ := Facts.mem_made hp
  have key : ∀ c : NoteId, x.cls = c → r.says.cls = c := fun c hc => hrep.cls.symm.trans hc
  refine ⟨fun hc hs => ?_, fun hc => ?_, fun hc h1 h2 => ?_⟩
  · have hc' := key _ hc
    have hs' : r.says = { cls := .CURRENT_AGE, vars := [(str "age", .rel f.currentAge 0 0)] } := by
      simp only [Facts.dateRows, Facts.storeRows, Facts.ageRows, Facts.freshRows, Facts.staleRows, List.mem_append, List.mem_cons, List.not_mem_nil, or_false] at hrow
      rcases hrow with (((hrow | hrow) | hrow) | hrow) | hrow
      · rcases hrow with rfl | rfl <;> exact nomatch hc'
      · rcases hrow with rfl | rfl | rfl | rfl | rfl | rfl | rfl | rfl | rfl | rfl <;> exact nomatch hc'
      · subst hrow; rfl
      · rcases hrow with rfl | rfl | rfl | rfl | rfl | rfl | rfl | rfl | rfl <;> exact nomatch hc'
      · rcases hrow with rfl | rfl | rfl | rfl | rfl | rfl | rfl <;> exact nomatch hc'
    rw [hs'] at hrep
    refine C117_summary env.render hrep ?_
    rw [ht, List.append_assoc]
    have hv : shownIn env.render { cls := .CURRENT_AGE, vars := [(str "age", .rel f.currentAge 0 0)] } (str "age") = some (inWords env.render f.currentAge) := by
      unfold shownIn
      rw [show ([(str "age", Val.rel f.currentAge 0 0)].find? fun p => p.1 == str "age") = some (str "age", Val.rel f.currentAge 0 0) from rfl]
      dsimp only
      rw [toStr_plain hs]
      rfl
    exact Filled.text (str "This response has already been cached for ") (by decide) (Filled.var hv (by decide) (Filled.text (str ".") (by decide) .nil))
  · have hc' := key _ hc
    have hs' : f.Fresh ∧ r.says = { cls := .FRESHNESS_FRESH, vars := f.oneLifetime } := by
      simp only [Facts.dateRows, Facts.storeRows, Facts.ageRows, Facts.freshRows, Facts.staleRows, List.mem_append, List.mem_cons, List.not_mem_nil, or_false] at hrow
      rcases hrow with (((hrow | hrow) | hrow) | hrow) | hrow
      · rcases hrow with rfl | rfl <;> exact nomatch hc'
      · rcases hrow with rfl | rfl | rfl | rfl | rfl | rfl | rfl | rfl | rfl | rfl <;> exact nomatch hc'
      · subst hrow; exact nomatch hc'
      · rcases hrow with rfl | rfl | rfl | rfl | rfl | rfl | rfl | rfl | rfl <;> first | (cases hc'; done) | skip
        simp only [decide_eq_true_eq] at hmade
        exact ⟨hmade.2.2.2, rfl⟩
      · rcases hrow with rfl | rfl | rfl | rfl | rfl | rfl | rfl <;> exact nomatch hc'
    refine ⟨hs'.1, fun hs => ?_⟩
    rw [hs'.2] at hrep
    refine C117_summary env.render hrep ?_
    rw [ht, List.append_assoc]
    have hpos : (0 : Rat) ≤ f.lifetimePrivate - f.currentAge := by have := hs'.1; unfold Facts.Fresh at this; grind
    have hnn : (((F.truncRat (f.lifetimePrivate - f.currentAge)).natAbs : Nat) : Rat) = ((F.truncRat (f.lifetimePrivate - f.currentAge) : Int) : Rat) := by
      rw [← truncRat_natAbs hpos]; rfl
    have hv : shownIn env.render { cls := .FRESHNESS_FRESH, vars := f.oneLifetime } (str "freshness_left") = some (inWords env.render (F.truncRat (f.lifetimePrivate - f.currentAge))) := by
      unfold shownIn
      rw [show (f.oneLifetime.find? fun p => p.1 == str "freshness_left") = some (str "freshness_left", Facts.length (f.lifetimePrivate - f.currentAge)) from rfl]
      dsimp only
      unfold Facts.length
      rw [hnn, toStr_plain hs]
      rfl
    exact Filled.text (str "This response is fresh for ") (by decide) (Filled.var hv (by decide) (Filled.text (str ".") (by decide) .nil))
  · have hc' := key _ hc
    have hs' : r.says = { cls := .FRESHNESS_SHARED_PRIVATE, vars := f.twoLifetimes } := by
      simp only [Facts.dateRows, Facts.storeRows, Facts.ageRows, Facts.freshRows, Facts.staleRows, List.mem_append, List.mem_cons, List.not_mem_nil, or_false] at hrow
      rcases hrow with (((hrow | hrow) | hrow) | hrow) | hrow
      · rcases hrow with rfl | rfl <;> exact nomatch hc'
      · rcases hrow with rfl | rfl | rfl | rfl | rfl | rfl | rfl | rfl | rfl | rfl <;> exact nomatch hc'
      · subst hrow; exact nomatch hc'
      · rcases hrow with rfl | rfl | rfl | rfl | rfl | rfl | rfl | rfl | rfl <;> first | (cases hc'; done) | rfl
      · rcases hrow with rfl | rfl | rfl | rfl | rfl | rfl | rfl <;> exact nomatch hc'
    rw [hs'] at hrep
    refine C117_summary env.render hrep ?_
    rw [ht]
    let R : Report := { cls := .FRESHNESS_SHARED_PRIVATE, vars := f.twoLifetimes }
    have v1 : shownIn env.render R (str "private_status") = some (freshOrStale (decide f.Fresh)) := rfl
    have v2 : shownIn env.render R (str "shared_status") = some (freshOrStale (decide f.SharedFresh)) := rfl
    have v3 : shownIn env.render R (str "fresh_left") = some (inWords env.render (F.truncRat (f.lifetimePrivate - f.currentAge)).natAbs) := by
      unfold shownIn
      rw [show (R.vars.find? fun p => p.1 == str "fresh_left") = some (str "fresh_left", Facts.length (f.lifetimePrivate - f.currentAge)) from rfl]
      dsimp only
      unfold Facts.length
      rw [toStr_plain h1]
      rfl
    have v4 : shownIn env.render R (str "share_left") = some (inWords env.render (F.truncRat (f.lifetimeShared - f.currentAge)).natAbs) := by
      unfold shownIn
      rw [show (R.vars.find? fun p => p.1 == str "share_left") = some (str "share_left", Facts.length (f.lifetimeShared - f.currentAge)) from rfl]
      dsimp only
      unfold Facts.length
      rw [toStr_plain h2]
      rfl
    have hf := Filled.text (val := shownIn env.render R) (str "This response is ") (by decide) (Filled.var v1 (by decide) (Filled.text (str " for ") (by decide) (Filled.var v3 (by decide)
      (Filled.text (str " (") (by decide) (Filled.var v2 (by decide) (Filled.text (str " for ") (by decide) (Filled.var v4 (by decide) (Filled.text (str " in shared caches).") (by decide) .nil))))))))
    simp only [List.append_assoc]
    rw [List.append_nil] at hf
    exact hf

/-- the summaries of the notes on these header lines -/
def summariesOf (ls : List Line) : List (Except Exn Str) :=
  (processSection clockEnv none false ls (fresh clockEnv .response (some 1704164645) false false)).1.notes.map fun x => clockEnv.render.summary x.cls x.vars

/-- a clock that is six seconds ahead, and one that is behind -/
example : summariesOf [(str "Date", str "Tue, 02 Jan 2024 03:04:11 GMT"), (str "Last-Modified", str "Tue, 02 Jan 2024 03:04:04 GMT")] =
    [.ok (str "The server's clock is 6 seconds ahead."), .ok (str "The resource last changed 7 seconds ago.")] := by kernel_rfl

example : summariesOf [(str "Date", str "Tue, 02 Jan 2024 03:03:05 GMT")] = [.ok (str "The server's clock is 60 seconds behind.")] := by kernel_rfl

/-- a response that has been in a cache for ten seconds, and may be there for a minute -/
def tenSecondsOld (cc : Str) : List Op :=
  [.responseTopline (str "HTTP/1.1") (str "200") (some (str "OK")), .headers [(str "Cache-Control", cc), (str "Age", str "10")], .feed (str "hi"), .finish true []]

/-- the summaries of the notes on its age and freshness -/
def cachingSummaries (cc : Str) : List (Except Exn Str) :=
  (((Op.runAll toyEnv (tenSecondsOld cc) ⟨fresh toyEnv .response (some 1700000000) false false, none⟩).msg.notes.filter fun x =>
    [NoteId.CURRENT_AGE, .FRESHNESS_FRESH, .FRESHNESS_SHARED_PRIVATE].contains x.cls).map fun x => toyEnv.render.summary x.cls x.vars)

example : cachingSummaries (str "max-age=60") =
    [.ok (str "This response has already been cached for 10 seconds."), .ok (str "This response is fresh for 50 seconds.")] := by kernel_rfl

example : cachingSummaries (str "max-age=60, s-maxage=5") =
    [.ok (str "This response has already been cached for 10 seconds."),
     .ok (str "This response is fresh for 50 seconds (stale for 5 seconds in shared caches).")] := by kernel_rfl

end HL.Props
