import Verif.Props.MediaThm

/-!
# HTTP dates (C52)
-/

namespace HL.Props
open HL.RE HL.Syntax

/-! ### specification: RFC 9110 5.6.7, letters in either case -/

/-- one after the other -/
def Chain : List (Str → Prop) → Str → Prop
  | [], s => s = []
  | [p], s => p s
  | p :: ps, s => ∃ a b, s = a ++ b ∧ p a ∧ Chain ps b

/-- the text `t`, whatever the case of its letters -/
def CiText (t s : Str) : Prop := lower s = lower t
/-- one of these words -/
def OneOf (ts : List Str) (s : Str) : Prop := ∃ t ∈ ts, CiText t s
/-- so many digits -/
def Digits (n : Nat) (s : Str) : Prop := s.length = n ∧ ∀ c ∈ s, 48 ≤ c ∧ c ≤ 57
/-- these characters -/
def Text (t s : Str) : Prop := s = t

def weekdays : List Str := [str "Mon", str "Tue", str "Wed", str "Thu", str "Fri", str "Sat", str "Sun"]
def weekdaysLong : List Str := [str "Monday", str "Tuesday", str "Wednesday", str "Thursday", str "Friday", str "Saturday", str "Sunday"]
def monthNames : List Str := [str "Jan", str "Feb", str "Mar", str "Apr", str "May", str "Jun", str "Jul", str "Aug", str "Sep", str "Oct", str "Nov", str "Dec"]

/-- `hour ":" minute ":" second` -/
def TimeOfDay : Str → Prop := Chain [Digits 2, Text (str ":"), Digits 2, Text (str ":"), Digits 2]

/-- `Sun, 06 Nov 1994 08:49:37 GMT` -/
def ImfDate : Str → Prop := Chain [OneOf weekdays, Text (str ","), Text (str " "), Chain [Digits 2, Text (str " "), OneOf monthNames, Text (str " "), Digits 4],
  Text (str " "), TimeOfDay, Text (str " "), CiText (str "GMT")]

/-- `Sunday, 06-Nov-94 08:49:37 GMT` -/
def Rfc850Date : Str → Prop := Chain [OneOf weekdaysLong, Text (str ","), Text (str " "), Chain [Digits 2, Text (str "-"), OneOf monthNames, Text (str "-"), Digits 2],
  Text (str " "), TimeOfDay, Text (str " "), CiText (str "GMT")]

/-- `Sun Nov  6 08:49:37 1994` -/
def AscTime : Str → Prop := Chain [OneOf weekdays, Text (str " "),
  Chain [OneOf monthNames, Text (str " "), fun s => Digits 2 s ∨ Chain [Text (str " "), Digits 1] s],
  Text (str " "), TimeOfDay, Text (str " "), Digits 4]

/-- a date in a format that is obsolete -/
def ObsDate (s : Str) : Prop := Rfc850Date s ∨ AscTime s
/-- a date in any of the formats -/
def HttpDate (s : Str) : Prop := ImfDate s ∨ ObsDate s

/-! ### the grammar's regular expressions -/

theorem seqs_L (ic : Bool) : ∀ rs : List RE, (seqs rs).L ic = Chain (rs.map (RE.L ic))
  | [] => rfl
  | [r] => rfl
  | r :: r' :: rs => by
    funext s
    show (∃ s₁ s₂, s = s₁ ++ s₂ ∧ r.L ic s₁ ∧ (seqs (r' :: rs)).L ic s₂) = ∃ a b, s = a ++ b ∧ r.L ic a ∧ Chain ((r' :: rs).map (RE.L ic)) b
    rw [seqs_L ic (r' :: rs)]

theorem cset_lower : ∀ n < 128, ∀ c, csetHas true false [(n, n)] c = (lowerC c == lowerC n) := by
  intro n hn c
  by_cases hc : c < 256
  · have : ∀ n < 128, ∀ c < 256, csetHas true false [(n, n)] c = (lowerC c == lowerC n) := by decide +kernel
    exact this n hn c hc
  · have e : lowerC c = c := by unfold lowerC; rw [if_neg]; simp; omega
    have e2 : lowerC n < 256 := by unfold lowerC; split <;> omega
    rw [e, Bool.eq_iff_iff]
    simp [csetHas, big_variants hc, inRanges]
    omega

theorem lit_L {t : Str} (ht : ∀ c ∈ t, c < 128) : (lit t).L true = CiText t := by
  funext s
  apply propext
  unfold lit
  rw [seqs_L, List.map_map]
  unfold CiText
  induction t generalizing s with
  | nil =>
    show s = [] ↔ lower s = []
    exact lower_ne_nil.symm
  | cons n t ih =>
    have h1 : ∀ s, (ch n).L true s ↔ ∃ c, s = [c] ∧ lowerC c = lowerC n := by
      intro s
      show (∃ c, s = [c] ∧ csetHas true false [(n, n)] c = true) ↔ _
      simp only [cset_lower n (ht n (by simp)), beq_iff_eq]
    have ih' := ih fun c hc => ht c (by simp [hc])
    have key : (∃ a b, s = a ++ b ∧ (ch n).L true a ∧ lower b = lower t) ↔ lower s = lower (n :: t) := by
      simp only [h1]
      unfold lower
      constructor
      · rintro ⟨_, b, rfl, ⟨c, rfl, hc⟩, hb⟩
        simp [hc, hb]
      · intro h
        cases s with
        | nil => simp at h
        | cons c s =>
          simp at h
          exact ⟨[c], s, rfl, ⟨c, rfl, h.1⟩, h.2⟩
    rw [← key]
    cases t with
    | nil =>
      show (ch n).L true s ↔ _
      constructor
      · intro h; exact ⟨s, [], by simp, h, rfl⟩
      · rintro ⟨a, b, rfl, h, hb⟩
        rw [lower_ne_nil.1 hb, List.append_nil]; exact h
    | cons n' t =>
      show (∃ a b, s = a ++ b ∧ (ch n).L true a ∧ Chain (((n' :: t).map (RE.L true ∘ ch))) b) ↔ _
      simp only [ih']

theorem alts_lit {ts : List Str} (hne : ts ≠ []) (h : ∀ t ∈ ts, ∀ c ∈ t, c < 128) : (alts (ts.map lit)).L true = OneOf ts := by
  funext s
  apply propext
  unfold OneOf
  induction ts with
  | nil => exact absurd rfl hne
  | cons t ts ih =>
    cases ts with
    | nil =>
      show (lit t).L true s ↔ _
      rw [lit_L (h t (by simp))]
      simp
    | cons t' ts =>
      show (lit t).L true s ∨ (alts ((t' :: ts).map lit)).L true s ↔ _
      rw [lit_L (h t (by simp)), ih (by simp) fun x hx => h x (by simp [hx])]
      simp

theorem char_L (n : Nat) (h : n < 65) : (ch n).L true = Text [n] := by
  funext s
  apply propext
  exact ch_L n (by
    have : ∀ n < 65, caseVariants n = [n] := by decide
    exact this n h) (variants_plain h) true s

theorem digit_one : ∃ p, RE.one true rfc5234.DIGIT = some p ∧ ∀ c, p c = (decide (48 ≤ c) && decide (c ≤ 57)) := by
  refine ⟨_, rfl, ?_⟩
  intro c
  by_cases h : c < 256
  · revert c; decide +kernel
  · simp [csetHas, big_variants h, inRanges]

theorem digit_L : rfc5234.DIGIT.L true = Digits 1 := by
  funext s
  apply propext
  obtain ⟨p, hp, he⟩ := digit_one
  rw [one_L hp]
  unfold Digits
  simp only [he, Bool.and_eq_true, decide_eq_true_eq]
  constructor
  · rintro ⟨c, rfl, h⟩; exact ⟨rfl, fun d hd => by rw [List.mem_singleton.1 hd]; exact h⟩
  · rintro ⟨h1, h2⟩
    obtain ⟨c, rfl⟩ := List.length_eq_one_iff.1 h1
    exact ⟨c, rfl, h2 c (by simp)⟩

theorem Digits.append {a b : Nat} {s : Str} : Digits (a + b) s ↔ ∃ x y, s = x ++ y ∧ Digits a x ∧ Digits b y := by
  unfold Digits
  constructor
  · rintro ⟨h1, h2⟩
    refine ⟨s.take a, s.drop a, (List.take_append_drop a s).symm, ⟨by rw [List.length_take]; omega, fun c hc => h2 c (List.mem_of_mem_take hc)⟩,
      by rw [List.length_drop]; omega, fun c hc => h2 c (List.mem_of_mem_drop hc)⟩
  · rintro ⟨x, y, rfl, ⟨h1, h2⟩, h3, h4⟩
    refine ⟨by simp [h1, h3], ?_⟩
    intro c hc
    rcases List.mem_append.1 hc with hc | hc
    · exact h2 c hc
    · exact h4 c hc

theorem two_L : rfc9110.day.L true = Digits 2 := by
  unfold rfc9110.day
  rw [seqs_L, List.map_cons, List.map_cons, List.map_nil, digit_L]
  funext s
  exact propext (Digits.append (a := 1) (b := 1)).symm

theorem exact_L (n : Nat) : (RE.rep n (some n) false rfc5234.DIGIT).L true = Digits n := by
  funext s
  apply propext
  simp only [RE.L, digit_L]
  constructor
  · rintro ⟨ps, rfl, h1, h2, h3⟩
    have hl : ps.length = n := by have := h2 n rfl; omega
    subst hl
    clear h1 h2
    induction ps with
    | nil => exact ⟨rfl, by intro c hc; cases hc⟩
    | cons p ps ih =>
      rw [List.length_cons, Nat.add_comm, List.flatten_cons]
      exact Digits.append.2 ⟨p, _, rfl, h3 p (by simp), ih fun q hq => h3 q (by simp [hq])⟩
  · rintro ⟨h1, h2⟩
    refine ⟨s.map fun c => [c], ?_, by simp [h1], by simp [h1], ?_⟩
    · clear h1 h2
      induction s with
      | nil => rfl
      | cons c s ih => simp [← ih]
    · intro p hp
      obtain ⟨c, hc, rfl⟩ := List.mem_map.1 hp
      exact ⟨rfl, fun d hd => by rw [List.mem_singleton.1 hd]; exact h2 c hc⟩

theorem space_L : rfc5234.SP.L true = Text (str " ") := char_L 32 (by decide)

theorem time_L : rfc9110.time_of_day.L true = TimeOfDay := by
  unfold rfc9110.time_of_day TimeOfDay
  rw [seqs_L]
  simp only [List.map_cons, List.map_nil, two_L, char_L 58 (by decide)]

theorem month_L : rfc9110.month.L true = OneOf monthNames := alts_lit (ts := monthNames) (by decide) (by decide)
theorem weekday_L : rfc9110.day_name.L true = OneOf weekdays := alts_lit (ts := weekdays) (by decide) (by decide)
theorem weekdayLong_L : rfc9110.day_name_l.L true = OneOf weekdaysLong := alts_lit (ts := weekdaysLong) (by decide) (by decide)
theorem gmt_L : rfc9110.GMT.L true = CiText (str "GMT") := lit_L (by decide)

theorem imf_L : rfc9110.IMF_fixdate.L true = ImfDate := by
  unfold rfc9110.IMF_fixdate rfc9110.date1 rfc9110.year ImfDate
  simp only [seqs_L, List.map_cons, List.map_nil, weekday_L, char_L 44 (by decide), space_L, two_L, month_L, exact_L, time_L, gmt_L]

theorem rfc850_L : rfc9110.rfc850_date.L true = Rfc850Date := by
  unfold rfc9110.rfc850_date rfc9110.date2 Rfc850Date
  simp only [seqs_L, List.map_cons, List.map_nil, weekdayLong_L, char_L 44 (by decide), char_L 45 (by decide), space_L, two_L, month_L, exact_L, time_L, gmt_L]

theorem asctime_L : rfc9110.asctime_date.L true = AscTime := by
  unfold rfc9110.asctime_date rfc9110.date3 rfc9110.year AscTime
  have h : (alts [RE.rep 2 (some 2) false rfc5234.DIGIT, seqs [rfc5234.SP, rfc5234.DIGIT]]).L true = fun s => Digits 2 s ∨ Chain [Text (str " "), Digits 1] s := by
    funext s
    show (_ ∨ (seqs [rfc5234.SP, rfc5234.DIGIT]).L true s) = (_ ∨ _)
    rw [exact_L, seqs_L]
    simp only [List.map_cons, List.map_nil, space_L, digit_L]
  simp only [seqs_L, List.map_cons, List.map_nil, weekday_L, space_L, month_L, exact_L, time_L, h]

theorem obs_L (s : Str) : rfc9110.obs_date.L true s ↔ ObsDate s := by
  unfold rfc9110.obs_date ObsDate
  show _ ∨ rfc9110.asctime_date.L true s ↔ _
  rw [rfc850_L, asctime_L]

theorem date_L (s : Str) : rfc9110.HTTP_date.L true s ↔ HttpDate s := by
  unfold rfc9110.HTTP_date HttpDate
  show _ ∨ rfc9110.obs_date.L true s ↔ _
  rw [imf_L, obs_L]

/-! ### parse_http_date -/

/-- perhaps with a newline at its end (where Python's `$` matches) -/
def Lined (P : Str → Prop) (v : Str) : Prop := P v ∨ ∃ p, v = p ++ [10] ∧ P p

theorem matchFull_date (v : Str) : matchFull rfc9110.HTTP_date v = true ↔ Lined HttpDate v := by
  unfold matchFull Lined
  rw [fullEnd_iff]
  simp only [date_L]

theorem matchFull_obs (v : Str) : matchFull rfc9110.obs_date v = true ↔ Lined ObsDate v := by
  unfold matchFull Lined
  rw [fullEnd_iff]
  simp only [obs_L]

/-- the year meant by a two-digit year -/
def fullYear (y : Int) : Int := if y ≥ 100 then y else if y ≥ 69 then y + 1900 else y + 2000

/-- leap years of the Gregorian calendar -/
def Leap (y : Int) : Prop := 4 ∣ y ∧ (¬ 100 ∣ y ∨ 400 ∣ y)
instance (y : Int) : Decidable (Leap y) := inferInstanceAs (Decidable (_ ∧ _))

/-- the length of a month -/
def monthLength (y m : Int) : Int :=
  if m = 2 then (if Leap y then 29 else 28) else if m = 4 ∨ m = 6 ∨ m = 9 ∨ m = 11 then 30 else 31

/-- the day after -/
def nextDay (y m d : Int) : Int × Int × Int :=
  if d < monthLength y m then (y, m, d + 1) else if m < 12 then (y, m + 1, 1) else (y + 1, 1, 1)

/-- **C52** (syntax) a text that isn't an HTTP date: `BAD_DATE_SYNTAX` and nothing else is noted, and there is no value -/
theorem C52_bad_syntax (env : Env) (add : AddNote) (v : Str) (cat : Option Cat) (h : ¬ Lined HttpDate v) :
    (parseHttpDate env add v cat).res = .error .valueError ∧ (parseHttpDate env add v cat).notes.map tag = [(.BAD_DATE_SYNTAX, add.subject)] := by
  unfold parseHttpDate
  have : matchFull rfc9110.HTTP_date v = false := by
    rw [← Bool.not_eq_true]; exact fun e => h ((matchFull_date v).1 e)
  rw [this]
  exact ⟨rfl, rfl⟩

open Classical in
/-- **C52** (accepted) an HTTP date: `DATE_OBSOLETE` is noted exactly for the obsolete formats, nothing else is, and the
value is the time that the date library's reading of it stands for, with the century of a two-digit year added. -/
theorem C52_date (env : Env) (add : AddNote) (v : Str) (cat : Option Cat) (h : Lined HttpDate v) :
    (parseHttpDate env add v cat).notes.map tag = (if Lined ObsDate v then [(.DATE_OBSOLETE, add.subject)] else []) ∧
    (parseHttpDate env add v cat).res = (match env.parsedate v with
      | none => .error .valueError
      | some (y, mo, d, hh, mi, s) => timegm (fullYear y) mo d hh mi s) := by
  unfold parseHttpDate
  rw [(matchFull_date v).2 h, if_neg (by decide)]
  have hy : ∀ y : Int, (if y < 100 then (if y > 68 then y + 1900 else y + 2000) else y) = fullYear y := by
    intro y; unfold fullYear; split <;> split <;> (try split) <;> omega
  have ho := matchFull_obs v
  cases hm : matchFull rfc9110.obs_date v with
  | false =>
    rw [hm] at ho
    rw [if_neg (fun e => absurd (ho.2 e) (by decide))]
    cases hp : env.parsedate v with
    | none => exact ⟨rfl, rfl⟩
    | some p =>
      obtain ⟨y, mo, d, hh, mi, s⟩ := p
      dsimp only
      rw [hy]
      cases timegm (fullYear y) mo d hh mi s <;> exact ⟨rfl, rfl⟩
  | true =>
    rw [hm] at ho
    rw [if_pos (ho.1 rfl)]
    cases hp : env.parsedate v with
    | none => exact ⟨rfl, rfl⟩
    | some p =>
      obtain ⟨y, mo, d, hh, mi, s⟩ := p
      dsimp only
      rw [hy]
      cases timegm (fullYear y) mo d hh mi s <;> exact ⟨rfl, rfl⟩

/-! ### the calendar -/

theorem isLeap_iff (y : Int) : isLeap y = true ↔ Leap y := by
  unfold isLeap Leap
  simp only [Bool.and_eq_true, Bool.or_eq_true, beq_iff_eq, bne_iff_ne]
  omega

/-- the number of a day -/
def dayNumber (y m d : Int) : Int := ordinal1 y m - 719163 + d - 1

/-- **C52** (the calendar) the time of a date is so many days and seconds after the start of 1 January 1970, ... -/
theorem C52_timegm (y mo d h mi s : Int) (hy : 1 ≤ y ∧ y ≤ 9999) (hm : 1 ≤ mo ∧ mo ≤ 12) :
    timegm y mo d h mi s = .ok (86400 * dayNumber y mo d + 3600 * h + 60 * mi + s) := by
  unfold timegm
  rw [if_neg (by simp; omega)]
  unfold dayNumber
  dsimp only
  rw [Except.ok.injEq]
  generalize ordinal1 y mo = o
  omega

theorem C52_epoch : dayNumber 1970 1 1 = 0 := by decide

/-- ... and each day is one more than the day before -/
theorem C52_next_day (y m d : Int) (hy : 1 ≤ y) (hm : 1 ≤ m ∧ m ≤ 12) (hd : 1 ≤ d ∧ d ≤ monthLength y m) :
    dayNumber (nextDay y m d).1 (nextDay y m d).2.1 (nextDay y m d).2.2 = dayNumber y m d + 1 := by
  unfold nextDay
  split
  · unfold dayNumber; dsimp only; omega
  · have hd' : d = monthLength y m := by omega
    rw [hd']
    have hl := isLeap_iff y
    have hm' : m = 1 ∨ m = 2 ∨ m = 3 ∨ m = 4 ∨ m = 5 ∨ m = 6 ∨ m = 7 ∨ m = 8 ∨ m = 9 ∨ m = 10 ∨ m = 11 ∨ m = 12 := by omega
    unfold dayNumber ordinal1 daysBeforeMonth monthLength
    rcases hm' with rfl | rfl | rfl | rfl | rfl | rfl | rfl | rfl | rfl | rfl | rfl | rfl <;> by_cases hL : Leap y <;> simp [hl, hL, daysBeforeYear] <;> unfold Leap at hL <;> omega

/-! ### the fields -/

/-- a class of note that only `parse` of these field classes, all of which take one value, adds -/
structure ParseAmong (X : NoteId) (fs : List FieldId) : Prop where
  origin : X.origin = .field
  parse : ∀ g, g ∉ fs → (parseOwn g).contains X = false
  evaluate : ∀ g, (evalOwn g).contains X = false
  known : FieldId.unknownField ∉ fs
  kinds : ∀ f ∈ fs, f.info.kind = .singleton

/-- the names in a section that stand for one of these field classes -/
def namesAmong (fs : List FieldId) (ls : List Line) : List Str := (namesOf ls).filter fun n => fs.contains (classOf n)

theorem mem_namesAmong {fs ls n} : n ∈ namesAmong fs ls ↔ n ∈ namesOf ls ∧ classOf n ∈ fs := by
  unfold namesAmong; rw [List.mem_filter, List.contains_iff_mem]

theorem Processed.among_notes {env related t ls m m'} (P : Processed env related t ls m m') {X fs} (hX : ParseAmong X fs)
    (hv : ∀ f ∈ fs, f.validIn m.kind = true) (spec : Str → Bool)
    (hg : ∀ n ∈ namesAmong fs ls, (parseNotes ⟨env, m, related⟩ (classOf n) (textOf ls n)).count X = if spec n then 1 else 0) :
    AddedAbout X m m' (((namesAmong fs ls).filter spec).map fieldSubject) := by
  obtain ⟨added, ctx, e, hd, ht⟩ := section_ofClass X hX.origin P.linting P.new P.ok
  refine ⟨added, e, ?_⟩
  rw [ht]
  have h1 : ((numbered m.kind 0 ls).flatMap fun p => (countOf X (lineField ⟨env, m, related⟩ p.2)).map fun _ => offsetSubject p.1) = [] := by
    rw [flatMap_congr_mem (g := fun _ => []) (fun p _ => ?_)]
    · simp
    · by_cases hf : classOf (decodeName p.2.1) ∈ fs
      · rw [lineField_kind (by rw [hX.kinds _ hf]; simp)]; rfl
      · rw [countOf_lineField (hX.parse _ hf)]; rfl
  rw [h1, List.nil_append, ← flatMap_ite_map]
  unfold namesAmong
  rw [flatMap_filter_if]
  apply flatMap_congr_mem
  intro n hn
  rw [evalNotes_own _ _ _ (by rw [evalSetup_fid hn]; exact evalSetup_aux hn) (hX.evaluate _), List.map_nil, List.append_nil]
  by_cases hf : classOf n ∈ fs
  · rw [okName_class rfl (fun e => hX.known (e ▸ hf)), if_pos (hv _ hf), if_pos (List.contains_iff_mem.2 hf)]
    have hg' := hg n (mem_namesAmong.2 ⟨hn, hf⟩)
    unfold finishParse
    rw [hX.kinds _ hf]
    dsimp only
    unfold textOf at hg'
    rw [← sent_snd m.kind n ls] at hg'
    cases hs : sent m.kind n ls with
    | nil => exact absurd hs (sent_ne_nil hn)
    | cons p ps =>
      rw [hs] at hg'
      refine (tagged_filter _ _ _).trans ?_
      rw [countOf_replicate]
      refine (congrArg (fun k => List.replicate k (fieldSubject n)) hg').trans ?_
      cases spec n <;> rfl
  · rw [finishParse_own (hX.parse _ hf)]
    simp [hf]

/-- the fields whose value is an HTTP date -/
def dateFields : List FieldId := [.date_, .expires_, .last_modified_, .sunset_]

theorem date_fields_parse (c : Ctx) (f : FieldId) (hf : f ∈ dateFields) (v : Str) :
    (∃ cat, parseText c f v = (parseHttpDate c.env ⟨[], [], []⟩ v cat).res.map Val.int) ∧
    ∃ cat, parseNotes c f v = (parseHttpDate c.env ⟨[], [], []⟩ v cat).notes.map (·.cls) := by
  have key : ∀ cat, ((parseHttpDate c.env ⟨[], [], []⟩ v cat) >>= fun n => (pure (Val.int n) : W Val)).res = (parseHttpDate c.env ⟨[], [], []⟩ v cat).res.map Val.int ∧
      ((parseHttpDate c.env ⟨[], [], []⟩ v cat) >>= fun n => (pure (Val.int n) : W Val)).notes = (parseHttpDate c.env ⟨[], [], []⟩ v cat).notes := by
    intro cat
    cases hr : (parseHttpDate c.env ⟨[], [], []⟩ v cat).res with
    | error e => rw [W.bind_err hr]; exact ⟨rfl, rfl⟩
    | ok a => rw [W.bind_ok hr]; exact ⟨rfl, List.append_nil _⟩
  simp only [dateFields, List.mem_cons, List.not_mem_nil, or_false] at hf
  rcases hf with rfl | rfl | rfl | rfl
  · exact ⟨⟨_, (key (some FieldId.date_.info.category)).1⟩, _, congrArg (List.map fun x : Note => x.cls) (key (some FieldId.date_.info.category)).2⟩
  · exact ⟨⟨_, (key (some FieldId.expires_.info.category)).1⟩, _, congrArg (List.map fun x : Note => x.cls) (key (some FieldId.expires_.info.category)).2⟩
  · exact ⟨⟨_, (key (some FieldId.last_modified_.info.category)).1⟩, _, congrArg (List.map fun x : Note => x.cls) (key (some FieldId.last_modified_.info.category)).2⟩
  · exact ⟨⟨_, (key (some FieldId.sunset_.info.category)).1⟩, _, congrArg (List.map fun x : Note => x.cls) (key (some FieldId.sunset_.info.category)).2⟩

theorem strip_not_nl (s : Str) (P : Str → Prop) : Lined P (strip s) ↔ P (strip s) := by
  unfold Lined
  constructor
  · rintro (h | ⟨p, h, _⟩)
    · exact h
    · exact absurd (strip_last s p 10 h) (by decide)
  · exact .inl

theorem date_bad_among : ParseAmong .BAD_DATE_SYNTAX dateFields := ⟨rfl, fun g => by cases g <;> decide, fun g => by cases g <;> decide, by decide, by decide⟩
theorem date_obs_among : ParseAmong .DATE_OBSOLETE dateFields := ⟨rfl, fun g => by cases g <;> decide, fun g => by cases g <;> decide, by decide, by decide⟩

open Classical in
/-- **C52** (in a response) for `Date`, `Expires`, `Last-Modified` and `Sunset`, `BAD_DATE_SYNTAX` is added exactly for those
whose text isn't an HTTP date and `DATE_OBSOLETE` exactly for those in an obsolete format. -/
theorem C52_notes {env related t ls m m'} (P : Processed env related t ls m m') (hk : m.kind = .response) :
    AddedAbout .BAD_DATE_SYNTAX m m' (((namesAmong dateFields ls).filter fun n => decide (¬ HttpDate (textOf ls n))).map fieldSubject) ∧
    AddedAbout .DATE_OBSOLETE m m' (((namesAmong dateFields ls).filter fun n => decide (ObsDate (textOf ls n))).map fieldSubject) := by
  have hv : ∀ f ∈ dateFields, f.validIn m.kind = true := by rw [hk]; decide
  have key : ∀ n ∈ namesAmong dateFields ls, parseNotes ⟨env, m, related⟩ (classOf n) (textOf ls n) =
      if HttpDate (textOf ls n) then (if ObsDate (textOf ls n) then [.DATE_OBSOLETE] else []) else [.BAD_DATE_SYNTAX] := by
    intro n hn
    obtain ⟨_, cat, h⟩ := date_fields_parse ⟨env, m, related⟩ _ (mem_namesAmong.1 hn).2 (textOf ls n)
    rw [h]
    have hs : ∀ P, Lined P (textOf ls n) ↔ P (textOf ls n) := fun P => strip_not_nl _ P
    have hc : ∀ ns : List Note, ns.map (·.cls) = (ns.map tag).map (·.1) := fun ns => by rw [List.map_map]; rfl
    by_cases hd : HttpDate (textOf ls n)
    · rw [if_pos hd, hc, (C52_date env _ _ cat ((hs _).2 hd)).1]
      by_cases ho : ObsDate (textOf ls n)
      · rw [if_pos ((hs _).2 ho), if_pos ho]; rfl
      · rw [if_neg (fun x => ho ((hs _).1 x)), if_neg ho]; rfl
    · rw [if_neg hd, hc, (C52_bad_syntax env _ _ cat (fun x => hd ((hs _).1 x))).2]; rfl
  constructor
  · refine P.among_notes date_bad_among hv _ fun n hn => ?_
    rw [key n hn]
    by_cases hd : HttpDate (textOf ls n)
    · rw [if_pos hd]
      by_cases ho : ObsDate (textOf ls n)
      · rw [if_pos ho]; simp [hd]
      · rw [if_neg ho]; simp [hd]
    · rw [if_neg hd]; simp [hd]
  · refine P.among_notes date_obs_among hv _ fun n hn => ?_
    rw [key n hn]
    by_cases hd : HttpDate (textOf ls n)
    · rw [if_pos hd]
      by_cases ho : ObsDate (textOf ls n)
      · rw [if_pos ho]; simp [ho]
      · rw [if_neg ho]; simp [ho]
    · rw [if_neg hd]
      have : ¬ ObsDate (textOf ls n) := fun ho => hd (.inr ho)
      simp [this]

/-- **C52** (recorded) and the parsed value of those that are HTTP dates, and that the date library can read, is the time;
of the others, `None`. -/
theorem C52_recorded {env related t ls m m'} (P : Processed env related t ls m m') (hu : Unpadded ls) (hk : m.kind = .response) (n : Str) (hn : n ∈ namesAmong dateFields ls) :
    (HttpDate (textOf ls n) → ∀ y mo d h mi s, env.parsedate (textOf ls n) = some (y, mo, d, h, mi, s) → 1 ≤ fullYear y ∧ fullYear y ≤ 9999 → 1 ≤ mo ∧ mo ≤ 12 →
      dget (m'.section t).parsed n = some (.int (86400 * dayNumber (fullYear y) mo d + 3600 * h + 60 * mi + s))) ∧
    (¬ HttpDate (textOf ls n) ∨ env.parsedate (textOf ls n) = none → dget (m'.section t).parsed n = some .none) := by
  obtain ⟨hn1, hn2⟩ := mem_namesAmong.1 hn
  have hv : ∀ f ∈ dateFields, f.validIn m.kind = true := by rw [hk]; decide
  have hne : ∀ f ∈ dateFields, f ≠ .unknownField := by decide
  have hs : ∀ P, Lined P (textOf ls n) ↔ P (textOf ls n) := fun P => strip_not_nl _ P
  have e := P.singleton hu (f := classOf n) (date_bad_among.kinds _ hn2) (hne _ hn2) (mem_namesFor.2 ⟨hn1, rfl⟩) (hv _ hn2)
  obtain ⟨⟨cat, h⟩, _⟩ := date_fields_parse ⟨env, m, related⟩ _ hn2 (textOf ls n)
  rw [e, h]
  constructor
  · intro hd y mo d hh mi s hp h1 h2
    rw [(C52_date env _ _ cat ((hs _).2 hd)).2, hp]
    dsimp only
    rw [C52_timegm _ _ _ _ _ _ h1 h2]
    rfl
  · intro hor
    by_cases hd : HttpDate (textOf ls n)
    · rcases hor with hor | hor
      · exact absurd hd hor
      · rw [(C52_date env _ _ cat ((hs _).2 hd)).2, hor]; rfl
    · rw [(C52_bad_syntax env _ _ cat (fun x => hd ((hs _).1 x))).1]; rfl

/-- the three formats of RFC 9110's example, and something else -/
example : HttpDate (str "Sun, 06 Nov 1994 08:49:37 GMT") ∧ ¬ ObsDate (str "Sun, 06 Nov 1994 08:49:37 GMT") ∧ ObsDate (str "Sunday, 06-Nov-94 08:49:37 GMT") ∧
    ObsDate (str "sun nov  6 08:49:37 1994") ∧ ¬ HttpDate (str "Sun, 6 Nov 1994 08:49:37 GMT") := by
  simp only [← date_L, ← obs_L, L_iff_run]
  decide +kernel

example : dayNumber 2000 3 1 = dayNumber 2000 2 28 + 2 ∧ dayNumber 1900 3 1 = dayNumber 1900 2 28 + 1 ∧ fullYear 69 = 1969 ∧ fullYear 68 = 2068 := by decide

end HL.Props
