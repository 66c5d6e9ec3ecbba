import Verif.Props.DateThm

/-!
# Cookie dates (C62)
-/

namespace HL.Props
open HL.F

/-! ### specification -/

/-- characters that separate the parts of a date: tab, and every ASCII punctuation character or space except the colon -/
def Separates (c : Nat) : Prop := c = 9 ∨ (32 ≤ c ∧ c ≤ 47) ∨ (59 ≤ c ∧ c ≤ 64) ∨ (91 ≤ c ∧ c ≤ 96) ∨ (123 ≤ c ∧ c ≤ 126)

/-- `s` is these words, with one separator after each of them but the last -/
inductive Words : List Str → Str → Prop
  | last (w : Str) : (∀ c ∈ w, ¬ Separates c) → Words [w] w
  | next (w : Str) (d : Nat) (ws : List Str) (s : Str) : (∀ c ∈ w, ¬ Separates c) → Separates d → Words ws s → Words (w :: ws) (w ++ d :: s)

/-- the digit `d` as a character -/
def Digit (d c : Nat) : Prop := d ≤ 9 ∧ c = 48 + d

/-- the word begins with a time of day: three pairs of digits with colons between them -/
def ReadsTime (w : Str) (h m s : Nat) : Prop :=
  ∃ a b c d e f a' b' c' d' e' f' r, Digit a a' ∧ Digit b b' ∧ Digit c c' ∧ Digit d d' ∧ Digit e e' ∧ Digit f f' ∧
    w = [a', b', 58, c', d', 58, e', f'] ++ r ∧ h = 10 * a + b ∧ m = 10 * c + d ∧ s = 10 * e + f

/-- does not begin with a digit -/
def NoDigitFirst (r : Str) : Prop := ∀ c ∈ r.head?, ¬ (48 ≤ c ∧ c ≤ 57)

/-- the word begins with a digit, which with a second digit after it makes the day -/
def ReadsDay (w : Str) (n : Nat) : Prop :=
  (∃ a a' b b' r, Digit a a' ∧ Digit b b' ∧ w = a' :: b' :: r ∧ n = 10 * a + b) ∨
  (∃ a a' r, Digit a a' ∧ NoDigitFirst r ∧ w = a' :: r ∧ n = a)

/-- the first three letters are those of the name of the `n`th month -/
def ReadsMonth (w : Str) (n : Nat) : Prop := ∃ name, 1 ≤ n ∧ monthNames[n - 1]? = some name ∧ CiText name (w.take 3)

/-- the number these digits write -/
def number (ds : Str) : Nat := ds.foldl (fun n c => 10 * n + (c - 48)) 0

/-- the word begins with two to four digits (and no more than that, unless there are four), which make the year -/
def ReadsYear (w : Str) (n : Nat) : Prop :=
  ∃ ds r, w = ds ++ r ∧ (∀ c ∈ ds, 48 ≤ c ∧ c ≤ 57) ∧ 2 ≤ ds.length ∧ ds.length ≤ 4 ∧ (ds.length = 4 ∨ NoDigitFirst r) ∧ n = number ds

/-- word number `i` is the first such word that isn't spoken for -/
def FirstWord (ws : List Str) (P : Str → Prop) (taken : List Nat) (i : Nat) : Prop :=
  i ∉ taken ∧ (∃ w, ws[i]? = some w ∧ P w) ∧ ∀ j < i, ∀ w, ws[j]? = some w → P w → j ∈ taken

/-- two-digit years -/
def windowed (y : Nat) : Nat := if y ≤ 69 then y + 2000 else if y ≤ 99 then y + 1900 else y

/-- the date that `s` says, and the moment it is: the first word that reads as a time is the time, the first other
word that reads as a day is the day, the first that reads as a month is the month, and the first that reads as a
year and is neither time nor day is the year -/
def Says (s : Str) (t : Int) : Prop :=
  ∃ ws it id im iy h mi sec d mo y, Words ws s ∧
    FirstWord ws (fun w => ∃ h m s, ReadsTime w h m s) [] it ∧ (∃ w, ws[it]? = some w ∧ ReadsTime w h mi sec) ∧
    FirstWord ws (fun w => ∃ d, ReadsDay w d) [it] id ∧ (∃ w, ws[id]? = some w ∧ ReadsDay w d) ∧
    FirstWord ws (fun w => ∃ m, ReadsMonth w m) [] im ∧ (∃ w, ws[im]? = some w ∧ ReadsMonth w mo) ∧
    FirstWord ws (fun w => ∃ y, ReadsYear w y) [it, id] iy ∧ (∃ w, ws[iy]? = some w ∧ ReadsYear w y) ∧
    (1 ≤ d ∧ d ≤ 31) ∧ 1601 ≤ windowed y ∧ h ≤ 23 ∧ mi ≤ 59 ∧ sec ≤ 59 ∧
    t = 86400 * dayNumber (windowed y) mo d + 3600 * h + 60 * mi + sec

/-! ### words -/

theorem cookieDelim_iff (c : Nat) : cookieDelim c = true ↔ Separates c := by
  unfold cookieDelim Separates
  simp only [Bool.or_eq_true, Bool.and_eq_true, beq_iff_eq, decide_eq_true_eq]
  omega

theorem splitP_ne (p : Nat → Bool) (s : Str) : splitP p s ≠ [] := by
  cases s with
  | nil => simp [splitP]
  | cons x xs => unfold splitP; split; simp; split <;> simp

theorem splitP_word {p : Nat → Bool} {w : Str} (h : ∀ c ∈ w, p c = false) : splitP p w = [w] := by
  induction w with
  | nil => rfl
  | cons x xs ih =>
    rw [splitP, if_neg (by rw [h x (List.mem_cons_self ..)]; simp), ih (fun c hc => h c (List.mem_cons_of_mem _ hc))]

theorem splitP_next {p : Nat → Bool} {w : Str} {d : Nat} {s : Str} (h : ∀ c ∈ w, p c = false) (hd : p d = true) :
    splitP p (w ++ d :: s) = w :: splitP p s := by
  induction w with
  | nil => rw [List.nil_append, splitP, if_pos hd]
  | cons x xs ih =>
    rw [List.cons_append, splitP, if_neg (by rw [h x (List.mem_cons_self ..)]; simp), ih (fun c hc => h c (List.mem_cons_of_mem _ hc))]

theorem words_iff (ws : List Str) (s : Str) : Words ws s ↔ ws = splitP cookieDelim s := by
  have np : ∀ {w : Str}, (∀ c ∈ w, ¬ Separates c) → ∀ c ∈ w, cookieDelim c = false := by
    intro w h c hc
    have := h c hc
    rw [← cookieDelim_iff] at this
    simpa using this
  constructor
  · intro h
    induction h with
    | last w hw => exact (splitP_word (np hw)).symm
    | next w d ws s hw hd _ ih => rw [splitP_next (np hw) ((cookieDelim_iff d).2 hd), ih]
  · rintro rfl
    induction s with
    | nil => exact .last [] (by simp)
    | cons x xs ih =>
      rw [splitP]
      by_cases hx : cookieDelim x = true
      · rw [if_pos hx]
        exact .next [] x _ xs (by simp) ((cookieDelim_iff x).1 hx) ih
      · rw [if_neg hx]
        have hx' : ¬ Separates x := fun h => hx ((cookieDelim_iff x).2 h)
        cases hs : splitP cookieDelim xs with
        | nil => exact absurd hs (splitP_ne _ _)
        | cons w ws =>
          rw [hs] at ih
          dsimp only
          cases ih with
          | last _ hw =>
            refine .last _ ?_
            intro c hc
            rcases List.mem_cons.1 hc with rfl | hc
            · exact hx'
            · exact hw c hc
          | next _ d _ s' hw hd hs' =>
            refine .next (x :: w) d ws s' ?_ hd hs'
            intro c hc
            rcases List.mem_cons.1 hc with rfl | hc
            · exact hx'
            · exact hw c hc

/-! ### reading words -/

theorem dig_iff (c d : Nat) : dig c = some d ↔ Digit d c := by
  unfold dig Digit isAsciiDigit
  split
  · rename_i h
    simp at h
    simp; omega
  · rename_i h
    simp at h
    simp; omega

theorem matchTime_iff (w : Str) (h m s : Nat) : matchTime w = some (h, m, s) ↔ ReadsTime w h m s := by
  constructor
  · intro e
    unfold matchTime at e
    split at e
    · rename_i a' b' c' d' e' f' r
      simp only [Option.bind_eq_bind, Option.bind_eq_some_iff, Option.pure_def, Option.some.injEq, Prod.mk.injEq, dig_iff] at e
      obtain ⟨a, ha, b, hb, c, hc, d, hd, e1, he, f, hf, q1, q2, q3⟩ := e
      exact ⟨a, b, c, d, e1, f, a', b', c', d', e', f', r, ha, hb, hc, hd, he, hf, rfl, q1.symm, q2.symm, q3.symm⟩
    · cases e
  · rintro ⟨a, b, c, d, e1, f, a', b', c', d', e', f', r, ha, hb, hc, hd, he, hf, rfl, rfl, rfl, rfl⟩
    simp only [List.cons_append, matchTime, (dig_iff _ _).2 ha, (dig_iff _ _).2 hb, (dig_iff _ _).2 hc, (dig_iff _ _).2 hd, (dig_iff _ _).2 he, (dig_iff _ _).2 hf]
    rfl

theorem dig_none (c : Nat) : dig c = none ↔ ¬ (48 ≤ c ∧ c ≤ 57) := by
  unfold dig isAsciiDigit
  simp

theorem matchDay_iff (w : Str) (n : Nat) : matchDay w = some n ↔ ReadsDay w n := by
  constructor
  · intro e
    unfold matchDay at e
    split at e
    · cases e
    · rename_i a'
      exact .inr ⟨n, a', [], (dig_iff _ _).1 e, by simp [NoDigitFirst], rfl, rfl⟩
    · rename_i a' b' r
      simp only [Option.bind_eq_bind, Option.bind_eq_some_iff] at e
      obtain ⟨a, ha, e⟩ := e
      split at e
      · rename_i b hb
        simp at e
        exact .inl ⟨a, a', b, b', r, (dig_iff _ _).1 ha, (dig_iff _ _).1 hb, rfl, e.symm⟩
      · rename_i hb
        simp at e
        refine .inr ⟨a, a', b' :: r, (dig_iff _ _).1 ha, ?_, rfl, e.symm⟩
        intro c hc
        cases hc
        exact (dig_none _).1 hb
  · rintro (⟨a, a', b, b', r, ha, hb, rfl, rfl⟩ | ⟨a, a', r, ha, hr, rfl, rfl⟩)
    · simp [matchDay, (dig_iff _ _).2 ha, (dig_iff _ _).2 hb]
    · cases r with
      | nil => exact (dig_iff _ _).2 ha
      | cons b r =>
        have : dig b = none := (dig_none _).2 (hr b rfl)
        simp [matchDay, (dig_iff _ _).2 ha, this]

theorem matchMonth_iff (w : Str) (n : Nat) : matchMonth w = some n ↔ ReadsMonth w n := by
  unfold matchMonth ReadsMonth CiText
  have hl : ∀ i : Nat, months[i]? = (monthNames[i]?).map lower := by
    intro i
    have : months = monthNames.map lower := by decide
    rw [this, List.getElem?_map]
  have hnd : ∀ i < 12, ∀ j < 12, months[i]? = months[j]? → i = j := by decide
  constructor
  · intro e
    cases hf : months.findIdx? (· == lower (w.take 3)) with
    | none => rw [hf] at e; cases e
    | some i =>
      rw [hf] at e
      cases e
      rw [List.findIdx?_eq_some_iff_getElem] at hf
      obtain ⟨hi, hb, _⟩ := hf
      have h1 : months[i]? = some months[i] := List.getElem?_eq_getElem hi
      rw [hl, Option.map_eq_some_iff] at h1
      obtain ⟨nm, hnm, h2⟩ := h1
      refine ⟨nm, by simp, by simpa using hnm, ?_⟩
      rw [h2]
      simpa using (beq_iff_eq.1 hb).symm
  · rintro ⟨nm, hn, hnm, e⟩
    have h1 : months[n - 1]? = some (lower (w.take 3)) := by rw [hl, hnm]; simp [e]
    have hlt : n - 1 < months.length := by
      rcases Nat.lt_or_ge (n - 1) months.length with h | h
      · exact h
      · rw [List.getElem?_eq_none h] at h1; cases h1
    have : months.findIdx? (· == lower (w.take 3)) = some (n - 1) := by
      rw [List.findIdx?_eq_some_iff_getElem]
      refine ⟨hlt, ?_, ?_⟩
      · rw [List.getElem?_eq_getElem hlt] at h1
        simpa using h1
      · intro j hj hb
        have hj' : j < months.length := by omega
        have : months[j]? = months[n - 1]? := by
          rw [List.getElem?_eq_getElem hj', h1]
          simpa using hb
        have l12 : months.length = 12 := by decide
        have := hnd j (by omega) (n - 1) (by omega) this
        omega
    rw [this]
    simp
    omega

theorem asciiDigit_iff (c : Nat) : isAsciiDigit c = true ↔ 48 ≤ c ∧ c ≤ 57 := by
  unfold isAsciiDigit; simp

theorem takeWhile_run {p : Nat → Bool} {ds r : Str} (h : ∀ c ∈ ds, p c = true) : (ds ++ r).takeWhile p = ds ++ r.takeWhile p := by
  induction ds with
  | nil => rfl
  | cons x xs ih =>
    rw [List.cons_append, List.takeWhile_cons, if_pos (h x (List.mem_cons_self ..)), ih (fun c hc => h c (List.mem_cons_of_mem _ hc))]
    rfl

theorem digitsVal_number (ds : Str) : digitsVal ds = number ds := rfl

theorem mem_takeWhile_p {p : Nat → Bool} {s : Str} {c : Nat} (h : c ∈ s.takeWhile p) : p c = true := by
  induction s with
  | nil => cases h
  | cons x xs ih =>
    rw [List.takeWhile_cons] at h
    split at h
    · rcases List.mem_cons.1 h with rfl | h
      · assumption
      · exact ih h
    · cases h

theorem dropWhile_first {p : Nat → Bool} {s : Str} {c : Nat} (h : c ∈ (s.dropWhile p).head?) : p c = false := by
  induction s with
  | nil => cases h
  | cons x xs ih =>
    rw [List.dropWhile_cons] at h
    split at h
    · exact ih h
    · rename_i hx
      cases h
      simpa using hx

theorem matchYear_iff (w : Str) (n : Nat) : matchYear w = some n ↔ ReadsYear w n := by
  unfold matchYear ReadsYear
  dsimp only
  constructor
  · intro e
    split at e
    · cases e
    · rename_i hl
      cases e
      have hw : w = w.takeWhile isAsciiDigit ++ w.dropWhile isAsciiDigit := (List.takeWhile_append_dropWhile).symm
      have hp : ∀ c ∈ w.takeWhile isAsciiDigit, 48 ≤ c ∧ c ≤ 57 := fun c hc => (asciiDigit_iff c).1 (mem_takeWhile_p hc)
      rcases Nat.lt_or_ge (w.takeWhile isAsciiDigit).length 4 with h | h
      · rw [List.take_of_length_le (by omega)] at hl ⊢
        refine ⟨_, _, hw, hp, by omega, by omega, .inr ?_, rfl⟩
        intro c hc
        rw [← asciiDigit_iff, dropWhile_first hc]
        simp
      · refine ⟨(w.takeWhile isAsciiDigit).take 4, (w.takeWhile isAsciiDigit).drop 4 ++ w.dropWhile isAsciiDigit, ?_, ?_, by omega, ?_, .inl ?_, rfl⟩
        · rw [← List.append_assoc, List.take_append_drop]
          exact hw
        · exact fun c hc => hp c (List.mem_of_mem_take hc)
        · exact List.length_take_le _ _
        · rw [List.length_take]; omega
  · rintro ⟨ds, r, rfl, hd, h2, h4, hr, rfl⟩
    have e : ((ds ++ r).takeWhile isAsciiDigit).take 4 = ds := by
      rw [takeWhile_run (fun c hc => (asciiDigit_iff c).2 (hd c hc))]
      rcases hr with h | h
      · rw [← h, List.take_left']
        rfl
      · have : r.takeWhile isAsciiDigit = [] := by
          cases r with
          | nil => rfl
          | cons x xs =>
            rw [List.takeWhile_cons, if_neg]
            rw [asciiDigit_iff]
            exact h x rfl
        rw [this, List.append_nil, List.take_of_length_le h4]
    rw [e, if_neg (by omega), digitsVal_number]

/-! ### the loop -/

theorem snoc_ind {α : Type} {P : List α → Prop} (h0 : P []) (hs : ∀ l x, P l → P (l ++ [x])) : ∀ l, P l := by
  intro l
  rw [← List.reverse_reverse l]
  induction l.reverse with
  | nil => exact h0
  | cons x xs ih => rw [List.reverse_cons]; exact hs _ _ ih

/-- word number … that was taken for the time -/
def timeAt (ws : List Str) : Option (Str × Nat) := ws.zipIdx.find? fun x => (matchTime x.1).isSome
def dayAt (ws : List Str) : Option (Str × Nat) := ws.zipIdx.find? fun x => (matchDay x.1).isSome && (timeAt ws).map (·.2) != some x.2
def monthAt (ws : List Str) : Option (Str × Nat) := ws.zipIdx.find? fun x => (matchMonth x.1).isSome
def yearAt (ws : List Str) : Option (Str × Nat) := ws.zipIdx.find? fun x => (matchYear x.1).isSome && (timeAt ws).map (·.2) != some x.2 && (dayAt ws).map (·.2) != some x.2

theorem zipIdx_snoc (ws : List Str) (x : Str) : (ws ++ [x]).zipIdx = ws.zipIdx ++ [(x, ws.length)] := by
  rw [List.zipIdx_append]; simp

theorem zipIdx_lt {ws : List Str} {x : Str × Nat} (h : x ∈ ws.zipIdx) : x.2 < ws.length := by
  have := List.snd_lt_of_mem_zipIdx h
  simpa using this

theorem timeAt_snoc (ws : List Str) (x : Str) : timeAt (ws ++ [x]) = (timeAt ws).or (if (matchTime x).isSome then some (x, ws.length) else none) := by
  unfold timeAt
  rw [zipIdx_snoc, List.find?_append, List.find?_singleton]

theorem monthAt_snoc (ws : List Str) (x : Str) : monthAt (ws ++ [x]) = (monthAt ws).or (if (matchMonth x).isSome then some (x, ws.length) else none) := by
  unfold monthAt
  rw [zipIdx_snoc, List.find?_append, List.find?_singleton]

theorem find_congr {α : Type} {p q : α → Bool} {l : List α} (h : ∀ x ∈ l, p x = q x) : l.find? p = l.find? q := by
  induction l with
  | nil => rfl
  | cons a l ih => rw [List.find?_cons, List.find?_cons, h a (List.mem_cons_self ..), ih (fun x hx => h x (List.mem_cons_of_mem _ hx))]

theorem snoc_ne {o : Option (Str × Nat)} {b : Bool} {x : Str} {n m : Nat} (h : m < n) :
    ((o.or (if b then some (x, n) else none)).map (·.2) != some m) = (o.map (·.2) != some m) := by
  cases o with
  | some y => rfl
  | none =>
    cases b
    · rfl
    · show (some n != some m) = true
      rw [bne_iff_ne]
      intro h'
      cases h'
      omega

theorem at_lt {p : Str × Nat → Bool} {ws : List Str} {y : Str × Nat} (h : ws.zipIdx.find? p = some y) : y.2 < ws.length :=
  zipIdx_lt (List.mem_of_find?_eq_some h)

theorem not_later {p : Str × Nat → Bool} {ws : List Str} {n : Nat} (h : ws.length ≤ n) : ((ws.zipIdx.find? p).map (·.2) != some n) = true := by
  cases hf : ws.zipIdx.find? p with
  | none => rfl
  | some y =>
    have := at_lt hf
    simp; omega

theorem snoc_last {p : Str × Nat → Bool} {b : Bool} {ws : List Str} {x : Str} :
    (((ws.zipIdx.find? p).or (if b then some (x, ws.length) else none)).map (·.2) != some ws.length) = !((ws.zipIdx.find? p).isNone && b) := by
  cases hf : ws.zipIdx.find? p with
  | none => cases b <;> simp
  | some y =>
    have := at_lt hf
    simp; omega

theorem dayAt_snoc (ws : List Str) (x : Str) : dayAt (ws ++ [x]) =
    (dayAt ws).or (if (matchDay x).isSome && !((timeAt ws).isNone && (matchTime x).isSome) then some (x, ws.length) else none) := by
  unfold dayAt
  rw [zipIdx_snoc, List.find?_append, List.find?_singleton, timeAt_snoc]
  congr 1
  · apply find_congr
    intro y hy
    rw [snoc_ne (zipIdx_lt hy)]
  · dsimp only
    unfold timeAt
    rw [snoc_last]

theorem yearAt_snoc (ws : List Str) (x : Str) : yearAt (ws ++ [x]) =
    (yearAt ws).or (if (matchYear x).isSome && !((timeAt ws).isNone && (matchTime x).isSome) &&
      !((dayAt ws).isNone && ((matchDay x).isSome && !((timeAt ws).isNone && (matchTime x).isSome))) then some (x, ws.length) else none) := by
  unfold yearAt
  rw [zipIdx_snoc, List.find?_append, List.find?_singleton, timeAt_snoc, dayAt_snoc]
  congr 1
  · apply find_congr
    intro y hy
    rw [snoc_ne (zipIdx_lt hy), snoc_ne (zipIdx_lt hy)]
  · dsimp only
    have e1 := snoc_last (p := fun x => (matchTime x.1).isSome) (b := (matchTime x).isSome) (ws := ws) (x := x)
    have e2 := snoc_last (p := fun x => (matchDay x.1).isSome && (timeAt ws).map (·.2) != some x.2)
      (b := (matchDay x).isSome && !((timeAt ws).isNone && (matchTime x).isSome)) (ws := ws) (x := x)
    unfold dayAt
    rw [e2]
    unfold timeAt
    rw [e1]

/-- what the loop has found after these words -/
def CookieDate.of (ws : List Str) : CookieDate :=
  ⟨(timeAt ws).bind (matchTime ·.1), (dayAt ws).bind (matchDay ·.1), (monthAt ws).bind (matchMonth ·.1), (yearAt ws).bind (matchYear ·.1)⟩

theorem time_none (ws : List Str) : ((timeAt ws).bind (matchTime ·.1)).isNone = (timeAt ws).isNone := by
  cases h : timeAt ws with
  | none => rfl
  | some y =>
    have := List.find?_some h
    cases hm : matchTime y.1 with
    | none => rw [hm] at this; cases this
    | some v => simp [hm]
theorem day_none (ws : List Str) : ((dayAt ws).bind (matchDay ·.1)).isNone = (dayAt ws).isNone := by
  cases h : dayAt ws with
  | none => rfl
  | some y =>
    have := List.find?_some h
    cases hm : matchDay y.1 with
    | none => rw [hm] at this; cases this
    | some v => simp [hm]
theorem month_none (ws : List Str) : ((monthAt ws).bind (matchMonth ·.1)).isNone = (monthAt ws).isNone := by
  cases h : monthAt ws with
  | none => rfl
  | some y =>
    have := List.find?_some h
    cases hm : matchMonth y.1 with
    | none => rw [hm] at this; cases this
    | some v => simp [hm]
theorem year_none (ws : List Str) : ((yearAt ws).bind (matchYear ·.1)).isNone = (yearAt ws).isNone := by
  cases h : yearAt ws with
  | none => rfl
  | some y =>
    have := List.find?_some h
    cases hm : matchYear y.1 with
    | none => rw [hm] at this; cases this
    | some v => simp [hm]

/-- a word that reads as a time reads as a day too -/
theorem time_day {x : Str} (h : (matchTime x).isSome = true) : (matchDay x).isSome = true := by
  obtain ⟨⟨a, b, c⟩, e⟩ := Option.isSome_iff_exists.1 h
  obtain ⟨a, b, c, d, e1, f, a', b', c', d', e', f', r, ha, hb, _, _, _, _, rfl, _⟩ := (matchTime_iff _ _ _ _).1 e
  have := (matchDay_iff ([a', b', 58, c', d', 58, e', f'] ++ r) _).2 (.inl ⟨a, a', b, b', _, ha, hb, rfl, rfl⟩)
  exact Option.isSome_iff_exists.2 ⟨_, this⟩

theorem year_day {x : Str} (h : (matchYear x).isSome = true) : (matchDay x).isSome = true := by
  obtain ⟨y, e⟩ := Option.isSome_iff_exists.1 h
  obtain ⟨ds, r, rfl, hd, h2, _⟩ := (matchYear_iff _ _).1 e
  match ds, hd, h2 with
  | a :: b :: ds, hd, _ =>
    have ha := hd a (by simp)
    have hb := hd b (by simp)
    have := (matchDay_iff (a :: b :: ds ++ r) _).2 (.inl ⟨a - 48, a, b - 48, b, ds ++ r, ⟨by omega, by omega⟩, ⟨by omega, by omega⟩, rfl, rfl⟩)
    exact Option.isSome_iff_exists.2 ⟨_, this⟩

theorem day_month {x : Str} (h : (matchDay x).isSome = true) : matchMonth x = none := by
  obtain ⟨y, e⟩ := Option.isSome_iff_exists.1 h
  have : ∃ a r, x = a :: r ∧ 48 ≤ a ∧ a ≤ 57 := by
    rcases (matchDay_iff _ _).1 e with ⟨a, a', b, b', r, ha, hb, rfl, rfl⟩ | ⟨a, a', r, ha, hr, rfl, rfl⟩
    · obtain ⟨h1, h2⟩ := ha
      exact ⟨_, _, rfl, by omega, by omega⟩
    · obtain ⟨h1, h2⟩ := ha
      exact ⟨_, _, rfl, by omega, by omega⟩
  obtain ⟨a, r, rfl, h1, h2⟩ := this
  cases hm : matchMonth (a :: r) with
  | none => rfl
  | some n =>
    obtain ⟨nm, _, hnm, e⟩ := (matchMonth_iff _ _).1 hm
    have hmem := List.mem_of_getElem? hnm
    have : ∀ nm ∈ monthNames, ∀ c ∈ (lower nm).head?, 97 ≤ c := by decide
    have h3 := this nm hmem a (by
      unfold CiText at e
      rw [← e]
      show some (lowerC a) = some a
      unfold lowerC
      rw [if_neg]
      simp; omega)
    omega

theorem loop_of (ws : List Str) : ws.foldl CookieDate.step {} = CookieDate.of ws := by
  induction ws using snoc_ind with
  | h0 => rfl
  | hs ws x ih =>
    rw [List.foldl_append, ih]
    show CookieDate.step (CookieDate.of ws) x = _
    unfold CookieDate.step CookieDate.of
    dsimp only
    rw [time_none, day_none, month_none, year_none, timeAt_snoc, dayAt_snoc, monthAt_snoc, yearAt_snoc]
    have q1 := time_day (x := x)
    have q2 := year_day (x := x)
    have q3 := day_month (x := x)
    cases hT : matchTime x <;> cases hD : matchDay x <;> cases hM : matchMonth x <;> cases hY : matchYear x <;>
      simp only [hT, hD, hM, hY, Option.isSome_some, Option.isSome_none, reduceCtorEq, forall_const, imp_self] at q1 q2 q3 <;>
      cases h1 : timeAt ws <;> cases h2 : dayAt ws <;> cases h3 : monthAt ws <;> cases h4 : yearAt ws <;> simp [hT, hD, hM, hY]

theorem find_zipIdx {ws : List Str} {q : Str × Nat → Bool} {w : Str} {i : Nat} : ws.zipIdx.find? q = some (w, i) ↔
    ws[i]? = some w ∧ q (w, i) = true ∧ ∀ j < i, ∀ w', ws[j]? = some w' → q (w', j) = false := by
  rw [List.find?_eq_some_iff_getElem]
  constructor
  · rintro ⟨hq, k, hk, e, hj⟩
    have hk' : k < ws.length := by simpa using hk
    simp only [List.getElem_zipIdx, Prod.mk.injEq, Nat.zero_add] at e
    obtain ⟨e1, rfl⟩ := e
    refine ⟨by rw [List.getElem?_eq_getElem hk', e1], hq, ?_⟩
    intro j hjk w' hw'
    have := hj j hjk
    simp only [List.getElem_zipIdx, Nat.zero_add] at this
    have hjl : j < ws.length := by omega
    rw [List.getElem?_eq_getElem hjl] at hw'
    cases hw'
    simpa using this
  · rintro ⟨hw, hq, hj⟩
    have hi : i < ws.length := by
      rcases Nat.lt_or_ge i ws.length with h | h
      · exact h
      · rw [List.getElem?_eq_none h] at hw; cases hw
    refine ⟨hq, i, by simpa using hi, ?_, ?_⟩
    · rw [List.getElem?_eq_getElem hi] at hw
      cases hw
      simp
    · intro j hji
      have hjl : j < ws.length := by omega
      have := hj j hji _ (List.getElem?_eq_getElem hjl)
      simpa using this

theorem firstWord_iff {ws : List Str} {P : Str → Prop} {taken : List Nat} {i : Nat} {q : Str × Nat → Bool}
    (hq : ∀ w j, ws[j]? = some w → (q (w, j) = true ↔ P w ∧ j ∉ taken)) :
    FirstWord ws P taken i ↔ ∃ w, ws.zipIdx.find? q = some (w, i) := by
  unfold FirstWord
  constructor
  · rintro ⟨hn, ⟨w, hw, hP⟩, hj⟩
    refine ⟨w, find_zipIdx.2 ⟨hw, (hq w i hw).2 ⟨hP, hn⟩, ?_⟩⟩
    intro j hji w' hw'
    cases hb : q (w', j) with
    | false => rfl
    | true =>
      obtain ⟨a, b⟩ := (hq w' j hw').1 hb
      exact absurd (hj j hji w' hw' a) b
  · rintro ⟨w, h⟩
    obtain ⟨hw, hb, hj⟩ := find_zipIdx.1 h
    obtain ⟨a, b⟩ := (hq w i hw).1 hb
    refine ⟨b, ⟨w, hw, a⟩, ?_⟩
    intro j hji w' hw' hP
    by_cases hm : j ∈ taken
    · exact hm
    · have := hj j hji w' hw'
      rw [(hq w' j hw').2 ⟨hP, hm⟩] at this
      cases this

theorem some_iff {α : Type} {o : Option α} {P : α → Prop} (h : ∀ a, o = some a ↔ P a) : o.isSome = true ↔ ∃ a, P a := by
  rw [Option.isSome_iff_exists]
  exact ⟨fun ⟨a, e⟩ => ⟨a, (h a).1 e⟩, fun ⟨a, e⟩ => ⟨a, (h a).2 e⟩⟩

theorem time_some (w : Str) : (matchTime w).isSome = true ↔ ∃ h m s, ReadsTime w h m s := by
  rw [Option.isSome_iff_exists]
  exact ⟨fun ⟨⟨h, m, s⟩, e⟩ => ⟨h, m, s, (matchTime_iff ..).1 e⟩, fun ⟨h, m, s, e⟩ => ⟨(h, m, s), (matchTime_iff ..).2 e⟩⟩

theorem expandYear_eq (y : Nat) : expandYear y = windowed y := by
  unfold expandYear windowed
  dsimp only
  repeat' split
  all_goals omega

theorem ReadsYear.small {w : Str} {y : Nat} (h : ReadsYear w y) : y ≤ 9999 := by
  obtain ⟨ds, r, _, hd, h2, h4, _, rfl⟩ := h
  match ds, hd, h2, h4 with
  | [a, b], hd, _, _ =>
    have ha := hd a (by simp); have hb := hd b (by simp)
    show 10 * (10 * 0 + (a - 48)) + (b - 48) ≤ _
    omega
  | [a, b, c], hd, _, _ =>
    have ha := hd a (by simp); have hb := hd b (by simp); have hc := hd c (by simp)
    show 10 * (10 * (10 * 0 + (a - 48)) + (b - 48)) + (c - 48) ≤ _
    omega
  | [a, b, c, d], hd, _, _ =>
    have ha := hd a (by simp); have hb := hd b (by simp); have hc := hd c (by simp); have hd := hd d (by simp)
    show 10 * (10 * (10 * (10 * 0 + (a - 48)) + (b - 48)) + (c - 48)) + (d - 48) ≤ _
    omega

theorem ReadsMonth.small {w : Str} {m : Nat} (h : ReadsMonth w m) : 1 ≤ m ∧ m ≤ 12 := by
  obtain ⟨nm, h1, h2, _⟩ := h
  refine ⟨h1, ?_⟩
  rcases Nat.lt_or_ge (m - 1) 12 with h | h
  · omega
  · have : monthNames.length ≤ m - 1 := h
    rw [List.getElem?_eq_none this] at h2
    cases h2

theorem finish_iff (t : Int) (h mi sec d mo y : Nat) (hm : 1 ≤ mo ∧ mo ≤ 12) (hy : y ≤ 9999) :
    CookieDate.finish ⟨some (h, mi, sec), some d, some mo, some y⟩ = .ok t ↔ (1 ≤ d ∧ d ≤ 31) ∧ 1601 ≤ windowed y ∧ h ≤ 23 ∧ mi ≤ 59 ∧ sec ≤ 59 ∧
      t = 86400 * dayNumber (windowed y) mo d + 3600 * h + 60 * mi + sec := by
  have hw : windowed y ≤ 9999 := by
    unfold windowed
    repeat' split
    all_goals omega
  unfold CookieDate.finish
  dsimp only
  rw [expandYear_eq]
  by_cases c1 : ¬ (1 ≤ d ∧ d ≤ 31)
  · rw [if_pos c1]; exact ⟨nofun, fun e => absurd e.1 c1⟩
  rw [if_neg c1]
  by_cases c2 : windowed y < 1601
  · rw [if_pos c2]; exact ⟨nofun, fun e => by omega⟩
  rw [if_neg c2]
  by_cases c3 : h > 23
  · rw [if_pos c3]; exact ⟨nofun, fun e => by omega⟩
  rw [if_neg c3]
  by_cases c4 : mi > 59
  · rw [if_pos c4]; exact ⟨nofun, fun e => by omega⟩
  rw [if_neg c4]
  by_cases c5 : sec > 59
  · rw [if_pos c5]; exact ⟨nofun, fun e => by omega⟩
  rw [if_neg c5]
  rw [C52_timegm _ _ _ _ _ _ (by omega) (by omega)]
  dsimp only
  constructor
  · intro e
    cases e
    exact ⟨by omega, by omega, by omega, by omega, by omega, rfl⟩
  · rintro ⟨_, _, _, _, _, rfl⟩
    rfl

theorem ofWords_iff (ws : List Str) (t : Int) : (CookieDate.of ws).finish = .ok t ↔
    ∃ wt it wd id wm im wy iy h mi sec d mo y, timeAt ws = some (wt, it) ∧ dayAt ws = some (wd, id) ∧ monthAt ws = some (wm, im) ∧ yearAt ws = some (wy, iy) ∧
      ReadsTime wt h mi sec ∧ ReadsDay wd d ∧ ReadsMonth wm mo ∧ ReadsYear wy y ∧
      (1 ≤ d ∧ d ≤ 31) ∧ 1601 ≤ windowed y ∧ h ≤ 23 ∧ mi ≤ 59 ∧ sec ≤ 59 ∧
      t = 86400 * dayNumber (windowed y) mo d + 3600 * h + 60 * mi + sec := by
  constructor
  · intro e
    unfold CookieDate.of at e
    cases h1 : timeAt ws with
    | none => rw [h1] at e; simp [CookieDate.finish] at e
    | some a =>
    cases h2 : dayAt ws with
    | none => rw [h2] at e; simp [CookieDate.finish] at e
    | some b =>
    cases h3 : monthAt ws with
    | none => rw [h3] at e; simp [CookieDate.finish] at e
    | some c =>
    cases h4 : yearAt ws with
    | none => rw [h4] at e; simp [CookieDate.finish] at e
    | some f =>
    rw [h1, h2, h3, h4] at e
    simp only [Option.bind_some] at e
    cases k1 : matchTime a.1 with
    | none => rw [k1] at e; simp [CookieDate.finish] at e
    | some v =>
    cases k2 : matchDay b.1 with
    | none => rw [k2] at e; simp [CookieDate.finish] at e
    | some d =>
    cases k3 : matchMonth c.1 with
    | none => rw [k3] at e; simp [CookieDate.finish] at e
    | some mo =>
    cases k4 : matchYear f.1 with
    | none => rw [k4] at e; simp [CookieDate.finish] at e
    | some y =>
    obtain ⟨h, mi, sec⟩ := v
    rw [k1, k2, k3, k4] at e
    have r3 := (matchMonth_iff _ _).1 k3
    have r4 := (matchYear_iff _ _).1 k4
    exact ⟨a.1, a.2, b.1, b.2, c.1, c.2, f.1, f.2, h, mi, sec, d, mo, y, rfl, rfl, rfl, rfl, (matchTime_iff ..).1 k1, (matchDay_iff ..).1 k2, r3, r4,
      (finish_iff t h mi sec d mo y r3.small r4.small).1 e⟩
  · rintro ⟨wt, it, wd, id, wm, im, wy, iy, h, mi, sec, d, mo, y, h1, h2, h3, h4, r1, r2, r3, r4, q⟩
    unfold CookieDate.of
    rw [h1, h2, h3, h4]
    simp only [Option.bind_some]
    rw [(matchTime_iff ..).2 r1, (matchDay_iff ..).2 r2, (matchMonth_iff ..).2 r3, (matchYear_iff ..).2 r4]
    exact (finish_iff t h mi sec d mo y r3.small r4.small).2 q

/-- C62: `loose_date_parse` returns `t` exactly for the strings that say `t`, and raises `ValueError` for all the others. What is missing for
the full property is that words are not always read in the way RFC 6265 prescribes: see `C62_year_first_counterexample`. -/
theorem C62_accepts_partial (s : Str) (t : Int) : looseDateParse s = .ok t ↔ Says s t := by
  unfold looseDateParse
  rw [loop_of, ofWords_iff]
  unfold Says
  have T : ∀ ws i, FirstWord ws (fun w => ∃ h m s, ReadsTime w h m s) [] i ↔ ∃ w, timeAt ws = some (w, i) := fun ws i =>
    firstWord_iff fun w j _ => by simp [time_some]
  have M : ∀ ws i, FirstWord ws (fun w => ∃ m, ReadsMonth w m) [] i ↔ ∃ w, monthAt ws = some (w, i) := fun ws i =>
    firstWord_iff fun w j _ => by simp [some_iff (matchMonth_iff w)]
  have D : ∀ ws it i, (timeAt ws).map (·.2) = some it → (FirstWord ws (fun w => ∃ m, ReadsDay w m) [it] i ↔ ∃ w, dayAt ws = some (w, i)) := fun ws it i e =>
    firstWord_iff fun w j _ => by simp [some_iff (matchDay_iff w), e]; exact fun _ _ => ⟨fun h h' => h h'.symm, fun h h' => h h'.symm⟩
  have Y : ∀ ws it id i, (timeAt ws).map (·.2) = some it → (dayAt ws).map (·.2) = some id →
      (FirstWord ws (fun w => ∃ m, ReadsYear w m) [it, id] i ↔ ∃ w, yearAt ws = some (w, i)) := fun ws it id i e e2 =>
    firstWord_iff fun w j _ => by simp [some_iff (matchYear_iff w), e, e2, and_assoc]; exact fun _ _ => ⟨fun h => ⟨fun h' => h.1 h'.symm, fun h' => h.2 h'.symm⟩, fun h => ⟨fun h' => h.1 h'.symm, fun h' => h.2 h'.symm⟩⟩
  have at_get : ∀ {ws : List Str} {q : Str × Nat → Bool} {w i}, ws.zipIdx.find? q = some (w, i) → ws[i]? = some w := fun h => (find_zipIdx.1 h).1
  constructor
  · rintro ⟨wt, it, wd, id, wm, im, wy, iy, h, mi, sec, d, mo, y, h1, h2, h3, h4, r1, r2, r3, r4, q⟩
    refine ⟨_, it, id, im, iy, h, mi, sec, d, mo, y, (words_iff _ s).2 rfl, (T ..).2 ⟨_, h1⟩, ⟨wt, at_get h1, r1⟩,
      (D _ it id (by rw [h1]; rfl)).2 ⟨_, h2⟩, ⟨wd, at_get h2, r2⟩, (M ..).2 ⟨_, h3⟩, ⟨wm, at_get h3, r3⟩,
      (Y _ it id iy (by rw [h1]; rfl) (by rw [h2]; rfl)).2 ⟨_, h4⟩, ⟨wy, at_get h4, r4⟩, q⟩
  · rintro ⟨ws, it, id, im, iy, h, mi, sec, d, mo, y, hw, f1, ⟨w1, g1, r1⟩, f2, ⟨w2, g2, r2⟩, f3, ⟨w3, g3, r3⟩, f4, ⟨w4, g4, r4⟩, q⟩
    have := (words_iff _ s).1 hw
    subst this
    obtain ⟨u1, e1⟩ := (T ..).1 f1
    obtain ⟨u2, e2⟩ := (D _ it id (by rw [e1]; rfl)).1 f2
    obtain ⟨u3, e3⟩ := (M ..).1 f3
    obtain ⟨u4, e4⟩ := (Y _ it id iy (by rw [e1]; rfl) (by rw [e2]; rfl)).1 f4
    have x1 := at_get e1; rw [g1] at x1; cases x1
    have x2 := at_get e2; rw [g2] at x2; cases x2
    have x3 := at_get e3; rw [g3] at x3; cases x3
    have x4 := at_get e4; rw [g4] at x4; cases x4
    exact ⟨w1, it, w2, id, w3, im, w4, iy, h, mi, sec, d, mo, y, e1, e2, e3, e4, r1, r2, r3, r4, q⟩

/-- there are such strings: `Sun, 06 Nov 1994 08:49:37 GMT` says 784111777 -/
example : Says (str "Sun, 06 Nov 1994 08:49:37 GMT") 784111777 := (C62_accepts_partial _ _).1 (by decide +kernel)
/-- the words may come in another order, and the year may have two digits -/
example : Says (str "08:49:37 06/Nov/94") 784111777 := (C62_accepts_partial _ _).1 (by decide +kernel)
/-- and strings that say no date -/
example : ¬ ∃ t, Says (str "Sun, 32 Nov 1994 08:49:37 GMT") t := by
  rintro ⟨t, h⟩
  have := (C62_accepts_partial _ _).2 h
  have e : looseDateParse (str "Sun, 32 Nov 1994 08:49:37 GMT") = .error (str "32 is out of range for day_of_month") := by decide +kernel
  rw [e] at this
  cases this

/-! ### the usual form -/

/-- a word of letters that isn't the name of a month -/
def DayName (w : Str) : Prop := (∀ c ∈ w, (65 ≤ c ∧ c ≤ 90) ∨ (97 ≤ c ∧ c ≤ 122)) ∧ ∀ name ∈ monthNames, ¬ CiText name (w.take 3)

/-- C62: `Sun, 06 Nov 1994 08:49:37 GMT`, with one or two digits in the day and any single separators between the
words, is the moment it says, provided its numbers are in range: otherwise it says nothing -/
theorem C62_usual_form (wk dd mon yy hms : Str) (sep : Nat → Nat) (hsep : ∀ i, Separates (sep i)) (hwk : DayName wk)
    (d mo y h mi s : Nat) (hd : ReadsDay dd d) (hdd : Digits 1 dd ∨ Digits 2 dd) (hm : ReadsMonth mon mo) (hmon : ∀ c ∈ mon, ¬ Separates c)
    (hy : ReadsYear yy y) (hyy : ∀ c ∈ yy, 48 ≤ c ∧ c ≤ 57) (ht : ReadsTime hms h mi s) (hl : hms.length = 8) (t : Int) :
    looseDateParse (wk ++ sep 0 :: ([] ++ sep 1 :: (dd ++ sep 2 :: (mon ++ sep 3 :: (yy ++ sep 4 :: (hms ++ sep 5 :: str "GMT")))))) = .ok t ↔
      (1 ≤ d ∧ d ≤ 31) ∧ 1601 ≤ windowed y ∧ h ≤ 23 ∧ mi ≤ 59 ∧ s ≤ 59 ∧
      t = 86400 * dayNumber (windowed y) mo d + 3600 * h + 60 * mi + s := by
  have np : ∀ {w : Str}, (∀ c ∈ w, ¬ Separates c) → ∀ c ∈ w, cookieDelim c = false := by
    intro w h c hc
    have := h c hc
    rw [← cookieDelim_iff] at this
    simpa using this
  have dg : ∀ {c}, (48 ≤ c ∧ c ≤ 57) → ¬ Separates c := by intro c hc; unfold Separates; omega
  have hs : ∀ i, cookieDelim (sep i) = true := fun i => (cookieDelim_iff _).2 (hsep i)
  have hdd1 : ∀ c ∈ dd, 48 ≤ c ∧ c ≤ 57 := by rcases hdd with h | h <;> exact h.2
  have hdd2 : dd.length ≤ 2 := by rcases hdd with h | h <;> rw [h.1] <;> decide
  have ht' : ∀ c ∈ hms, ¬ Separates c := by
    obtain ⟨a, b, c, d, e, f, a', b', c', d', e', f', r, ⟨_, rfl⟩, ⟨_, rfl⟩, ⟨_, rfl⟩, ⟨_, rfl⟩, ⟨_, rfl⟩, ⟨_, rfl⟩, rfl, _⟩ := ht
    have : r = [] := by cases r <;> simp at hl <;> rfl
    subst this
    intro c hc
    simp at hc
    unfold Separates
    omega
  unfold looseDateParse
  rw [splitP_next (np fun c hc => by have := hwk.1 c hc; unfold Separates; omega) (hs 0), splitP_next (by simp) (hs 1),
    splitP_next (np fun c hc => dg (hdd1 c hc)) (hs 2), splitP_next (np hmon) (hs 3), splitP_next (np fun c hc => dg (hyy c hc)) (hs 4),
    splitP_next (np ht') (hs 5)]
  have t_none : ∀ {w : Str}, matchDay w = none → matchTime w = none := by
    intro w h
    cases e : matchTime w with
    | none => rfl
    | some v => have := time_day (x := w) (by rw [e]; rfl); rw [h] at this; cases this
  have y_none : ∀ {w : Str}, matchDay w = none → matchYear w = none := by
    intro w h
    cases e : matchYear w with
    | none => rfl
    | some v => have := year_day (x := w) (by rw [e]; rfl); rw [h] at this; cases this
  have d_none : ∀ {w : Str}, (∀ c ∈ w, ¬ (48 ≤ c ∧ c ≤ 57)) → matchDay w = none := by
    intro w h
    cases e : matchDay w with
    | none => rfl
    | some v =>
      rcases (matchDay_iff _ _).1 e with ⟨a, a', b, b', r, ha, hb, rfl, rfl⟩ | ⟨a, a', r, ha, hr, rfl, rfl⟩
      · have := h a' (by simp); obtain ⟨_, _⟩ := ha; omega
      · have := h a' (by simp); obtain ⟨_, _⟩ := ha; omega
  have nt : ∀ {w : Str}, (∀ c ∈ w, 48 ≤ c ∧ c ≤ 57) → matchTime w = none := by
    intro w h
    cases e : matchTime w with
    | none => rfl
    | some v =>
      obtain ⟨v1, v2, v3⟩ := v
      obtain ⟨a, b, c, d, e, f, a', b', c', d', e', f', r, _, _, _, _, _, _, rfl, _⟩ := (matchTime_iff ..).1 e
      have := h 58 (by simp)
      omega
  have w1 : matchDay wk = none := d_none fun c hc => by have := hwk.1 c hc; omega
  have w2 : matchMonth wk = none := by
    cases e : matchMonth wk with
    | none => rfl
    | some n =>
      obtain ⟨nm, _, hn, hc⟩ := (matchMonth_iff ..).1 e
      exact absurd hc (hwk.2 nm (List.mem_of_getElem? hn))
  have d1 := (matchDay_iff ..).2 hd
  have m1 := (matchMonth_iff ..).2 hm
  have m2 : matchDay mon = none := by
    cases e : matchDay mon with
    | none => rfl
    | some v => have := day_month (x := mon) (by rw [e]; rfl); rw [m1] at this; cases this
  have y1 := (matchYear_iff ..).2 hy
  have t1 := (matchTime_iff ..).2 ht
  have e1 : CookieDate.step {} wk = {} := by simp [CookieDate.step, w1, w2, t_none w1, y_none w1]
  have e2 : CookieDate.step {} [] = {} := by decide
  have e3 : CookieDate.step {} dd = ⟨none, some d, none, none⟩ := by simp [CookieDate.step, d1, nt hdd1]
  have e4 : CookieDate.step ⟨none, some d, none, none⟩ mon = ⟨none, some d, some mo, none⟩ := by simp [CookieDate.step, m1, t_none m2]
  have e5 : CookieDate.step ⟨none, some d, some mo, none⟩ yy = ⟨none, some d, some mo, some y⟩ := by simp [CookieDate.step, y1, nt hyy]
  have e6 : CookieDate.step ⟨none, some d, some mo, some y⟩ hms = ⟨some (h, mi, s), some d, some mo, some y⟩ := by simp [CookieDate.step, t1]
  have e7 : splitP cookieDelim (str "GMT") = [str "GMT"] := by decide
  have e8 : CookieDate.step ⟨some (h, mi, s), some d, some mo, some y⟩ (str "GMT") = ⟨some (h, mi, s), some d, some mo, some y⟩ := by simp [CookieDate.step]
  rw [e7]
  simp only [List.foldl_cons, List.foldl_nil]
  rw [e1, e2, e3, e4, e5, e6, e8]
  exact finish_iff t h mi s d mo y hm.small hy.small

/-- C62, what is false of the code: RFC 6265 5.1.1 reads `2015 Jan 09 10:11:12` as 9 January 2015, since `2015` is no `day-of-month` (at most two
digits, and then no digit). The code takes its first two digits for the day, and `09` for the year: 20 January 2009. -/
theorem C62_year_first_counterexample : looseDateParse (str "2015 Jan 09 10:11:12") = .ok 1232446272 ∧
    Says (str "09 Jan 2015 10:11:12") 1420798272 ∧ Says (str "2015 Jan 09 10:11:12") 1232446272 ∧
    (1232446272 : Int) = 86400 * dayNumber 2009 1 20 + 3600 * 10 + 60 * 11 + 12 ∧ (1420798272 : Int) = 86400 * dayNumber 2015 1 9 + 3600 * 10 + 60 * 11 + 12 :=
  ⟨by decide +kernel, (C62_accepts_partial _ _).1 (by decide +kernel), (C62_accepts_partial _ _).1 (by decide +kernel), by decide, by decide⟩

/-- C62, also false of the code: days that no calendar has are dates (RFC 6265 5.1.1 step 6 would refuse them): 30 February is 1 or 2 March -/
theorem C62_february_counterexample (y : Int) : dayNumber y 2 30 = dayNumber y 3 1 + (if Leap y then 0 else 1) ∧
    looseDateParse (str "30 Feb 2015 10:11:12") = looseDateParse (str "02 Mar 2015 10:11:12") := by
  refine ⟨?_, by decide +kernel⟩
  unfold dayNumber ordinal1 daysBeforeMonth
  by_cases h : Leap y
  · rw [if_pos h, (isLeap_iff y).2 h]
    simp; omega
  · have : isLeap y = false := by
      cases hb : isLeap y with
      | false => rfl
      | true => exact absurd ((isLeap_iff y).1 hb) h
    rw [if_neg h, this]
    simp; omega

/-- `C62_usual_form` speaks of `Sun, 06 Nov 1994 08:49:37 GMT` among others -/
example : DayName (str "Sun") ∧ ReadsDay (str "06") 6 ∧ Digits 2 (str "06") ∧ ReadsMonth (str "Nov") 11 ∧ ReadsYear (str "1994") 1994 ∧ ReadsTime (str "08:49:37") 8 49 37 :=
  ⟨⟨by decide, by unfold CiText; decide⟩, (matchDay_iff ..).1 (by decide), ⟨by decide, by decide⟩, (matchMonth_iff ..).1 (by decide), (matchYear_iff ..).1 (by decide), (matchTime_iff ..).1 (by decide)⟩

end HL.Props
