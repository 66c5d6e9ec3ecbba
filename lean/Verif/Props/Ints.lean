import Verif.Props.Strings

/-!
# `int(text)`: what Python accepts as an integer
-/

namespace HL.Props

/-! ### specification -/

/-- digits, possibly with single underscores between them, and the digits they denote -/
inductive DigitText : Str → List Nat → Prop
  | last {d} : d < 10 → DigitText [48 + d] [d]
  | cons {d s ds} : d < 10 → DigitText s ds → DigitText ((48 + d) :: s) (d :: ds)
  | under {d s ds} : d < 10 → DigitText s ds → DigitText ((48 + d) :: 95 :: s) (d :: ds)

/-- the number the digits stand for -/
def digitsNum (ds : List Nat) : Nat := ds.foldl (fun n d => 10 * n + d) 0

/-- `t` is an optional sign and digits (at most 4300 of them), and denotes `n` -/
inductive SignedText : Str → Int → Prop
  | plain {t ds} : DigitText t ds → ds.length ≤ 4300 → SignedText t (digitsNum ds)
  | plus {t ds} : DigitText t ds → ds.length ≤ 4300 → SignedText (43 :: t) (digitsNum ds)
  | minus {t ds} : DigitText t ds → ds.length ≤ 4300 → SignedText (45 :: t) (-(digitsNum ds : Int))

/-- what `int(s)` accepts, and its result: white space around an optional sign and digits -/
def IntText (s : Str) (n : Int) : Prop := ∃ w t w', s = w ++ t ++ w' ∧ AllSpace w ∧ AllSpace w' ∧ SignedText t n

/-! ### `pyInt` -/

theorem isAsciiDigit_iff {c : Nat} : isAsciiDigit c = true ↔ ∃ d, d < 10 ∧ c = 48 + d := by
  unfold isAsciiDigit
  simp only [Bool.and_eq_true, decide_eq_true_eq]
  constructor
  · rintro ⟨h1, h2⟩; exact ⟨c - 48, by omega, by omega⟩
  · rintro ⟨d, h, rfl⟩; omega

theorem intDigits_sound {s ds : Str} (h : intDigits s = some ds) : ∃ xs, DigitText s xs ∧ ds = xs.map (48 + ·) := by
  fun_induction intDigits s generalizing ds with
  | case1 => exact nomatch h
  | case2 c =>
    rename_i hc
    simp only [Option.some.injEq] at h
    subst h
    obtain ⟨d, hd, rfl⟩ := isAsciiDigit_iff.1 hc
    exact ⟨[d], .last hd, rfl⟩
  | case3 c hc => exact nomatch h
  | case4 c d r hc ih =>
    obtain ⟨x, hx, rfl⟩ := Option.map_eq_some_iff.1 h
    obtain ⟨xs, h1, rfl⟩ := ih hx
    simp only [Bool.and_eq_true] at hc
    obtain ⟨e, he, rfl⟩ := isAsciiDigit_iff.1 hc.1
    exact ⟨e :: xs, .under he h1, rfl⟩
  | case5 c d r hc => exact nomatch h
  | case6 c d r hn hc ih =>
    obtain ⟨x, hx, rfl⟩ := Option.map_eq_some_iff.1 h
    obtain ⟨xs, h1, rfl⟩ := ih hx
    obtain ⟨e, he, rfl⟩ := isAsciiDigit_iff.1 hc
    exact ⟨e :: xs, .cons he h1, rfl⟩
  | case7 c d r hn hc => exact nomatch h

theorem digitText_head {s xs} (h : DigitText s xs) : ∃ d r, d < 10 ∧ s = (48 + d) :: r := by
  cases h with
  | last h => exact ⟨_, _, h, rfl⟩
  | cons h _ => exact ⟨_, _, h, rfl⟩
  | under h _ => exact ⟨_, _, h, rfl⟩

theorem intDigits_complete {s xs} (h : DigitText s xs) : intDigits s = some (xs.map (48 + ·)) := by
  induction h with
  | @last d hd =>
    unfold intDigits
    rw [if_pos (isAsciiDigit_iff.2 ⟨d, hd, rfl⟩)]
    rfl
  | @cons d s ds hd hs ih =>
    obtain ⟨e, r, he, rfl⟩ := digitText_head hs
    unfold intDigits
    split
    · rename_i hx; cases hx
    · rename_i hx; cases hx
    · rename_i hx
      simp only [List.cons.injEq] at hx
      omega
    · rename_i c d' r' _ hx
      simp only [List.cons.injEq] at hx
      obtain ⟨rfl, rfl, rfl⟩ := hx
      rw [if_pos (isAsciiDigit_iff.2 ⟨d, hd, rfl⟩), ih]
      rfl
  | @under d s ds hd hs ih =>
    obtain ⟨e, r, he, rfl⟩ := digitText_head hs
    show intDigits ((48 + d) :: 95 :: (48 + e) :: r) = _
    rw [intDigits, if_pos, ih]
    · rfl
    · simp only [Bool.and_eq_true]
      exact ⟨isAsciiDigit_iff.2 ⟨d, hd, rfl⟩, isAsciiDigit_iff.2 ⟨e, he, rfl⟩⟩

theorem digitsVal_map (xs : List Nat) : digitsVal (xs.map (48 + ·)) = digitsNum xs := by
  unfold digitsVal digitsNum
  rw [List.foldl_map]
  congr 1
  funext n d
  rw [Nat.add_sub_cancel_left]

theorem digitText_last {s xs} (h : DigitText s xs) : ∃ d, d < 10 ∧ s.getLast? = some (48 + d) := by
  induction h with
  | last h => exact ⟨_, h, rfl⟩
  | cons h hs ih =>
    obtain ⟨e, r, _, rfl⟩ := digitText_head hs
    obtain ⟨d, hd, e⟩ := ih
    exact ⟨d, hd, by rw [← e]; rfl⟩
  | under h hs ih =>
    obtain ⟨e, r, _, rfl⟩ := digitText_head hs
    obtain ⟨d, hd, e⟩ := ih
    exact ⟨d, hd, by rw [← e]; rfl⟩

/-- no digit, sign, is white space -/
theorem signedText_stripped {t n} (h : SignedText t n) : Stripped t := by
  have hsp : ∀ d, d < 10 → isSpace (48 + d) = false := by
    intro d hd
    unfold isSpace
    simp
    omega
  cases h with
  | plain h _ =>
    obtain ⟨e, r, he, rfl⟩ := digitText_head h
    obtain ⟨d, hd, hl⟩ := digitText_last h
    exact ⟨⟨_, rfl, hsp e he⟩, _, hl, hsp d hd⟩
  | plus h _ =>
    obtain ⟨e, r, he, rfl⟩ := digitText_head h
    obtain ⟨d, hd, hl⟩ := digitText_last h
    exact ⟨⟨_, rfl, rfl⟩, _, by rw [← hl]; rfl, hsp d hd⟩
  | minus h _ =>
    obtain ⟨e, r, he, rfl⟩ := digitText_head h
    obtain ⟨d, hd, hl⟩ := digitText_last h
    exact ⟨⟨_, rfl, rfl⟩, _, by rw [← hl]; rfl, hsp d hd⟩

/-- the sign and the rest -/
def signOf (t : Str) : Bool × Str := match t with
  | 45 :: r => (true, r)
  | 43 :: r => (false, r)
  | r => (false, r)

/-- digits to number -/
def numOf (p : Bool × Str) : Option Int := match intDigits p.2 with
  | none => none
  | some ds => if ds.length > maxIntDigits then none else some (if p.1 = true then - (digitsVal ds : Int) else digitsVal ds)

theorem pyInt_eq (s : Str) : pyInt s = numOf (signOf (strip s)) := rfl

theorem signOf_plain {t ds} (h : DigitText t ds) : signOf t = (false, t) := by
  obtain ⟨d, r, hd, rfl⟩ := digitText_head h
  unfold signOf
  split
  · rename_i hx; simp only [List.cons.injEq] at hx; omega
  · rename_i hx; simp only [List.cons.injEq] at hx; omega
  · rfl

theorem numOf_iff {neg body} {n : Int} : numOf (neg, body) = some n ↔
    ∃ xs, DigitText body xs ∧ xs.length ≤ 4300 ∧ n = if neg = true then - (digitsNum xs : Int) else digitsNum xs := by
  unfold numOf
  dsimp only
  constructor
  · intro h
    cases hd : intDigits body with
    | none => rw [hd] at h; exact nomatch h
    | some ds =>
      rw [hd] at h
      dsimp only at h
      split at h
      · exact nomatch h
      · rename_i hlen
        obtain ⟨xs, h1, rfl⟩ := intDigits_sound hd
        refine ⟨xs, h1, ?_, ?_⟩
        · rw [List.length_map] at hlen; simp only [maxIntDigits] at hlen; omega
        · rw [digitsVal_map] at h; exact (Option.some.inj h).symm
  · rintro ⟨xs, h1, h2, rfl⟩
    rw [intDigits_complete h1]
    dsimp only
    rw [if_neg, digitsVal_map]
    rw [List.length_map]; simp only [maxIntDigits]; omega

/-- **`int(s)`**: succeeds exactly on integer text, and returns the number it denotes -/
theorem pyInt_iff {s : Str} {n : Int} : pyInt s = some n ↔ IntText s n := by
  rw [pyInt_eq]
  constructor
  · intro h
    obtain ⟨w, w', hs, hw, hw', _⟩ := strip_decomp s
    refine ⟨w, strip s, w', hs, hw, hw', ?_⟩
    generalize strip s = t at h
    unfold signOf at h
    split at h
    · obtain ⟨xs, h1, h2, rfl⟩ := numOf_iff.1 h
      exact .minus h1 h2
    · obtain ⟨xs, h1, h2, rfl⟩ := numOf_iff.1 h
      exact .plus h1 h2
    · obtain ⟨xs, h1, h2, rfl⟩ := numOf_iff.1 h
      exact .plain h1 h2
  · rintro ⟨w, t, w', rfl, hw, hw', h⟩
    rw [strip_spaced hw hw' (signedText_stripped h)]
    cases h with
    | plain h1 h2 => rw [signOf_plain h1]; exact numOf_iff.2 ⟨_, h1, h2, rfl⟩
    | plus h1 h2 => exact numOf_iff.2 ⟨_, h1, h2, rfl⟩
    | minus h1 h2 => exact numOf_iff.2 ⟨_, h1, h2, rfl⟩

theorem pyInt_none {s : Str} : pyInt s = none ↔ ¬ ∃ n, IntText s n := by
  cases h : pyInt s with
  | none =>
    simp only [true_iff]
    rintro ⟨n, hn⟩
    rw [pyInt_iff.2 hn] at h
    exact nomatch h
  | some n => simp only [reduceCtorEq, false_iff, Classical.not_not]; exact ⟨n, pyInt_iff.1 h⟩

theorem IntText.unique {s : Str} {n m : Int} (h : IntText s n) (h' : IntText s m) : n = m := by
  have := (pyInt_iff.2 h).symm.trans (pyInt_iff.2 h')
  exact Option.some.inj this

/-- a plain run of digits is integer text for the number it spells -/
theorem IntText.digits {s : Str} {ds : List Nat} (h : s = ds.map (48 + ·)) (hne : ds ≠ []) (hd : ∀ d ∈ ds, d < 10)
    (hl : ds.length ≤ 4300) : IntText s (digitsNum ds) := by
  refine ⟨[], s, [], (by simp), (by intro c h; cases h), (by intro c h; cases h), .plain ?_ hl⟩
  subst h
  clear hl
  induction ds with
  | nil => exact absurd rfl hne
  | cons d ds ih =>
    cases ds with
    | nil => exact .last (hd d (List.mem_cons_self ..))
    | cons e ds => exact .cons (hd d (List.mem_cons_self ..)) (ih (by simp) (fun x hx => hd x (List.mem_cons_of_mem _ hx)))

/-- `" 1_0 "` is integer text for ten, `"-5"` for minus five; the empty string, `"1__0"` and `"5 5"` are not -/
example : IntText (str " 1_0 ") 10 := pyInt_iff.1 (by decide +kernel)
example : IntText (str "-5") (-5) := pyInt_iff.1 (by decide +kernel)
example : ¬ ∃ n, IntText [] n := pyInt_none.1 (by decide +kernel)
example : ¬ ∃ n, IntText (str "1__0") n := pyInt_none.1 (by decide +kernel)
example : ¬ ∃ n, IntText (str "5 5") n := pyInt_none.1 (by decide +kernel)

end HL.Props
