import Verif.Props.Finder
import Verif.Props.Toy
import Verif.Status

/-!
# C43, C49, C53: `get_header`, `unquote_string`, `f_num`
-/

namespace HL.Props

/-! ### white space -/

/-- every character is white space -/
def AllSpace (w : Str) : Prop := ∀ c ∈ w, isSpace c = true
/-- not empty, and neither the first nor the last character is white space -/
def Stripped (s : Str) : Prop := (∃ c, s.head? = some c ∧ isSpace c = false) ∧ ∃ c, s.getLast? = some c ∧ isSpace c = false

theorem dropWhile_append_left {α} {p : α → Bool} {w x : List α} (hw : ∀ c ∈ w, p c = true) : (w ++ x).dropWhile p = x.dropWhile p := by
  induction w with
  | nil => rfl
  | cons a w ih =>
    rw [List.cons_append, List.dropWhile_cons_of_pos (hw a (List.mem_cons_self ..))]
    exact ih fun c hc => hw c (List.mem_cons_of_mem _ hc)

theorem dropWhile_head {α} {p : α → Bool} {x : List α} {c : α} (h : x.head? = some c) (hc : p c = false) : x.dropWhile p = x := by
  cases x with
  | nil => rfl
  | cons a x =>
    simp only [List.head?_cons, Option.some.injEq] at h
    subst h
    rw [List.dropWhile_cons_of_neg]
    rw [hc]; decide

theorem lstrip_space {w : Str} (hw : AllSpace w) (x : Str) : lstrip (w ++ x) = lstrip x := dropWhile_append_left hw

theorem rstrip_space {w : Str} (hw : AllSpace w) (x : Str) : rstrip (x ++ w) = rstrip x := by
  unfold rstrip
  rw [List.reverse_append, dropWhile_append_left]
  intro c hc
  exact hw c (by simpa using hc)

theorem strip_stripped {s : Str} (h : Stripped s) : strip s = s := by
  obtain ⟨⟨a, ha, ha'⟩, b, hb, hb'⟩ := h
  unfold strip lstrip rstrip
  rw [dropWhile_head ha ha', dropWhile_head (c := b) (by rw [List.head?_reverse]; exact hb) hb', List.reverse_reverse]

theorem strip_nil_of {w : Str} (hw : AllSpace w) : strip w = [] := by
  unfold strip
  have : lstrip w = [] := by
    have := lstrip_space hw []
    rwa [List.append_nil] at this
  rw [this]; rfl

/-- stripping removes exactly the surrounding white space -/
theorem strip_spaced {w w' s : Str} (hw : AllSpace w) (hw' : AllSpace w') (h : Stripped s) : strip (w ++ s ++ w') = s := by
  unfold strip
  rw [List.append_assoc, lstrip_space hw]
  have : lstrip (s ++ w') = s ++ w' := by
    obtain ⟨⟨a, ha, ha'⟩, _⟩ := h
    unfold lstrip
    apply dropWhile_head (c := a) _ ha'
    cases s with
    | nil => exact nomatch ha
    | cons x s => exact ha
  rw [this, rstrip_space hw']
  have := strip_stripped h
  unfold strip at this
  obtain ⟨⟨a, ha, ha'⟩, _⟩ := h
  have h2 : lstrip s = s := dropWhile_head ha ha'
  rwa [h2] at this

theorem takeWhile_all {α} {p : α → Bool} (s : List α) : ∀ c ∈ s.takeWhile p, p c = true := by
  intro c hc
  induction s with
  | nil => exact nomatch hc
  | cons a s ih =>
    by_cases h : p a = true
    · rw [List.takeWhile_cons_of_pos h] at hc
      rcases List.mem_cons.1 hc with rfl | hc
      · exact h
      · exact ih hc
    · rw [List.takeWhile_cons_of_neg h] at hc
      exact nomatch hc

theorem dropWhile_head_neg {α} {p : α → Bool} {s : List α} {c : α} (h : (s.dropWhile p).head? = some c) : p c = false := by
  induction s with
  | nil => exact nomatch h
  | cons a s ih =>
    by_cases hp : p a = true
    · rw [List.dropWhile_cons_of_pos hp] at h
      exact ih h
    · rw [List.dropWhile_cons_of_neg hp] at h
      simp only [List.head?_cons, Option.some.injEq] at h
      subst h
      simpa using hp

/-- every string is its stripped form between two stretches of white space -/
theorem strip_decomp (s : Str) : ∃ w w', s = w ++ strip s ++ w' ∧ AllSpace w ∧ AllSpace w' ∧ (strip s = [] ∨ Stripped (strip s)) := by
  have h1 : s = s.takeWhile isSpace ++ lstrip s := (List.takeWhile_append_dropWhile).symm
  have h2 : lstrip s = rstrip (lstrip s) ++ ((lstrip s).reverse.takeWhile isSpace).reverse := by
    have := (List.takeWhile_append_dropWhile (p := isSpace) (l := (lstrip s).reverse))
    have := congrArg List.reverse this
    rw [List.reverse_append, List.reverse_reverse] at this
    exact this.symm
  refine ⟨s.takeWhile isSpace, ((lstrip s).reverse.takeWhile isSpace).reverse, ?_, takeWhile_all s, fun c hc => takeWhile_all _ c (List.mem_reverse.1 hc), ?_⟩
  · unfold strip
    rw [List.append_assoc, ← h2]
    exact h1
  · by_cases hn : strip s = []
    · exact .inl hn
    · refine .inr ⟨?_, ?_⟩
      · cases h : (strip s).head? with
        | none => exact absurd (List.head?_eq_none_iff.1 h) hn
        | some c =>
          refine ⟨c, rfl, ?_⟩
          apply dropWhile_head_neg (s := s)
          show (lstrip s).head? = some c
          rw [h2]
          unfold strip at h
          cases hr : rstrip (lstrip s) with
          | nil => rw [hr] at h; exact nomatch h
          | cons x r => rw [hr] at h; exact h
      · cases h : (strip s).getLast? with
        | none => exact absurd (List.getLast?_eq_none_iff.1 h) hn
        | some c =>
          refine ⟨c, rfl, ?_⟩
          apply dropWhile_head_neg (s := (lstrip s).reverse)
          rw [← List.getLast?_reverse]
          exact h

/-! ### C49 -/

/-- `Quoted q s`: inside quotation marks, `q` stands for `s` — each character of `s` appears as itself (unless it is a
quotation mark or a backslash) or after a backslash (unless it is a newline). -/
inductive Quoted : Str → Str → Prop where
  | nil : Quoted [] []
  | plain (c : Nat) (q s : Str) : c ≠ 34 → c ≠ 92 → Quoted q s → Quoted (c :: q) (c :: s)
  | pair (c : Nat) (q s : Str) : c ≠ 10 → Quoted q s → Quoted (92 :: c :: q) (c :: s)

theorem unescape_plain (c : Nat) (r : Str) (h : c ≠ 92) : unescape (c :: r) = c :: unescape r := by
  cases r with
  | nil =>
    rw [unescape, unescape]
  | cons d r =>
    rw [unescape]
    intro e; exact absurd e h

theorem unescape_pair (c : Nat) (r : Str) (h : c ≠ 10) : unescape (92 :: c :: r) = c :: unescape r := by
  rw [unescape, if_neg h]

theorem unescape_quoted {q s : Str} (h : Quoted q s) : unescape q = s := by
  induction h with
  | nil => rfl
  | plain c q s _ h92 _ ih => rw [unescape_plain c q h92, ih]
  | pair c q s h10 _ ih => rw [unescape_pair c q h10, ih]

/-- **C49**: unquoting undoes quoting, whatever white space surrounds the quoted string. -/
theorem C49_unquote (q s w w' : Str) (h : Quoted q s) (hw : AllSpace w) (hw' : AllSpace w') :
    unquoteString (w ++ (34 :: q ++ [34]) ++ w') = s := by
  have hs : Stripped (34 :: q ++ [34]) := by
    refine ⟨⟨34, rfl, by decide⟩, 34, ?_, by decide⟩
    rw [List.getLast?_append]
    rfl
  unfold unquoteString
  rw [strip_spaced hw hw' hs]
  dsimp only
  rw [if_neg, if_pos]
  · rw [List.cons_append, List.drop_succ_cons, List.drop_zero, List.dropLast_concat]
    exact unescape_quoted h
  · obtain ⟨_, c, hc, _⟩ := hs
    refine ⟨rfl, ?_⟩
    rw [List.getLast?_append]
    rfl
  · rw [List.cons_append]
    simp

/-- the quoted form that escapes only quotation marks and backslashes -/
def quote (s : Str) : Str := s.flatMap fun c => if c = 34 ∨ c = 92 then [92, c] else [c]

/-- **C49** for that form: every string survives quoting and unquoting. -/
theorem C49_roundtrip (s : Str) : unquoteString (34 :: quote s ++ [34]) = s := by
  have hq : Quoted (quote s) s := by
    induction s with
    | nil => exact .nil
    | cons c s ih =>
      have e : quote (c :: s) = (if c = 34 ∨ c = 92 then [92, c] else [c]) ++ quote s := rfl
      rw [e]
      by_cases h : c = 34 ∨ c = 92
      · rw [if_pos h]
        exact .pair c _ _ (by omega) ih
      · rw [if_neg h]
        exact .plain c _ _ (by omega) (by omega) ih
  have := C49_unquote (quote s) s [] [] hq (fun _ h => nomatch h) (fun _ h => nomatch h)
  simpa using this

/-- **C49**, second part: a value that does not both begin and end with a quotation mark is only stripped. -/
theorem C49_unquoted (s : Str) (h : ¬ ((strip s).head? = some 34 ∧ (strip s).getLast? = some 34)) : unquoteString s = strip s := by
  unfold unquoteString
  dsimp only
  rw [if_neg h]
  split <;> rfl

example : unquoteString (str "  \"a\\\"b\" ") = str "a\"b" ∧ unquoteString (str " token ") = str "token" := by decide

/-! ### C53 -/

/-- the units, largest first -/
def units : List (Nat × Str) := [(1024 ^ 3, str "g"), (1024 ^ 2, str "m"), (1024, str "k"), (1, [])]

/-- **C53**: the number shown is `n / u` rounded down (`q * u ≤ n < (q + 1) * u`), with the suffix of the unit `u`; no
larger unit would show at least one, and `u` shows at least one unless it is the smallest. -/
theorem C53_by1024 (n : Nat) : ∃ q u suffix, (u, suffix) ∈ units ∧ fNum n true = dec q ++ suffix ∧ q * u ≤ n ∧ n < (q + 1) * u ∧
    (∀ v ∈ units, u < v.1 → n < v.1) ∧ (u = 1 ∨ 1 ≤ q) := by
  unfold fNum
  simp only [if_true]
  by_cases hg : n / 1024 / 1024 / 1024 = 0
  · by_cases hm : n / 1024 / 1024 = 0
    · by_cases hk : n / 1024 = 0
      · refine ⟨n, 1, [], by decide, ?_, by omega, by omega, ?_, .inl rfl⟩
        · rw [if_neg (by omega), if_neg (by omega), if_neg (by omega), List.append_nil]
        · intro v hv _
          simp only [units, List.mem_cons, List.not_mem_nil, or_false] at hv
          rcases hv with rfl | rfl | rfl | rfl <;> dsimp only at * <;> omega
      · refine ⟨n / 1024, 1024, str "k", by decide, ?_, by omega, by omega, ?_, .inr (by omega)⟩
        · rw [if_neg (by omega), if_neg (by omega), if_pos (by omega)]
        · intro v hv _
          simp only [units, List.mem_cons, List.not_mem_nil, or_false] at hv
          rcases hv with rfl | rfl | rfl | rfl <;> dsimp only at * <;> omega
    · refine ⟨n / 1024 / 1024, 1024 ^ 2, str "m", by decide, ?_, by omega, by omega, ?_, .inr (by omega)⟩
      · rw [if_neg (by omega), if_pos (by omega)]
      · intro v hv _
        simp only [units, List.mem_cons, List.not_mem_nil, or_false] at hv
        rcases hv with rfl | rfl | rfl | rfl <;> dsimp only at * <;> omega
  · refine ⟨n / 1024 / 1024 / 1024, 1024 ^ 3, str "g", by decide, ?_, by omega, by omega, ?_, .inr (by omega)⟩
    · rw [if_pos hg]
    · intro v hv _
      simp only [units, List.mem_cons, List.not_mem_nil, or_false] at hv
      rcases hv with rfl | rfl | rfl | rfl <;> dsimp only at * <;> omega

/-- without `by1024` the number itself is shown -/
theorem C53_plain (n : Nat) : fNum n false = dec n := rfl

example : fNum 1023 true = str "1023" ∧ fNum 1024 true = str "1k" ∧ fNum (5 * 1024 ^ 2 - 1) true = str "4m" := by decide +kernel

/-! ### C43 -/

/-- **C43**: lines contribute independently, in order. -/
theorem C43_append (a b : List (Str × Str)) (name : Str) : getHeader (a ++ b) name = getHeader a name ++ getHeader b name := by
  simp [getHeader]

/-- **C43**: a line of another name contributes nothing. -/
theorem C43_other (n v name : Str) (h : lower n ≠ name) : getHeader [(n, v)] name = [] := by
  simp [getHeader, h]

/-- **C43**: a line whose name, in any letter case, is `name` contributes its comma-separated pieces, stripped: for any
comma-free `pieces`, the value `p1,p2,...` gives `p1`, `p2`, ... without surrounding white space. -/
theorem C43_line (n name : Str) (h : lower n = name) (pieces : List Str) (hne : pieces ≠ []) (hp : ∀ p ∈ pieces, 44 ∉ p) :
    getHeader [(n, join [44] pieces)] name = pieces.map strip := by
  simp [getHeader, h, splitOn_join hne hp]

/-- the pieces of any value: every value is its comma-separated pieces -/
theorem C43_pieces (v : Str) : ∃ pieces, v = join [44] pieces ∧ pieces ≠ [] ∧ ∀ p ∈ pieces, 44 ∉ p := by
  induction v with
  | nil => exact ⟨[[]], rfl, by simp, by simp⟩
  | cons c v ih =>
    obtain ⟨ps, rfl, hne, h⟩ := ih
    by_cases hc : c = 44
    · subst hc
      refine ⟨[] :: ps, ?_, by simp, ?_⟩
      · cases ps with
        | nil => exact absurd rfl hne
        | cons p ps => rfl
      · intro p hp
        rcases List.mem_cons.1 hp with rfl | hp
        · simp
        · exact h p hp
    · cases ps with
      | nil => exact absurd rfl hne
      | cons p ps =>
        refine ⟨(c :: p) :: ps, ?_, by simp, ?_⟩
        · cases ps with
          | nil => rfl
          | cons q ps => rfl
        · intro q hq
          rcases List.mem_cons.1 hq with rfl | hq
          · have := h p (List.mem_cons_self ..)
            simp only [List.mem_cons, not_or]
            exact ⟨Ne.symm hc, this⟩
          · exact h q (List.mem_cons_of_mem _ hq)

example : getHeader [(str "Expect", str "a, 100-continue"), (str "X", str "y"), (str "eXpect", str "b")] (str "expect") =
    [str "a", str "100-continue", str "b"] := by decide

end HL.Props
