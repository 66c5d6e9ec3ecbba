import Verif.Props.Strings
import Verif.Section

/-!
# Grammars: what the syntax checks decide
-/

namespace HL.Props

/-- the test a one-character expression makes -/
def RE.one (ic : Bool) : RE → Option (Nat → Bool)
  | .cset neg rs => some (csetHas ic neg rs)
  | .alt a b => match RE.one ic a, RE.one ic b with
    | some p, some q => some fun c => p c || q c
    | _, _ => none
  | _ => none

theorem one_L {ic : Bool} {r : RE} : ∀ {p : Nat → Bool}, RE.one ic r = some p → ∀ s, r.L ic s ↔ ∃ c, s = [c] ∧ p c = true := by
  induction r with
  | cset neg rs => intro p h s; simp only [RE.one, Option.some.injEq] at h; subst h; rfl
  | alt a b iha ihb =>
    intro p h s
    unfold RE.one at h
    split at h
    · rename_i pa pb ha hb
      simp only [Option.some.injEq] at h
      subst h
      simp only [RE.L, iha ha s, ihb hb s, Bool.or_eq_true]
      constructor
      · rintro (⟨c, h, hc⟩ | ⟨c, h, hc⟩)
        · exact ⟨c, h, .inl hc⟩
        · exact ⟨c, h, .inr hc⟩
      · rintro ⟨c, h, hc | hc⟩
        · exact .inl ⟨c, h, hc⟩
        · exact .inr ⟨c, h, hc⟩
    · simp at h
  | eps => intro p h; simp [RE.one] at h
  | seq a b => intro p h; simp [RE.one] at h
  | rep lo hi l r => intro p h; simp [RE.one] at h
  | sens r => intro p h; simp [RE.one] at h

/-- repetition of a one-character expression -/
theorem rep_one_L {ic : Bool} {r : RE} {p : Nat → Bool} (h : RE.one ic r = some p) (lo : Nat) (lazy : Bool) (s : Str) :
    (RE.rep lo none lazy r).L ic s ↔ lo ≤ s.length ∧ ∀ c ∈ s, p c = true := by
  simp only [RE.L]
  constructor
  · rintro ⟨ps, rfl, hl, _, hp⟩
    have key : ∀ ps : List Str, (∀ q ∈ ps, r.L ic q) → ps.flatten.length = ps.length ∧ ∀ c ∈ ps.flatten, p c = true := by
      intro ps
      induction ps with
      | nil => intro _; simp
      | cons q qs ih =>
        intro hp
        obtain ⟨c, rfl, hc⟩ := (one_L h q).1 (hp q (by simp))
        have := ih fun x hx => hp x (by simp [hx])
        refine ⟨by simp [this.1], ?_⟩
        intro d hd
        simp only [List.flatten_cons, List.cons_append, List.nil_append, List.mem_cons] at hd
        rcases hd with rfl | hd
        · exact hc
        · exact this.2 d hd
    have := key ps hp
    exact ⟨by omega, this.2⟩
  · rintro ⟨hl, hp⟩
    refine ⟨s.map fun c => [c], ?_, by simpa using hl, by simp, ?_⟩
    · clear hl hp
      induction s with
      | nil => rfl
      | cons c s ih => simpa using ih
    · intro q hq
      obtain ⟨c, hc, rfl⟩ := List.mem_map.1 hq
      exact (one_L h _).2 ⟨c, rfl, hp c hc⟩

theorem ws_one : RE.one true RE.ws = some (csetHas true false [(9,13), (28,32), (133,133), (160,160), (5760,5760), (8192,8202), (8232,8233),
  (8239,8239), (8287,8287), (12288,12288)]) := rfl

theorem ws_isSpace (c : Nat) : csetHas true false [(9,13), (28,32), (133,133), (160,160), (5760,5760), (8192,8202), (8232,8233),
    (8239,8239), (8287,8287), (12288,12288)] c = isSpace c := by
  rw [Bool.eq_iff_iff]
  unfold csetHas caseVariants isSpace inRanges
  simp only [if_true, bne_iff_ne, ne_eq, Bool.not_eq_false, List.any_cons, List.any_nil, Bool.or_false]
  split
  · rename_i h
    simp only [List.any_cons, List.any_nil, Bool.or_eq_true, Bool.and_eq_true, decide_eq_true_eq, bne_iff_ne, ne_eq, beq_iff_eq, Bool.or_false] at *
    omega
  · split
    · rename_i h
      simp only [List.any_cons, List.any_nil, Bool.or_eq_true, Bool.and_eq_true, decide_eq_true_eq, bne_iff_ne, ne_eq, beq_iff_eq, Bool.or_false] at *
      omega
    · simp only [List.any_cons, List.any_nil, Bool.or_eq_true, Bool.and_eq_true, decide_eq_true_eq, bne_iff_ne, ne_eq, beq_iff_eq, Bool.or_false] at *
      omega

theorem ws_star (s : Str) : (RE.star RE.ws).L true s ↔ AllSpace s := by
  unfold RE.star
  rw [rep_one_L ws_one]
  simp only [Nat.zero_le, true_and, ws_isSpace, AllSpace]

/-- a syntax check accepts a value that belongs to the grammar but for white space around it -/
theorem matchSpaced_iff (r : RE) (s : Str) :
    matchSpaced r s = true ↔ ∃ a b z, s = a ++ b ++ z ∧ AllSpace a ∧ r.L true b ∧ AllSpace z := by
  unfold matchSpaced RE.spaced
  rw [fullEnd_iff]
  simp only [RE.L, ws_star]
  constructor
  · rintro (⟨a, t, rfl, ha, b, z, rfl, hb, hz⟩ | ⟨_, rfl, a, t, rfl, ha, b, z, rfl, hb, hz⟩)
    · exact ⟨a, b, z, by simp, ha, hb, hz⟩
    · refine ⟨a, b, z ++ [10], by simp, ha, hb, ?_⟩
      intro c hc
      rcases List.mem_append.1 hc with h | h
      · exact hz c h
      · simp at h; subst h; decide
  · rintro ⟨a, b, z, rfl, ha, hb, hz⟩
    exact .inl ⟨a, b ++ z, by simp, ha, b, z, rfl, hb, hz⟩

/-- RFC 9110 5.6.2: the characters of a token -/
def isTchar (c : Nat) : Bool :=
  (48 ≤ c && c ≤ 57) || (65 ≤ c && c ≤ 90) || (97 ≤ c && c ≤ 122) || (str "!#$%&'*+-.^_`|~").contains c

theorem tchar_one : ∃ p, RE.one true Syntax.rfc9110.tchar = some p ∧ ∀ c, p c = isTchar c := by
  refine ⟨_, rfl, ?_⟩
  intro c
  by_cases h : c < 256
  · revert c; decide +kernel
  · have e : caseVariants c = [c] := by
      unfold caseVariants
      rw [if_neg, if_neg] <;> simp <;> omega
    have e2 : ∀ a b, b < 256 → csetHas true false [(a, b)] c = false := by
      intro a b hb
      simp [csetHas, e, inRanges]; omega
    have e3 : ∀ a b a' b', b < 256 → b' < 256 → csetHas true false [(a, b), (a', b')] c = false := by
      intro a b a' b' hb hb'
      simp [csetHas, e, inRanges]; omega
    have : isTchar c = false := by
      unfold isTchar
      have : (str "!#$%&'*+-.^_`|~").contains c = false := by
        rw [← Bool.not_eq_true, List.contains_iff_mem]
        intro hm
        have : ∀ x ∈ str "!#$%&'*+-.^_`|~", x < 256 := by decide
        exact h (this c hm)
      rw [this]
      simp; omega
    rw [this]
    simp [e2, e3]

theorem token_L (s : Str) : Syntax.rfc9110.token.L true s ↔ s ≠ [] ∧ ∀ c ∈ s, isTchar c = true := by
  obtain ⟨p, hp, he⟩ := tchar_one
  unfold Syntax.rfc9110.token RE.plus
  rw [rep_one_L hp]
  simp only [he, Nat.succ_le_iff, Nat.zero_add, List.length_pos_iff]

theorem strip_last (s : Str) (p : Str) (c : Nat) (h : strip s = p ++ [c]) : isSpace c = false := by
  obtain ⟨w, w', _, _, _, h2⟩ := strip_decomp s
  rcases h2 with h2 | h2
  · rw [h2] at h; simp at h
  · obtain ⟨_, d, hd, hs⟩ := h2
    rw [h] at hd
    simp at hd
    exact hd ▸ hs

/-- the check on field names: a token -/
theorem isToken_strip (s : Str) : isToken (strip s) = true ↔ strip s ≠ [] ∧ ∀ c ∈ strip s, isTchar c = true := by
  unfold isToken matchFull
  rw [fullEnd_iff, token_L]
  constructor
  · rintro (h | ⟨p, h, _⟩)
    · exact h
    · have := strip_last s p 10 h
      exact absurd this (by decide)
  · exact .inl

theorem isSpace_lower (c : Nat) : isSpace (lowerC c) = isSpace c := by
  rw [Bool.eq_iff_iff]
  unfold isSpace lowerC
  split
  · rename_i h
    simp only [Bool.or_eq_true, Bool.and_eq_true, decide_eq_true_eq, beq_iff_eq, bne_iff_ne, ne_eq] at *
    omega
  · rfl

theorem dropWhile_lower (s : Str) : (lower s).dropWhile isSpace = lower (s.dropWhile isSpace) := by
  induction s with
  | nil => rfl
  | cons c s ih =>
    show ((lowerC c) :: lower s).dropWhile isSpace = _
    rw [List.dropWhile_cons, List.dropWhile_cons, isSpace_lower]
    split
    · exact ih
    · rfl

theorem lower_reverse (s : Str) : (lower s).reverse = lower s.reverse := by simp [lower]

theorem strip_lower (s : Str) : strip (lower s) = lower (strip s) := by
  unfold strip rstrip lstrip
  rw [dropWhile_lower, lower_reverse, dropWhile_lower, lower_reverse]

theorem isTchar_lower (c : Nat) : isTchar (lowerC c) = isTchar c := by
  by_cases h : c < 256
  · revert c; decide +kernel
  · have : lowerC c = c := by
      unfold lowerC
      rw [if_neg]
      simp only [Bool.or_eq_true, Bool.and_eq_true, decide_eq_true_eq, bne_iff_ne, ne_eq]
      omega
    rw [this]

/-- whether a name is a token does not depend on its case -/
theorem isToken_lower {a b : Str} (h : lower a = lower b) : isToken (strip a) = isToken (strip b) := by
  have key : ∀ a, isToken (strip a) = true ↔ strip (lower a) ≠ [] ∧ ∀ c ∈ strip (lower a), isTchar c = true := by
    intro a
    rw [isToken_strip, strip_lower]
    constructor
    · rintro ⟨h1, h2⟩
      refine ⟨by simpa [lower] using h1, ?_⟩
      intro c hc
      obtain ⟨d, hd, rfl⟩ := List.mem_map.1 hc
      rw [isTchar_lower]
      exact h2 d hd
    · rintro ⟨h1, h2⟩
      refine ⟨by simpa [lower] using h1, ?_⟩
      intro c hc
      rw [← isTchar_lower]
      exact h2 _ (List.mem_map_of_mem hc)
  rw [Bool.eq_iff_iff, key, key, h]

theorem matchPrefix_none (r : RE) (v : Str) :
    matchPrefix r v = none ↔ ¬ ∃ a b z, v = a ++ b ++ z ∧ AllSpace a ∧ r.L true b := by
  unfold matchPrefix
  have : ((RE.seq (RE.star RE.ws) r).run true v = []) ↔ ¬ ∃ a b z, v = a ++ b ++ z ∧ AllSpace a ∧ r.L true b := by
    rw [List.eq_nil_iff_forall_not_mem]
    simp only [mem_run_iff, RE.L, ws_star]
    constructor
    · rintro h ⟨a, b, z, rfl, ha, hb⟩
      exact h z ⟨a ++ b, rfl, a, b, rfl, ha, hb⟩
    · rintro h t ⟨_, rfl, a, b, rfl, ha, hb⟩
      exact h ⟨a, b, t, rfl, ha, hb⟩
  rw [← this]
  split <;> rename_i heq <;> simp [heq]

/-- the place a detailed syntax error names: what comes before it matches the grammar -/
theorem matchPrefix_some {r : RE} {v : Str} {i : Nat} (h : matchPrefix r v = some i) :
    i ≤ v.length ∧ ∃ a b, v.take i = a ++ b ∧ AllSpace a ∧ r.L true b := by
  unfold matchPrefix at h
  split at h
  · simp at h
  · rename_i t ts heq
    simp only [Option.some.injEq] at h
    have hm : t ∈ (RE.seq (RE.star RE.ws) r).run true v := by rw [heq]; simp
    rw [mem_run_iff] at hm
    obtain ⟨p, rfl, hp⟩ := hm
    simp only [RE.L, ws_star] at hp
    obtain ⟨a, b, rfl, ha, hb⟩ := hp
    subst h
    have e : (a ++ b ++ t).length - t.length = (a ++ b).length := by simp only [List.length_append]; omega
    refine ⟨by omega, a, b, ?_, ha, hb⟩
    rw [e, List.take_left]

end HL.Props
