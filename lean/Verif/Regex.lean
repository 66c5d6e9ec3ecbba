import Verif.Py

/-!
# Python regular expressions

The fragment of `re` that httplint's grammars use: literals, character classes, concatenation,
alternation and (greedy or lazy) bounded repetition, with or without `re.IGNORECASE`.
`RE.run` is a backtracking matcher: it lists the remainders of the input after each possible match
of the expression at the start of the input, *in the order Python's engine tries them*.
`RE.L` is the usual set-of-strings semantics; `mem_run_iff` says the two agree.
-/

namespace HL

inductive RE where
  | eps
  /-- a character class: code-point ranges, possibly negated -/
  | cset (neg : Bool) (ranges : List (Nat × Nat))
  | seq (a b : RE)
  | alt (a b : RE)
  /-- `r{lo,hi}` (`hi = none`: unbounded), lazy or greedy -/
  | rep (lo : Nat) (hi : Option Nat) (lazy : Bool) (r : RE)
  /-- `(?-i:r)`: case-sensitive inside -/
  | sens (r : RE)
  deriving DecidableEq, Repr, Inhabited

namespace RE

def cls (rs : List (Nat × Nat)) : RE := cset false rs
def ncls (rs : List (Nat × Nat)) : RE := cset true rs
def ch (c : Nat) : RE := cls [(c, c)]
/-- `.` : anything but a newline -/
def anyc : RE := ncls [(10, 10)]
def seqs : List RE → RE
  | [] => eps
  | [r] => r
  | r :: rs => seq r (seqs rs)
/-- alternatives; only used on non-empty lists -/
def alts : List RE → RE
  | [] => cset false []
  | [r] => r
  | r :: rs => alt r (alts rs)
def lit (s : Str) : RE := seqs (s.map ch)
def star (r : RE) : RE := rep 0 none false r
def plus (r : RE) : RE := rep 1 none false r
def opt (r : RE) : RE := rep 0 (some 1) false r
/-- `\s` -/
def ws : RE := cls [(9,13), (28,32), (133,133), (160,160), (5760,5760), (8192,8202), (8232,8233),
  (8239,8239), (8287,8287), (12288,12288)]

end RE

/-- is `c` in one of the ranges -/
def inRanges (rs : List (Nat × Nat)) (c : Nat) : Bool := rs.any (fun r => r.1 ≤ c && c ≤ r.2)

/-- Case variants of a code point (Latin-1): those with the same lower case. -/
def caseVariants (c : Nat) : List Nat :=
  if (65 ≤ c && c ≤ 90) || (192 ≤ c && c ≤ 222 && c != 215) then [c, c + 32]
  else if (97 ≤ c && c ≤ 122) || (224 ≤ c && c ≤ 254 && c != 247) then [c, c - 32]
  else [c]

/-- does class `(neg, rs)` accept `c`; under `re.IGNORECASE` (`ic`) any case variant of `c` counts -/
def csetHas (ic neg : Bool) (rs : List (Nat × Nat)) (c : Nat) : Bool :=
  (if ic then (caseVariants c).any (inRanges rs) else inRanges rs c) != neg

/-- exactly `n` iterations of `f` -/
def iterRun (f : Str → List Str) : Nat → Str → List Str
  | 0, s => [s]
  | n + 1, s => (f s).flatMap (iterRun f n)

/-- at most `n` further iterations of `f`, each consuming something; greedy tries to go on first -/
def optRun (lazy : Bool) (f : Str → List Str) : Nat → Str → List Str
  | 0, s => [s]
  | n + 1, s =>
    let more := ((f s).filter (fun t => t.length < s.length)).flatMap (optRun lazy f n)
    if lazy then s :: more else more ++ [s]

/-- number of optional iterations worth trying on `s` -/
def optFuel (lo : Nat) (hi : Option Nat) (s : Str) : Nat :=
  match hi with
  | none => s.length
  | some h => min (h - lo) s.length

/-- `{lo,hi}` with `hi < lo` matches nothing (Python rejects such a pattern when compiling it) -/
def badRep (lo : Nat) (hi : Option Nat) : Bool :=
  match hi with
  | none => false
  | some h => decide (h < lo)

/-- The matcher: remainders of `s` after a match of `r` at its start, in Python's priority order. -/
def RE.run (ic : Bool) : RE → Str → List Str
  | .eps, s => [s]
  | .cset neg rs, s => match s with
    | [] => []
    | c :: t => if csetHas ic neg rs c then [t] else []
  | .seq a b, s => (a.run ic s).flatMap (b.run ic)
  | .alt a b, s => a.run ic s ++ b.run ic s
  | .rep lo hi lazy r, s =>
    if badRep lo hi then []
    else (iterRun (r.run ic) lo s).flatMap (fun t => optRun lazy (r.run ic) (optFuel lo hi t) t)
  | .sens r, s => r.run false s

/-- The language of a regular expression. -/
def RE.L (ic : Bool) : RE → Str → Prop
  | .eps, s => s = []
  | .cset neg rs, s => ∃ c, s = [c] ∧ csetHas ic neg rs c = true
  | .seq a b, s => ∃ s₁ s₂, s = s₁ ++ s₂ ∧ a.L ic s₁ ∧ b.L ic s₂
  | .alt a b, s => a.L ic s ∨ b.L ic s
  | .rep lo hi _ r, s => ∃ ps : List Str, s = ps.flatten ∧ lo ≤ ps.length ∧
      (∀ h, hi = some h → ps.length ≤ h) ∧ ∀ p ∈ ps, r.L ic p
  | .sens r, s => r.L false s

/-- `re.match(r, s)` : the remainder after the first (highest priority) match. -/
def RE.pmatch (ic : Bool) (r : RE) (s : Str) : Option Str := (r.run ic s).head?

/-- `re.match(rf"^{r}$", s)` succeeds: `$` matches at the end or just before a final newline. -/
def RE.fullEnd (ic : Bool) (r : RE) (s : Str) : Bool := (r.run ic s).any (fun t => t == [] || t == [10])

/-- `re.match(rf"^\s*(?:{r})\s*$", s)` succeeds. -/
def RE.spaced (ic : Bool) (r : RE) (s : Str) : Bool :=
  (RE.seq (RE.star RE.ws) (RE.seq r (RE.star RE.ws))).fullEnd ic s

/-! ### Correctness of the matcher -/

private theorem iter_mem (f : Str → List Str) (P : Str → Prop)
    (hf : ∀ s t, t ∈ f s ↔ ∃ p, s = p ++ t ∧ P p) (n : Nat) :
    ∀ s t, t ∈ iterRun f n s ↔ ∃ ps : List Str, s = ps.flatten ++ t ∧ ps.length = n ∧ ∀ p ∈ ps, P p := by
  induction n with
  | zero =>
    intro s t
    simp only [iterRun, List.mem_singleton]
    constructor
    · rintro rfl; exact ⟨[], by simp⟩
    · rintro ⟨ps, h1, h2, _⟩
      rw [List.length_eq_zero_iff] at h2; subst h2; simpa using h1.symm
  | succ n ih =>
    intro s t
    simp only [iterRun, List.mem_flatMap]
    constructor
    · rintro ⟨u, hu, ht⟩
      obtain ⟨p, rfl, hp⟩ := (hf s u).1 hu
      obtain ⟨ps, rfl, hlen, hps⟩ := (ih u t).1 ht
      refine ⟨p :: ps, by simp, by simp [hlen], ?_⟩
      intro q hq
      rcases List.mem_cons.1 hq with rfl | hq
      · exact hp
      · exact hps q hq
    · rintro ⟨ps, rfl, hlen, hps⟩
      cases ps with
      | nil => simp at hlen
      | cons p ps =>
        refine ⟨ps.flatten ++ t, (hf _ _).2 ⟨p, by simp, hps p (by simp)⟩, (ih _ _).2 ⟨ps, rfl, ?_, ?_⟩⟩
        · simpa using hlen
        · intro q hq; exact hps q (by simp [hq])

private theorem opt_mem (lazy : Bool) (f : Str → List Str) (P : Str → Prop)
    (hf : ∀ s t, t ∈ f s ↔ ∃ p, s = p ++ t ∧ P p) (n : Nat) :
    ∀ s t, t ∈ optRun lazy f n s ↔
      ∃ ps : List Str, s = ps.flatten ++ t ∧ ps.length ≤ n ∧ ∀ p ∈ ps, p ≠ [] ∧ P p := by
  induction n with
  | zero =>
    intro s t
    simp only [optRun, List.mem_singleton]
    constructor
    · rintro rfl; exact ⟨[], by simp⟩
    · rintro ⟨ps, h1, h2, _⟩
      rw [Nat.le_zero, List.length_eq_zero_iff] at h2; subst h2; simpa using h1.symm
  | succ n ih =>
    intro s t
    have key : t ∈ optRun lazy f (n+1) s ↔ t = s ∨
        ∃ u, (u ∈ f s ∧ u.length < s.length) ∧ t ∈ optRun lazy f n u := by
      cases lazy <;> simp [optRun, List.mem_flatMap, List.mem_filter, or_comm]
    rw [key]
    constructor
    · rintro (rfl | ⟨u, ⟨hu, hlt⟩, ht⟩)
      · exact ⟨[], by simp⟩
      · obtain ⟨p, rfl, hp⟩ := (hf s u).1 hu
        obtain ⟨ps, rfl, hlen, hps⟩ := (ih u t).1 ht
        refine ⟨p :: ps, by simp, by simpa using hlen, ?_⟩
        intro q hq
        rcases List.mem_cons.1 hq with rfl | hq
        · refine ⟨?_, hp⟩
          rintro rfl; simp at hlt
        · exact hps q hq
    · rintro ⟨ps, rfl, hlen, hps⟩
      cases ps with
      | nil => left; simp
      | cons p ps =>
        right
        have hp := hps p (by simp)
        refine ⟨ps.flatten ++ t, ⟨(hf _ _).2 ⟨p, by simp, hp.2⟩, ?_⟩, (ih _ _).2 ⟨ps, rfl, ?_, ?_⟩⟩
        · have : 0 < p.length := List.length_pos_iff.2 hp.1
          simp; omega
        · simpa using hlen
        · intro q hq; exact hps q (by simp [hq])

private def nonNil (p : Str) : Bool := !p.isEmpty

private theorem nonNil_iff (p : Str) : nonNil p = true ↔ p ≠ [] := by cases p <;> simp [nonNil]

private theorem flatten_filter (ps : List Str) : (ps.filter nonNil).flatten = ps.flatten := by
  induction ps with
  | nil => rfl
  | cons p ps ih =>
    by_cases h : p = []
    · subst h; simpa [nonNil] using ih
    · rw [List.filter_cons_of_pos ((nonNil_iff p).2 h)]; simpa using ih

private theorem length_le_flatten (ps : List Str) (h : ∀ p ∈ ps, p ≠ []) :
    ps.length ≤ ps.flatten.length := by
  induction ps with
  | nil => simp
  | cons p ps ih =>
    have h1 : 0 < p.length := List.length_pos_iff.2 (h p (by simp))
    have h2 := ih (fun q hq => h q (by simp [hq]))
    simp at h2 ⊢; omega

/-- The matcher finds exactly the prefixes that belong to the language. -/
theorem mem_run_iff (ic : Bool) (r : RE) : ∀ s t, t ∈ r.run ic s ↔ ∃ p, s = p ++ t ∧ r.L ic p := by
  induction r generalizing ic with
  | sens r ih =>
    intro s t
    simp only [RE.run, RE.L]
    exact ih false s t
  | eps =>
    intro s t
    simp only [RE.run, RE.L, List.mem_singleton]
    constructor
    · rintro rfl; exact ⟨[], rfl, rfl⟩
    · rintro ⟨p, rfl, rfl⟩; rfl
  | cset neg rs =>
    intro s t
    cases s with
    | nil =>
      simp only [RE.run, RE.L, List.not_mem_nil, false_iff]
      rintro ⟨p, h1, c, rfl, _⟩; simp at h1
    | cons c s =>
      simp only [RE.run, RE.L]
      constructor
      · intro h
        split at h
        · rename_i hc
          simp only [List.mem_singleton] at h; subst h
          exact ⟨[c], rfl, c, rfl, hc⟩
        · simp at h
      · rintro ⟨p, h1, d, rfl, hd⟩
        simp only [List.cons_append, List.nil_append, List.cons.injEq] at h1
        obtain ⟨rfl, rfl⟩ := h1
        simp [hd]
  | seq a b iha ihb =>
    intro s t
    simp only [RE.run, RE.L, List.mem_flatMap]
    constructor
    · rintro ⟨u, hu, ht⟩
      obtain ⟨p, rfl, hp⟩ := (iha ic s u).1 hu
      obtain ⟨q, rfl, hq⟩ := (ihb ic u t).1 ht
      exact ⟨p ++ q, by simp, p, q, rfl, hp, hq⟩
    · rintro ⟨_, rfl, p, q, rfl, hp, hq⟩
      exact ⟨q ++ t, (iha ic _ _).2 ⟨p, by simp, hp⟩, (ihb ic _ _).2 ⟨q, rfl, hq⟩⟩
  | alt a b iha ihb =>
    intro s t
    simp only [RE.run, RE.L, List.mem_append, iha, ihb]
    constructor
    · rintro (⟨p, h, hp⟩ | ⟨p, h, hp⟩)
      · exact ⟨p, h, Or.inl hp⟩
      · exact ⟨p, h, Or.inr hp⟩
    · rintro ⟨p, h, hp | hp⟩
      · exact Or.inl ⟨p, h, hp⟩
      · exact Or.inr ⟨p, h, hp⟩
  | rep lo hi lazy r ih =>
    intro s t
    simp only [RE.run, RE.L]
    split
    · rename_i hbad
      simp only [List.not_mem_nil, false_iff]
      rintro ⟨p, _, ps, _, h1, h2, _⟩
      cases hi with
      | none => simp [badRep] at hbad
      | some h =>
        simp [badRep] at hbad
        have := h2 h rfl; omega
    · rename_i hok
      simp only [List.mem_flatMap]
      constructor
      · rintro ⟨u, hu, ht⟩
        obtain ⟨ps, rfl, hl, hp⟩ := (iter_mem _ _ (ih ic) lo s u).1 hu
        obtain ⟨qs, rfl, hl2, hq⟩ := (opt_mem lazy _ _ (ih ic) _ u t).1 ht
        refine ⟨(ps ++ qs).flatten, by simp, ps ++ qs, rfl, by simp [hl], ?_, ?_⟩
        · intro h hh
          subst hh
          simp [optFuel] at hl2
          simp [badRep] at hok
          simp [hl]; omega
        · intro p hp'
          rcases List.mem_append.1 hp' with h | h
          · exact hp p h
          · exact (hq p h).2
      · rintro ⟨_, rfl, ps, rfl, hlo, hhi, hps⟩
        refine ⟨(ps.drop lo).flatten ++ t, (iter_mem _ _ (ih ic) lo _ _).2 ⟨ps.take lo, ?_, ?_, ?_⟩,
          (opt_mem lazy _ _ (ih ic) _ _ _).2 ⟨(ps.drop lo).filter nonNil, ?_, ?_, ?_⟩⟩
        · rw [← List.append_assoc, ← List.flatten_append, List.take_append_drop]
        · simp; omega
        · intro p hp; exact hps p (List.mem_of_mem_take hp)
        · rw [flatten_filter]
        · have hne : ∀ p ∈ (ps.drop lo).filter nonNil, p ≠ [] := by
            intro p hp; exact (nonNil_iff p).1 (List.mem_filter.1 hp).2
          have h1 := length_le_flatten _ hne
          rw [flatten_filter] at h1
          have h2 : ((ps.drop lo).filter nonNil).length ≤ (ps.drop lo).length := List.length_filter_le _ _
          unfold optFuel
          cases hi with
          | none => simp only [List.length_append]; omega
          | some h =>
            have h3 := hhi h rfl
            simp only [List.length_drop] at h2
            simp only [List.length_append]
            omega
        · intro p hp
          have := List.mem_filter.1 hp
          exact ⟨(nonNil_iff p).1 this.2, hps p (List.mem_of_mem_drop this.1)⟩

theorem fullEnd_iff (ic : Bool) (r : RE) (s : Str) :
    r.fullEnd ic s = true ↔ r.L ic s ∨ ∃ p, s = p ++ [10] ∧ r.L ic p := by
  unfold RE.fullEnd
  simp only [List.any_eq_true, Bool.or_eq_true, beq_iff_eq, mem_run_iff]
  constructor
  · rintro ⟨t, ⟨p, rfl, hp⟩, rfl | rfl⟩
    · left; simpa using hp
    · right; exact ⟨p, rfl, hp⟩
  · rintro (h | ⟨p, rfl, hp⟩)
    · exact ⟨[], ⟨s, by simp, h⟩, Or.inl rfl⟩
    · exact ⟨[10], ⟨p, rfl, hp⟩, Or.inr rfl⟩

end HL
