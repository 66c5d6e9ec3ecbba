import Verif.Props.DateThm

/-!
# Range and Content-Range (C63)
-/

namespace HL.Props
open HL.RE HL.Syntax

theorem split1_parts {c : Nat} {s a b : Str} : split1 c s = some (a, b) ↔ s = a ++ c :: b ∧ c ∉ a := by
  induction s generalizing a with
  | nil => simp [split1]
  | cons x s ih =>
    unfold split1
    by_cases hx : x = c
    · rw [if_pos hx]
      constructor
      · intro h; cases h; exact ⟨by rw [hx]; rfl, by simp⟩
      · rintro ⟨h1, h2⟩
        cases a with
        | nil => simp at h1; rw [h1.2]
        | cons y a => simp at h1; exact absurd (by rw [← hx, h1.1]; simp) h2
    · rw [if_neg hx]
      cases hs : split1 c s with
      | none =>
        simp only [Option.map_none, reduceCtorEq, false_iff]
        rintro ⟨h1, h2⟩
        cases a with
        | nil => simp at h1; exact hx h1.1
        | cons y a =>
          simp at h1 h2
          have := (ih (a := a)).2 ⟨h1.2, h2.2⟩
          rw [hs] at this; exact nomatch this
      | some p =>
        obtain ⟨p, q⟩ := p
        simp only [Option.map_some, Option.some.injEq, Prod.mk.injEq]
        constructor
        · rintro ⟨rfl, rfl⟩
          obtain ⟨h1, h2⟩ := ih.1 hs
          exact ⟨by rw [h1]; rfl, by simp [h2, Ne.symm hx]⟩
        · rintro ⟨h1, h2⟩
          cases a with
          | nil => simp at h1; exact absurd h1.1 hx
          | cons y a =>
            simp at h1 h2
            have := (ih (a := a)).2 ⟨h1.2, h2.2⟩
            rw [hs] at this
            cases this
            exact ⟨by rw [h1.1], rfl⟩

theorem split1_nowhere {c : Nat} {s : Str} : split1 c s = none ↔ c ∉ s := by
  rw [split1_eq]
  split <;> simp_all

/-! ### specification -/

/-- one or more digits (at most 4300 of them), and the number they denote -/
def Numeral (s : Str) (n : Nat) : Prop := ∃ ds : List Nat, s = ds.map (48 + ·) ∧ ds ≠ [] ∧ (∀ d ∈ ds, d < 10) ∧ ds.length ≤ 4300 ∧ n = digitsNum ds

/-- one end of a range: nothing, or a number -/
def RangeEnd (s : Str) (x : Option Int) : Prop := (s = [] ∧ x = none) ∨ ∃ n, Numeral s n ∧ x = some (n : Int)

/-- `first-last`, `first-` or `-length`, with white space around it -/
def OneRange (s : Str) (r : Option Int × Option Int) : Prop :=
  ∃ w a b w', s = w ++ (a ++ [45] ++ b) ++ w' ∧ AllSpace w ∧ AllSpace w' ∧ RangeEnd a r.1 ∧ RangeEnd b r.2 ∧ r ≠ (none, none)

/-- `unit=range,range,...` -/
def RangeField (v unit : Str) (rs : List (Option Int × Option Int)) : Prop :=
  61 ∉ unit ∧ ∃ parts : List (Str × Option Int × Option Int), parts ≠ [] ∧ parts.map (·.2) = rs ∧
    v = unit ++ [61] ++ join [44] (parts.map (·.1)) ∧ ∀ p ∈ parts, 44 ∉ p.1 ∧ OneRange p.1 p.2

/-- it ends before it begins -/
def reversed (r : Option Int × Option Int) : Bool :=
  match r with
  | (some a, some b) => decide (a > b)
  | _ => false

/-- the recorded value -/
def rangeVal (unit : Str) (rs : List (Option Int × Option Int)) : Val :=
  .tuple [.str unit, .list (rs.map fun r => .tuple [F.optInt r.1, F.optInt r.2])]

/-- no superscript digits (`str.isdigit()` takes them, `int()` doesn't), and short enough for `int()` -/
def Ordinary (s : Str) : Prop := s.length ≤ 4300 ∧ ∀ c ∈ s, c ≠ 178 ∧ c ≠ 179 ∧ c ≠ 185

/-! ### numbers -/

theorem Numeral.int {s : Str} {n : Nat} (h : Numeral s n) : pyInt s = some (n : Int) ∧ isDigit s = true := by
  obtain ⟨ds, rfl, hne, hd, hl, rfl⟩ := h
  refine ⟨pyInt_iff.2 (IntText.digits rfl hne hd hl), ?_⟩
  unfold isDigit
  simp only [Bool.and_eq_true, List.all_eq_true, Bool.not_eq_true', List.isEmpty_eq_false_iff, ne_eq, List.map_eq_nil_iff]
  refine ⟨hne, ?_⟩
  intro c hc
  obtain ⟨d, hd', rfl⟩ := List.mem_map.1 hc
  have := hd d hd'
  unfold isDigitC
  simp; omega

theorem digitC_cases {c : Nat} (h : isDigitC c = true) : isSpace c = false ∧ c ≠ 43 ∧ c ≠ 45 ∧ c ≠ 95 := by
  have hc : c < 256 := by
    unfold isDigitC at h; simp at h; omega
  have : ∀ c < 256, isDigitC c = true → isSpace c = false ∧ c ≠ 43 ∧ c ≠ 45 ∧ c ≠ 95 := by decide +kernel
  exact this c hc h

theorem DigitText.numeral {t : Str} {ds : List Nat} (h : DigitText t ds) (ht : ∀ c ∈ t, c ≠ 95) : t = ds.map (48 + ·) ∧ ds ≠ [] ∧ ∀ d ∈ ds, d < 10 := by
  induction h with
  | last hd => exact ⟨rfl, by simp, by simpa using hd⟩
  | cons hd _ ih =>
    obtain ⟨h1, _, h3⟩ := ih fun c hc => ht c (by simp [hc])
    exact ⟨by rw [h1]; rfl, by simp, by intro d hd'; rcases List.mem_cons.1 hd' with rfl | hd'; exact hd; exact h3 d hd'⟩
  | under _ _ _ => exact absurd rfl (ht 95 (by simp))

theorem int_numeral {s : Str} {k : Int} (hd : isDigit s = true) (h : pyInt s = some k) : ∃ n, Numeral s n ∧ k = (n : Int) := by
  unfold isDigit at hd
  rw [Bool.and_eq_true, List.all_eq_true] at hd
  obtain ⟨w, t, w', rfl, hw, hw', ht⟩ := pyInt_iff.1 h
  have e1 : w = [] := by
    cases w with
    | nil => rfl
    | cons c w =>
      have := (digitC_cases (hd.2 c (by simp))).1
      rw [hw c (by simp)] at this; exact nomatch this
  have e2 : w' = [] := by
    cases w' with
    | nil => rfl
    | cons c w' =>
      have := (digitC_cases (hd.2 c (by simp))).1
      rw [hw' c (by simp)] at this; exact nomatch this
  subst e1 e2
  simp only [List.nil_append, List.append_nil] at *
  cases ht with
  | @plain _ ds hdt hl =>
    obtain ⟨h1, h2, h3⟩ := hdt.numeral fun c hc => (digitC_cases (hd.2 c hc)).2.2.2
    exact ⟨_, ⟨ds, h1, h2, h3, hl, rfl⟩, rfl⟩
  | plus _ _ => exact absurd rfl (digitC_cases (hd.2 43 (by simp))).2.1
  | minus _ _ => exact absurd rfl (digitC_cases (hd.2 45 (by simp))).2.2.1

/-- an ordinary text that `str.isdigit()` takes is a number -/
theorem digits_numeral {s : Str} (hd : isDigit s = true) (ho : Ordinary s) : ∃ n, Numeral s n := by
  unfold isDigit at hd
  rw [Bool.and_eq_true, List.all_eq_true] at hd
  refine ⟨_, s.map (· - 48), ?_, ?_, ?_, by simpa using ho.1, rfl⟩
  · rw [List.map_map]
    have : s = s.map id := by simp
    conv => lhs; rw [this]
    apply List.map_congr_left
    intro c hc
    have h1 := hd.2 c hc
    have h2 := ho.2 c hc
    unfold isDigitC at h1
    simp at h1 ⊢
    omega
  · simp; rintro rfl; simp at hd
  · intro d h
    obtain ⟨c, hc, rfl⟩ := List.mem_map.1 h
    have h1 := hd.2 c hc
    have h2 := ho.2 c hc
    unfold isDigitC at h1
    simp at h1
    omega

/-! ### Range -/

theorem parseEnd_good (add : AddNote) (s p : Str) (x : Option Int) (h : RangeEnd s x) : Does (F.range.parseEnd add s p) add.subject [] x := by
  unfold F.range.parseEnd
  rcases h with ⟨rfl, rfl⟩ | ⟨n, hn, rfl⟩
  · exact Does.pure _ _
  · obtain ⟨h1, h2⟩ := hn.int
    have hne : s.isEmpty = false := by
      unfold isDigit at h2; simp at h2; simpa using h2.1
    rw [hne, if_neg (by decide), h2, if_neg (by decide)]
    unfold F.intOrRaise
    rw [h1]
    exact Does.bind (cs := []) (Does.pure _ _) (Does.pure _ _)

theorem Does.cls {α} {w : W α} {s cs a} (h : Does w s cs a) : w.notes.map (·.cls) = cs := by
  have := congrArg (List.map (·.1)) h.notes
  rw [List.map_map, List.map_map] at this
  rw [show cs = cs.map ((·.1) ∘ (·, s)) by simp [Function.comp_def]]
  exact this

/-- it fails, and if the text is ordinary that is noted, once -/
structure Bad {α} (w : W α) (X : NoteId) (ordinary : Prop) : Prop where
  res : w.res = .error .valueError
  noted : ordinary → (w.notes.map (·.cls)).count X = 1

theorem Bad.bind {α β} {x : W α} {X o} (h : Bad x X o) (f : α → W β) : Bad (x >>= f) X o := by
  rw [W.bind_err h.res]
  exact ⟨rfl, h.noted⟩

theorem Bad.after {α β} {x : W α} {f : α → W β} {s cs a X o} (hx : Does x s cs a) (h : Bad (f a) X o) (hX : X ∉ cs) : Bad (x >>= f) X o := by
  rw [W.bind_ok hx.res]
  refine ⟨h.res, fun ho => ?_⟩
  rw [List.map_append, List.count_append, h.noted ho, Does.cls hx, List.count_eq_zero.2 hX]

theorem Bad.mono {α} {x : W α} {X} {o o' : Prop} (h : Bad x X o) (ho : o' → o) : Bad x X o' := ⟨h.res, fun h' => h.noted (ho h')⟩

theorem bad_throw {α} (add : AddNote) (p : Str) (o : Prop) : Bad (do F.range.bad add p; W.throw .valueError : W α) .RANGE_BAD_SYNTAX o :=
  ⟨rfl, fun _ => by rfl⟩

theorem parseEnd_bad (add : AddNote) (s p : Str) (h : ¬ ∃ x, RangeEnd s x) : Bad (F.range.parseEnd add s p) .RANGE_BAD_SYNTAX (Ordinary s) := by
  unfold F.range.parseEnd
  have hne : s.isEmpty = false := by
    rw [← Bool.not_eq_true]
    intro e
    exact h ⟨none, .inl ⟨List.isEmpty_iff.1 e, rfl⟩⟩
  rw [hne, if_neg (by decide)]
  cases hd : isDigit s with
  | false =>
    rw [if_pos (by decide)]
    exact bad_throw add p _
  | true =>
    rw [if_neg (by decide)]
    refine Bad.bind ?_ _
    unfold F.intOrRaise
    cases hp : pyInt s with
    | some k =>
      obtain ⟨n, hn, _⟩ := int_numeral hd hp
      exact absurd ⟨_, .inr ⟨n, hn, rfl⟩⟩ h
    | none =>
      refine ⟨rfl, fun ho => ?_⟩
      obtain ⟨n, hn⟩ := digits_numeral hd ho
      exact absurd ⟨_, .inr ⟨n, hn, rfl⟩⟩ h

theorem RangeEnd.noDash {s x} (h : RangeEnd s x) : 45 ∉ s := by
  rcases h with ⟨rfl, _⟩ | ⟨n, hn, _⟩
  · simp
  · have := hn.int.2
    unfold isDigit at this
    rw [Bool.and_eq_true, List.all_eq_true] at this
    exact fun h => (digitC_cases (this.2 45 h)).2.2.1 rfl

theorem RangeEnd.noSpace {s x} (h : RangeEnd s x) : ∀ c ∈ s, isSpace c = false := by
  rcases h with ⟨rfl, _⟩ | ⟨n, hn, _⟩
  · intro c hc; cases hc
  · have := hn.int.2
    unfold isDigit at this
    rw [Bool.and_eq_true, List.all_eq_true] at this
    exact fun c hc => (digitC_cases (this.2 c hc)).1

theorem dashed_stripped {a b : Str} (ha : ∀ c ∈ a, isSpace c = false) (hb : ∀ c ∈ b, isSpace c = false) : Stripped (a ++ [45] ++ b) := by
  constructor
  · cases a with
    | nil => exact ⟨45, rfl, by decide⟩
    | cons c a => exact ⟨c, rfl, ha c (by simp)⟩
  · rcases List.eq_nil_or_concat b with rfl | ⟨p, c, rfl⟩
    · exact ⟨45, by simp, by decide⟩
    · refine ⟨c, by rw [List.concat_eq_append, ← List.append_assoc, List.getLast?_concat], hb c (by simp)⟩

theorem OneRange.strip {s r} (h : OneRange s r) : ∃ a b, HL.strip s = a ++ 45 :: b ∧ RangeEnd a r.1 ∧ RangeEnd b r.2 ∧ r ≠ (none, none) := by
  obtain ⟨w, a, b, w', rfl, hw, hw', ha, hb, hr⟩ := h
  exact ⟨a, b, by rw [strip_spaced hw hw' (dashed_stripped ha.noSpace hb.noSpace)]; simp, ha, hb, hr⟩

theorem OneRange.of_strip {s a b : Str} {r : Option Int × Option Int} (h : HL.strip s = a ++ 45 :: b) (ha : RangeEnd a r.1) (hb : RangeEnd b r.2) (hr : r ≠ (none, none)) : OneRange s r := by
  obtain ⟨w, w', hs, hw, hw', _⟩ := strip_decomp s
  exact ⟨w, a, b, w', by rw [h] at hs; simpa using hs, hw, hw', ha, hb, hr⟩

theorem RangeEnd.unique {s x y} (hx : RangeEnd s x) (hy : RangeEnd s y) : x = y := by
  rcases hx with ⟨rfl, rfl⟩ | ⟨n, hn, rfl⟩ <;> rcases hy with ⟨h, rfl⟩ | ⟨k, hk, rfl⟩
  · rfl
  · obtain ⟨ds, h, hne, _⟩ := hk
    simp at h; exact absurd h hne
  · obtain ⟨ds, h', hne, _⟩ := hn
    rw [h] at h'; simp at h'; exact absurd h' hne
  · have h1 := hn.int.1
    rw [hk.int.1] at h1
    rw [Option.some.inj h1]

theorem parseSpec_good (add : AddNote) (s : Str) (r : Option Int × Option Int) (h : OneRange s r) :
    Does (F.range.parseSpec add s) add.subject (if reversed r then [.RANGE_INVALID_range] else []) r := by
  obtain ⟨a, b, hs, ha, hb, hr⟩ := h.strip
  unfold F.range.parseSpec
  rw [split1_parts.2 ⟨hs, ha.noDash⟩]
  dsimp only
  refine Does.bind (cs := []) (parseEnd_good add a _ _ ha) (Does.bind (cs := []) (parseEnd_good add b _ _ hb) ?_)
  obtain ⟨x, y⟩ := r
  cases x <;> cases y
  · exact absurd rfl hr
  · exact Does.pure _ _
  · exact Does.pure _ _
  · exact (Does.seq (Does.when (Does.add1 _ _ _)) (Does.pure _ _)).congr (List.append_nil _)

theorem Ordinary.of_infix {s t : Str} (h : Ordinary s) (hl : t.length ≤ s.length) (hm : ∀ c ∈ t, c ∈ s) : Ordinary t :=
  ⟨Nat.le_trans hl h.1, fun c hc => h.2 c (hm c hc)⟩

theorem parseSpec_bad (add : AddNote) (s : Str) (h : ¬ ∃ r, OneRange s r) : Bad (F.range.parseSpec add s) .RANGE_BAD_SYNTAX (Ordinary s) := by
  unfold F.range.parseSpec
  cases hs : split1 45 (strip s) with
  | none => exact bad_throw add _ _
  | some p =>
    obtain ⟨a, b⟩ := p
    obtain ⟨hs, _⟩ := split1_parts.1 hs
    dsimp only
    obtain ⟨w, w', hd, _⟩ := strip_decomp s
    have hoa : Ordinary s → Ordinary a := fun ho => ho.of_infix (by rw [hd, hs]; simp; omega) (by intro c hc; rw [hd, hs]; simp [hc])
    have hob : Ordinary s → Ordinary b := fun ho => ho.of_infix (by rw [hd, hs]; simp; omega) (by intro c hc; rw [hd, hs]; simp [hc])
    by_cases ha : ∃ x, RangeEnd a x
    · obtain ⟨x, ha⟩ := ha
      refine Bad.after (parseEnd_good add a _ _ ha) ?_ (by simp)
      by_cases hb : ∃ y, RangeEnd b y
      · obtain ⟨y, hb⟩ := hb
        refine Bad.after (parseEnd_good add b _ _ hb) ?_ (by simp)
        have hxy : (x, y) = (none, none) := Classical.byContradiction fun hn => h ⟨(x, y), OneRange.of_strip hs ha hb hn⟩
        cases hxy
        exact bad_throw add _ _
      · exact ((parseEnd_bad add b _ hb).bind _).mono hob
    · exact ((parseEnd_bad add a _ ha).bind _).mono hoa

theorem specs_good (add : AddNote) (parts : List (Str × Option Int × Option Int)) (h : ∀ p ∈ parts, OneRange p.1 p.2) :
    Does ((parts.map (·.1)).mapM (F.range.parseSpec add)) add.subject (parts.flatMap fun p => if reversed p.2 then [.RANGE_INVALID_range] else []) (parts.map (·.2)) := by
  induction parts with
  | nil => exact Does.pure _ _
  | cons p ps ih =>
    rw [List.map_cons, List.mapM_cons]
    refine Does.bind (parseSpec_good add p.1 p.2 (h p (by simp))) ?_
    have := Does.bind (ih fun q hq => h q (by simp [hq])) (Does.pure (p.2 :: ps.map (·.2)) add.subject) (f := fun l => pure (p.2 :: l))
    rw [List.append_nil] at this
    exact this

theorem specs_bad (add : AddNote) (parts : List Str) (h : ¬ ∀ p ∈ parts, ∃ r, OneRange p r) :
    Bad (parts.mapM (F.range.parseSpec add)) .RANGE_BAD_SYNTAX (∀ p ∈ parts, Ordinary p) := by
  induction parts with
  | nil => exact absurd (by intro p hp; cases hp) h
  | cons p ps ih =>
    rw [List.mapM_cons]
    by_cases hp : ∃ r, OneRange p r
    · obtain ⟨r, hr⟩ := hp
      refine Bad.after (parseSpec_good add p r hr) ?_ (by split <;> simp)
      refine ((ih ?_).bind _).mono fun ho q hq => ho q (by simp [hq])
      intro hn
      apply h
      intro q hq
      rcases List.mem_cons.1 hq with rfl | hq
      · exact ⟨r, hr⟩
      · exact hn q hq
    · exact ((parseSpec_bad add p hp).bind _).mono fun ho => ho p (by simp)

theorem splitOn_parts (c : Nat) (s : Str) : splitOn c s ≠ [] ∧ join [c] (splitOn c s) = s ∧ ∀ p ∈ splitOn c s, c ∉ p ∧ (∀ x ∈ p, x ∈ s) ∧ p.length ≤ s.length := by
  induction s with
  | nil => simp [splitOn, join]
  | cons x s ih =>
    obtain ⟨h1, h2, h3⟩ := ih
    unfold splitOn
    by_cases hx : x = c
    · rw [if_pos hx]
      refine ⟨by simp, ?_, ?_⟩
      · cases hs : splitOn c s with
        | nil => exact absurd hs h1
        | cons p ps =>
          rw [hs] at h2
          show [] ++ [c] ++ join [c] (p :: ps) = _
          rw [h2, hx]; rfl
      · intro p hp
        rcases List.mem_cons.1 hp with rfl | hp
        · simp
        · exact ⟨(h3 p hp).1, fun y hy => by simp [(h3 p hp).2.1 y hy], by have := (h3 p hp).2.2; simp; omega⟩
    · rw [if_neg hx]
      cases hs : splitOn c s with
      | nil => exact absurd hs h1
      | cons p ps =>
        rw [hs] at h2 h3
        dsimp only
        refine ⟨by simp, ?_, ?_⟩
        · cases ps with
          | nil => exact congrArg (x :: ·) h2
          | cons q ps => exact congrArg (x :: ·) h2
        · intro q hq
          rcases List.mem_cons.1 hq with rfl | hq
          · have := h3 p (by simp)
            refine ⟨?_, ?_, by have := this.2.2; simp; omega⟩
            · intro h; rcases List.mem_cons.1 h with rfl | h
              · exact hx rfl
              · exact this.1 h
            · intro y hy; rcases List.mem_cons.1 hy with rfl | hy
              · simp
              · simp [this.2.1 y hy]
          · have := h3 q (by simp [hq])
            exact ⟨this.1, fun y hy => by simp [this.2.1 y hy], by have := this.2.2; simp; omega⟩

/-- **C63** (`Range`, accepted) the ranges are recorded in order, and `RANGE_INVALID` is noted once for each that ends
before it begins; nothing else is noted. -/
theorem C63_range_accepted (add : AddNote) (v unit : Str) (rs : List (Option Int × Option Int)) (h : RangeField v unit rs) :
    Does (F.range.parse add v) add.subject (List.replicate (rs.countP reversed) .RANGE_INVALID_range) (rangeVal unit rs) := by
  obtain ⟨hu, parts, hne, rfl, rfl, hp⟩ := h
  unfold F.range.parse
  rw [split1_parts.2 ⟨(show _ = unit ++ 61 :: join [44] (parts.map (·.1)) by simp), hu⟩]
  dsimp only
  rw [splitOn_join (xs := parts.map (·.1)) (by simpa using hne) (by intro x hx; obtain ⟨p, hp', rfl⟩ := List.mem_map.1 hx; exact (hp p hp').1)]
  have key := Does.bind (specs_good add parts fun p hp' => (hp p hp').2)
    (f := fun ranges : List (Option Int × Option Int) => (pure (rangeVal unit ranges) : W Val))
    (Does.pure _ add.subject)
  rw [List.append_nil] at key
  refine Does.congr key ?_
  clear key
  clear hne hp
  induction parts with
  | nil => rfl
  | cons p ps ih =>
    rw [List.flatMap_cons, ih, List.map_cons, List.countP_cons]
    cases reversed p.2
    · rfl
    · exact (List.replicate_succ).symm

/-- **C63** (`Range`, rejected) anything else has no value, and `RANGE_BAD_SYNTAX` is noted, once.  That note is missing for some
texts with superscript digits or more than 4300 characters: `C63_range_unnoted`. -/
theorem C63_range_rejected (add : AddNote) (v : Str) (h : ¬ ∃ unit rs, RangeField v unit rs) :
    (F.range.parse add v).res = .error .valueError ∧ (Ordinary v → ((F.range.parse add v).notes.map (·.cls)).count .RANGE_BAD_SYNTAX = 1) := by
  have : Bad (F.range.parse add v) .RANGE_BAD_SYNTAX (Ordinary v) := by
    unfold F.range.parse
    cases hs : split1 61 v with
    | none => exact bad_throw add _ _
    | some p =>
      obtain ⟨unit, rest⟩ := p
      obtain ⟨e, hu⟩ := split1_parts.1 hs
      obtain ⟨h1, h2, h3⟩ := splitOn_parts 44 rest
      dsimp only
      have hb : ¬ ∀ p ∈ splitOn 44 rest, ∃ r, OneRange p r := by
        intro hall
        apply h
        have : ∀ l : List Str, (∀ p ∈ l, ∃ r, OneRange p r) → ∃ parts : List (Str × Option Int × Option Int), parts.map (·.1) = l ∧ ∀ p ∈ parts, OneRange p.1 p.2 := by
          intro l
          induction l with
          | nil => intro _; exact ⟨[], rfl, by intro p hp; cases hp⟩
          | cons p l ih =>
            intro h
            obtain ⟨r, hr⟩ := h p (by simp)
            obtain ⟨ps, hps, hall⟩ := ih fun q hq => h q (by simp [hq])
            refine ⟨(p, r) :: ps, by simp [hps], ?_⟩
            intro q hq
            rcases List.mem_cons.1 hq with rfl | hq
            · exact hr
            · exact hall q hq
        obtain ⟨parts, hp1, hp2⟩ := this _ hall
        refine ⟨unit, parts.map (·.2), hu, parts, ?_, rfl, by rw [hp1, h2, e]; simp, ?_⟩
        · rintro rfl; exact h1 hp1.symm
        · intro p hp
          refine ⟨(h3 p.1 ?_).1, hp2 p hp⟩
          rw [← hp1]; exact List.mem_map_of_mem hp
      refine ((specs_bad add _ hb).bind _).mono fun ho p hp => ?_
      refine ho.of_infix ?_ ?_
      · have := (h3 p hp).2.2; rw [e]; simp; omega
      · intro c hc; rw [e]; simp [(h3 p hp).2.1 c hc]
  exact ⟨this.res, this.noted⟩

/-- **C63** no note for a superscript: the value is just dropped -/
theorem C63_range_unnoted : (F.range.parse ⟨[], [], []⟩ (str "bytes=" ++ [178] ++ str "-")).notes = [] ∧
    (F.range.parse ⟨[], [], []⟩ (str "bytes=" ++ [178] ++ str "-")).res = .error .valueError := by decide +kernel

/-- `bytes=0-499, 600-500,-1` -/
example : RangeField (str "bytes=0-499, 600-500,-1") (str "bytes") [(some 0, some 499), (some 600, some 500), (none, some 1)] := by
  have n : ∀ ds : List Nat, ds ≠ [] → (∀ d ∈ ds, d < 10) → ds.length ≤ 4300 → ∀ k : Int, k = digitsNum ds → RangeEnd (ds.map (48 + ·)) (some k) :=
    fun ds h1 h2 h3 k hk => .inr ⟨_, ⟨ds, rfl, h1, h2, h3, rfl⟩, by rw [hk]⟩
  refine ⟨by decide, [(str "0-499", some 0, some 499), (str " 600-500", some 600, some 500), (str "-1", none, some 1)], by simp, rfl, rfl, ?_⟩
  intro p hp
  simp only [List.mem_cons, List.not_mem_nil, or_false] at hp
  rcases hp with rfl | rfl | rfl
  · exact ⟨by decide, [], str "0", str "499", [], rfl, (by intro c h; cases h), (by intro c h; cases h),
      n [0] (by decide) (by decide) (by decide) _ (by decide), n [4,9,9] (by decide) (by decide) (by decide) _ (by decide), by simp⟩
  · exact ⟨by decide, str " ", str "600", str "500", [], rfl, (by unfold AllSpace; decide), (by intro c h; cases h),
      n [6,0,0] (by decide) (by decide) (by decide) _ (by decide), n [5,0,0] (by decide) (by decide) (by decide) _ (by decide), by simp⟩
  · exact ⟨by decide, [], [], str "1", [], rfl, (by intro c h; cases h), (by intro c h; cases h), .inl ⟨rfl, rfl⟩, n [1] (by decide) (by decide) (by decide) _ (by decide), by simp⟩

end HL.Props
