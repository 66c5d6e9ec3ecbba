import Verif.Props.OwnNotes
import Verif.Props.Ints

/-!
# Numbers in fields: Content-Length and Age (C54, C55)
-/

namespace HL.Props
open HL.F

/-- a field section (the headers, or the trailers if `t`) has been processed without raising: the linter `m` became `m'` -/
structure Processed (env : Env) (related : Option Msg) (t : Bool) (ls : List Line) (m m' : Msg) : Prop where
  linting : Linting env m
  new : (m.section t).handlers = []
  ok : processSection env related t ls m = (m', .ok ())

/-- the notes of class `X` that were added, by what they are about -/
def AddedAbout (X : NoteId) (m m' : Msg) (subjects : List Str) : Prop :=
  ∃ added : List Note, m'.notes = m.notes ++ added ∧ (ofClass X added).map (·.subject) = subjects

theorem mem_namesFor {f ls n} : n ∈ namesFor f ls ↔ n ∈ namesOf ls ∧ classOf n = f := by
  unfold namesFor; rw [List.mem_filter, decide_eq_true_iff]

/-- the text of a field that allows one value: its first line, without surrounding white space -/
def textOf (ls : List Line) (n : Str) : Str := strip ((valuesOf ls n).headD [])

theorem valuesOf_ne {ls : List Line} {n : Str} (hn : n ∈ namesOf ls) : valuesOf ls n ≠ [] := by
  intro he
  have := sent_snd .request n ls
  rw [he, List.map_eq_nil_iff] at this
  exact sent_ne_nil hn this

section
variable {env : Env} {related : Option Msg} {t : Bool} {ls : List Line} {m m' : Msg}

/-- what a singleton field's text gives is what is recorded -/
theorem Processed.singleton (P : Processed env related t ls m m') (hu : Unpadded ls) {f : FieldId} (hk : f.info.kind = .singleton)
    (hf : f ≠ .unknownField) {n : Str} (hn : n ∈ namesFor f ls) (hv : f.validIn m.kind = true) :
    dget (m'.section t).parsed n = some ((parseText ⟨env, m, related⟩ f (textOf ls n)).toOption.getD .none) := by
  obtain ⟨hn, hc⟩ := mem_namesFor.1 hn
  have hne := valuesOf_ne hn
  cases hx : valuesOf ls n with
  | nil => exact absurd hx hne
  | cons first rest =>
    have := C17_value env related t ls m m' P.linting P.new hu P.ok n (by rw [hc]; exact hk) (by rw [okName_class hc hf]; exact hv) first rest hx
    rw [this, hc]
    unfold textOf
    rw [hx]
    dsimp only [List.headD]
    cases parseText ⟨env, m, related⟩ f (strip first) <;> rfl

theorem Processed.singleton_notes (P : Processed env related t ls m m') {X f} (hX : ParseOnly X f) (hk : f.info.kind = .singleton)
    (hv : f.validIn m.kind = true) (g : Str → List Str)
    (hg : ∀ n ∈ namesFor f ls, List.replicate ((parseNotes ⟨env, m, related⟩ f (textOf ls n)).count X) (fieldSubject n) = g n) :
    AddedAbout X m m' ((namesFor f ls).flatMap g) := by
  obtain ⟨added, e, ht⟩ := HL.Props.singleton_notes hX hk P.linting P.new P.ok
  refine ⟨added, e, ?_⟩
  rw [ht, if_pos hv]
  exact flatMap_congr_mem hg

/-! ### Content-Length -/

theorem cl_bad_only : ParseOnly .CL_BAD_SYNTAX .content_length_ := by own_only
theorem cl_large_only : ParseOnly .CL_TOO_LARGE .content_length_ := by own_only

theorem content_length_text (c : Ctx) (v : Str) :
    parseText c .content_length_ v = (match pyInt v with | some k => .ok (.int k) | none => .error .valueError) ∧
    parseNotes c .content_length_ v = (match pyInt v with
      | some k => if k > 9223372036854775807 then [.CL_TOO_LARGE] else []
      | none => [.CL_BAD_SYNTAX]) := by
  show (content_length.parse ⟨[], [], []⟩ v).res = _ ∧ (content_length.parse ⟨[], [], []⟩ v).notes.map (·.cls) = _
  unfold content_length.parse
  cases pyInt v with
  | none => exact ⟨rfl, rfl⟩
  | some k =>
    refine ⟨?_, ?_⟩
    · dsimp only; unfold W.when; split <;> rfl
    · dsimp only
      by_cases hk : k > 9223372036854775807
      · rw [if_pos hk, decide_eq_true hk]; rfl
      · rw [if_neg hk, decide_eq_false hk]; rfl

open Classical in
/-- **C54** (what is accepted) `Content-Length` is recorded as the number its text denotes for `int()`, and as `None`
with a `CL_BAD_SYNTAX` when it denotes none; `CL_TOO_LARGE` is added exactly for more than 2⁶³-1.  Missing: `int()` takes
more than the decimal integers of the property (`C54_counterexample`). -/
theorem C54_content_length_partial (P : Processed env related t ls m m') (hu : Unpadded ls) :
    (∀ n ∈ namesFor .content_length_ ls, ∀ k, IntText (textOf ls n) k → dget (m'.section t).parsed n = some (.int k)) ∧
    (∀ n ∈ namesFor .content_length_ ls, (¬ ∃ k, IntText (textOf ls n) k) → dget (m'.section t).parsed n = some .none) ∧
    AddedAbout .CL_BAD_SYNTAX m m' ((namesFor .content_length_ ls).flatMap fun n =>
      if ∃ k, IntText (textOf ls n) k then [] else [fieldSubject n]) ∧
    AddedAbout .CL_TOO_LARGE m m' ((namesFor .content_length_ ls).flatMap fun n =>
      if ∃ k, IntText (textOf ls n) k ∧ k > 2 ^ 63 - 1 then [fieldSubject n] else []) := by
  have hv : FieldId.content_length_.validIn m.kind = true := by cases m.kind <;> rfl
  refine ⟨?_, ?_, ?_, ?_⟩
  · intro n hn k hk
    rw [P.singleton hu rfl (by decide) hn hv, (content_length_text _ _).1, pyInt_iff.2 hk]; rfl
  · intro n hn hk
    rw [P.singleton hu rfl (by decide) hn hv, (content_length_text _ _).1, pyInt_none.2 hk]; rfl
  · refine P.singleton_notes cl_bad_only rfl hv _ fun n hn => ?_
    rw [(content_length_text _ _).2]
    cases hi : pyInt (textOf ls n) with
    | none => rw [if_neg (pyInt_none.1 hi)]; rfl
    | some k =>
      rw [if_pos ⟨k, pyInt_iff.1 hi⟩]
      dsimp only
      split <;> rfl
  · refine P.singleton_notes cl_large_only rfl hv _ fun n hn => ?_
    rw [(content_length_text _ _).2]
    cases hi : pyInt (textOf ls n) with
    | none =>
      rw [if_neg]
      · rfl
      · rintro ⟨k, hk, _⟩; exact pyInt_none.1 hi ⟨k, hk⟩
    | some k =>
      dsimp only
      by_cases hk : k > 9223372036854775807
      · rw [if_pos hk, if_pos ⟨k, pyInt_iff.1 hi, hk⟩]; rfl
      · rw [if_neg hk, if_neg]
        · rfl
        · rintro ⟨k', hk', hl⟩
          rw [IntText.unique hk' (pyInt_iff.1 hi)] at hl
          exact hk hl

/-- **C54** (decimal integers) one or more ASCII digits (up to 4300) are recorded as the number they denote, with no
syntax note -/
theorem C54_digits (P : Processed env related t ls m m') (hu : Unpadded ls) (n : Str) (hn : n ∈ namesFor .content_length_ ls)
    (ds : List Nat) (hd : ∀ d ∈ ds, d < 10) (hne : ds ≠ []) (hlen : ds.length ≤ 4300) (he : textOf ls n = ds.map (48 + ·)) :
    dget (m'.section t).parsed n = some (.int (digitsNum ds)) ∧ IntText (textOf ls n) (digitsNum ds) := by
  have h1 : IntText (textOf ls n) (digitsNum ds) := IntText.digits he hne hd hlen
  exact ⟨(C54_content_length_partial P hu).1 n hn _ h1, h1⟩

/-- a response with these `Content-Length` lines, processed by a new linter -/
def clDone (v : Str) : Msg × Except Exn Unit :=
  processSection toyEnv none false [(str "Content-Length", v)] (fresh toyEnv .response none false false)

/-- **C54 is false of the code** as stated: `-5` and `1_0` are accepted, with no note at all -/
theorem C54_counterexample :
    (clDone (str "-5")).2 = .ok () ∧ dget (clDone (str "-5")).1.headers.parsed (str "content-length") = some (.int (-5)) ∧
      (clDone (str "-5")).1.notes = [] ∧
    (clDone (str "1_0")).2 = .ok () ∧ dget (clDone (str "1_0")).1.headers.parsed (str "content-length") = some (.int 10) ∧
      (clDone (str "1_0")).1.notes = [] := by
  decide +kernel

/-- non-vacuity: a `Content-Length` that is a number and one that is not (spelt differently) -/
example : Processed toyEnv none false [(str "Content-Length", str " 42"), (str "content_length", str "x")] (fresh toyEnv .response none false false)
      (processSection toyEnv none false [(str "Content-Length", str " 42"), (str "content_length", str "x")] (fresh toyEnv .response none false false)).1 ∧
    namesFor .content_length_ [(str "Content-Length", str " 42"), (str "content_length", str "x")] = [str "content-length", str "content_length"] := by
  refine ⟨⟨exLinting, rfl, ?_⟩, by decide +kernel⟩
  have : (processSection toyEnv none false [(str "Content-Length", str " 42"), (str "content_length", str "x")] (fresh toyEnv .response none false false)).2 = .ok () := by decide +kernel
  rw [← this]

/-! ### Age -/

theorem age_int_only : ParseOnly .AGE_NOT_INT .age_ := by own_only
theorem age_neg_only : ParseOnly .AGE_NEGATIVE .age_ := by own_only
theorem age_large_only : ParseOnly .AGE_LARGE .age_ := by own_only

theorem age_text (c : Ctx) (v : Str) :
    parseText c .age_ v = (match pyInt v with | some k => if k < 0 then .error .valueError else .ok (.int k) | none => .error .valueError) ∧
    parseNotes c .age_ v = (match pyInt v with
      | some k => if k < 0 then [.AGE_NEGATIVE] else if k > 2147483648 then [.AGE_LARGE] else []
      | none => [.AGE_NOT_INT]) := by
  show (age.parse ⟨[], [], []⟩ v).res = _ ∧ (age.parse ⟨[], [], []⟩ v).notes.map (·.cls) = _
  unfold age.parse
  cases pyInt v with
  | none => exact ⟨rfl, rfl⟩
  | some k =>
    dsimp only
    by_cases hk : k < 0
    · rw [if_pos hk, if_pos hk, if_pos hk]; exact ⟨rfl, rfl⟩
    · rw [if_neg hk, if_neg hk, if_neg hk]
      refine ⟨?_, ?_⟩
      · unfold W.when; split <;> rfl
      · by_cases hk : k > 2147483648
        · rw [if_pos hk, decide_eq_true hk]; rfl
        · rw [if_neg hk, decide_eq_false hk]; rfl

open Classical in
/-- **C55** `Age` is recorded as the number its text denotes for `int()` if that is not negative, and as `None` otherwise;
`AGE_NOT_INT` is added exactly when it denotes none, `AGE_NEGATIVE` exactly when it denotes a negative one and
`AGE_LARGE` exactly when it denotes more than 2³¹.  Missing: `int()` takes more than decimal integers (`+5`, `1_0`). -/
theorem C55_age_partial (P : Processed env related t ls m m') (hu : Unpadded ls) (hk : m.kind = .response) :
    (∀ n ∈ namesFor .age_ ls, ∀ k, IntText (textOf ls n) k → 0 ≤ k → dget (m'.section t).parsed n = some (.int k)) ∧
    (∀ n ∈ namesFor .age_ ls, (¬ ∃ k, IntText (textOf ls n) k ∧ 0 ≤ k) → dget (m'.section t).parsed n = some .none) ∧
    AddedAbout .AGE_NOT_INT m m' ((namesFor .age_ ls).flatMap fun n =>
      if ∃ k, IntText (textOf ls n) k then [] else [fieldSubject n]) ∧
    AddedAbout .AGE_NEGATIVE m m' ((namesFor .age_ ls).flatMap fun n =>
      if ∃ k, IntText (textOf ls n) k ∧ k < 0 then [fieldSubject n] else []) ∧
    AddedAbout .AGE_LARGE m m' ((namesFor .age_ ls).flatMap fun n =>
      if ∃ k, IntText (textOf ls n) k ∧ k > 2 ^ 31 then [fieldSubject n] else []) := by
  have hv : FieldId.age_.validIn m.kind = true := by rw [hk]; rfl
  have uniq : ∀ {s k} {p : Int → Prop}, pyInt s = some k → (∃ k', IntText s k' ∧ p k') → p k := by
    rintro s k p hi ⟨k', h1, h2⟩
    rw [IntText.unique (pyInt_iff.1 hi) h1]; exact h2
  have nope : ∀ {s} {p : Int → Prop}, pyInt s = none → ¬ ∃ k', IntText s k' ∧ p k' := by
    rintro s p hi ⟨k', h1, _⟩
    exact pyInt_none.1 hi ⟨k', h1⟩
  refine ⟨?_, ?_, ?_, ?_, ?_⟩
  · intro n hn k hk h0
    rw [P.singleton hu rfl (by decide) hn hv, (age_text _ _).1, pyInt_iff.2 hk]
    dsimp only
    rw [if_neg (by omega)]; rfl
  · intro n hn hk
    rw [P.singleton hu rfl (by decide) hn hv, (age_text _ _).1]
    cases hi : pyInt (textOf ls n) with
    | none => rfl
    | some k =>
      dsimp only
      rw [if_pos]
      · rfl
      · by_cases h : k < 0
        · exact h
        · exact absurd ⟨k, pyInt_iff.1 hi, by omega⟩ hk
  · refine P.singleton_notes age_int_only rfl hv _ fun n hn => ?_
    rw [(age_text _ _).2]
    cases hi : pyInt (textOf ls n) with
    | none => rw [if_neg (pyInt_none.1 hi)]; rfl
    | some k =>
      rw [if_pos ⟨k, pyInt_iff.1 hi⟩]
      dsimp only
      split
      · rfl
      · split <;> rfl
  · refine P.singleton_notes age_neg_only rfl hv _ fun n hn => ?_
    rw [(age_text _ _).2]
    cases hi : pyInt (textOf ls n) with
    | none => rw [if_neg (nope hi)]; rfl
    | some k =>
      dsimp only
      by_cases hk : k < 0
      · rw [if_pos hk, if_pos ⟨k, pyInt_iff.1 hi, hk⟩]; rfl
      · rw [if_neg hk, if_neg fun h => hk (uniq (p := fun k => k < 0) hi h)]
        split <;> rfl
  · refine P.singleton_notes age_large_only rfl hv _ fun n hn => ?_
    rw [(age_text _ _).2]
    cases hi : pyInt (textOf ls n) with
    | none => rw [if_neg (nope hi)]; rfl
    | some k =>
      dsimp only
      by_cases hk : k > 2147483648
      · rw [if_neg (by omega), if_pos hk, if_pos ⟨k, pyInt_iff.1 hi, hk⟩]; rfl
      · have : ¬ ∃ k, IntText (textOf ls n) k ∧ k > 2 ^ 31 := fun h => hk (uniq (p := fun k => k > 2 ^ 31) hi h)
        rw [if_neg this]
        split
        · rfl
        · rfl

/-- **C55 is false of the code** as stated: `1_0` is accepted as ten -/
theorem C55_counterexample :
    let r := processSection toyEnv none false [(str "Age", str "1_0")] (fresh toyEnv .response none false false)
    r.2 = .ok () ∧ dget r.1.headers.parsed (str "age") = some (.int 10) ∧ r.1.notes = [] := by
  decide +kernel

end

end HL.Props
