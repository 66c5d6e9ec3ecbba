import Verif.Props.ParamsThm

/-!
# Media types (C51) and HTTP dates (C52)
-/

namespace HL.Props
open HL.RE HL.Syntax

/-! ### C51 -/

/-- `type/subtype`: neither is empty, and there is one slash -/
def IsMediaType (v t s : Str) : Prop := v = t ++ [47] ++ s ∧ t ≠ [] ∧ s ≠ [] ∧ 47 ∉ t ∧ 47 ∉ s

/-- without one newline at its end: where Python's `$` matches -/
def chomp (s : Str) : Str := if s.getLast? = some 10 then s.dropLast else s

/-- RFC 9110's token -/
def tokenName (s : Str) : Bool := chomp s != [] && (chomp s).all isTchar

/-- RFC 6838 4.2: letters and digits -/
def isAlnum (c : Nat) : Bool := (48 ≤ c && c ≤ 57) || (65 ≤ c && c ≤ 90) || (97 ≤ c && c ≤ 122)

/-- RFC 6838 4.2: `restricted-name-chars` -/
def isRestrictedChar (c : Nat) : Bool := isAlnum c || (str "!#$&-^_.+").contains c

/-- RFC 6838 4.2: `restricted-name`, of any length -/
def restrictedName (s : Str) : Bool :=
  match chomp s with
  | [] => false
  | c :: r => isAlnum c && r.all isRestrictedChar

/-- the notes about a media type (or, if `wild`, a media range) `t/s` -/
def mediaTypeNotes (bad : List NoteId) (wild tok : Bool) (t s : Str) : List NoteId :=
  let names := [t, s].filter (· != str "*")
  if (t = str "*" ∨ s = str "*") ∧ ¬ (wild = true ∧ s = str "*") then bad
  else if tok = true ∧ names.any (fun n => !tokenName n) then bad
  else (if names.any (fun n => tokenName n && decide (n.length > 127)) then [.MEDIA_TYPE_LONG_NAME] else []) ++
    (if names.any (fun n => tokenName n && !restrictedName n) then [.MEDIA_TYPE_BAD_NAME] else [])

theorem chomp_or {P : Str → Prop} (hP : ∀ p, P (p ++ [10]) → False) (s : Str) : (P s ∨ ∃ p, s = p ++ [10] ∧ P p) ↔ P (chomp s) := by
  unfold chomp
  split
  · rename_i h
    have e : s = s.dropLast ++ [10] := by
      have hn : s ≠ [] := by intro e; rw [e] at h; exact nomatch h
      have := List.dropLast_concat_getLast hn
      rw [List.getLast?_eq_some_getLast hn] at h
      rw [Option.some.inj h] at this
      exact this.symm
    constructor
    · rintro (h1 | ⟨p, h1, h2⟩)
      · rw [e] at h1; exact (hP _ h1).elim
      · rw [h1, List.dropLast_concat]; exact h2
    · intro h1; exact .inr ⟨_, e, h1⟩
  · rename_i h
    constructor
    · rintro (h1 | ⟨p, h1, h2⟩)
      · exact h1
      · rw [h1] at h; exact absurd (by simp) h
    · exact .inl

theorem matchFull_token (s : Str) : matchFull rfc9110.token s = tokenName s := by
  rw [Bool.eq_iff_iff]
  unfold matchFull tokenName
  rw [fullEnd_iff, chomp_or, token_L]
  · simp [List.all_eq_true]
  · intro p hp
    have := ((token_L _).1 hp).2 10 (by simp)
    exact absurd this (by decide)

theorem alnum_one : ∃ p, RE.one true rfc6838.restricted_name_first = some p ∧ ∀ c, p c = isAlnum c := by
  refine ⟨_, rfl, ?_⟩
  intro c
  by_cases h : c < 256
  · revert c; decide +kernel
  · have e : ∀ a b : Nat, b < 256 → (decide (a ≤ c) && decide (c ≤ b)) = false := by intro a b hb; simp; omega
    have e2 : ∀ a : Nat, a < 256 → (c == a) = false := by intro a ha; simp; omega
    simp [csetHas, big_variants h, inRanges, isAlnum, e, e2]

theorem restricted_one : ∃ p, RE.one true rfc6838.restricted_name_chars = some p ∧ ∀ c, p c = isRestrictedChar c := by
  refine ⟨_, rfl, ?_⟩
  intro c
  by_cases h : c < 256
  · revert c; decide +kernel
  · have e : ∀ a b : Nat, b < 256 → (decide (a ≤ c) && decide (c ≤ b)) = false := by intro a b hb; simp; omega
    have e2 : ∀ a : Nat, a < 256 → (c == a) = false := by intro a ha; simp; omega
    simp [csetHas, big_variants h, inRanges, isRestrictedChar, isAlnum, e, e2]
    omega

theorem restricted_L (s : Str) : restrictedNameUnbounded.L true s ↔ ∃ c r, s = c :: r ∧ isAlnum c = true ∧ ∀ d ∈ r, isRestrictedChar d = true := by
  obtain ⟨p, hp, he⟩ := alnum_one
  obtain ⟨q, hq, hf⟩ := restricted_one
  unfold restrictedNameUnbounded
  simp only [RE.L, one_L hp, he]
  constructor
  · rintro ⟨_, r, rfl, ⟨c, rfl, hc⟩, hr⟩
    refine ⟨c, r, rfl, hc, ?_⟩
    have := (rep_one_L hq 0 false r).1 hr
    intro d hd
    rw [← hf]; exact this.2 d hd
  · rintro ⟨c, r, rfl, hc, hr⟩
    refine ⟨[c], r, rfl, ⟨c, rfl, hc⟩, ?_⟩
    exact (rep_one_L hq 0 false r).2 ⟨Nat.zero_le _, fun d hd => by rw [hf]; exact hr d hd⟩

theorem matchFull_restricted (s : Str) : matchFull restrictedNameUnbounded s = restrictedName s := by
  rw [Bool.eq_iff_iff]
  unfold matchFull restrictedName
  rw [fullEnd_iff, chomp_or, restricted_L]
  · cases chomp s with
    | nil => simp
    | cons c r =>
      constructor
      · rintro ⟨_, _, e, h1, h2⟩
        cases e
        simp only [h1, Bool.true_and]
        exact List.all_eq_true.2 h2
      · intro h
        rw [Bool.and_eq_true, List.all_eq_true] at h
        exact ⟨c, r, rfl, h⟩
  · intro p hp
    obtain ⟨c, r, e, h1, h2⟩ := (restricted_L _).1 hp
    cases p with
    | nil => cases e; exact absurd h1 (by decide)
    | cons d p =>
      cases e
      exact absurd (h2 10 (by simp)) (by decide)

theorem partition_found {v t s : Str} (ht : 47 ∉ t) (h : v = t ++ [47] ++ s) : partition 47 v = (t, true, s) := by
  unfold partition
  have : split1 47 v = some (t, s) := by
    rw [split1_eq, if_pos (by rw [h]; simp)]
    have e : ∀ a : Str, 47 ∉ a → ∀ r, (a ++ 47 :: r).takeWhile (· != 47) = a ∧ (a ++ 47 :: r).dropWhile (· != 47) = 47 :: r := by
      intro a
      induction a with
      | nil => intro _ r; exact ⟨rfl, rfl⟩
      | cons c a ih =>
        intro h r
        have hc : (c != 47) = true := by simp; intro e; exact h (by simp [e])
        obtain ⟨h1, h2⟩ := ih (fun h' => h (by simp [h'])) r
        rw [List.cons_append, List.takeWhile_cons, List.dropWhile_cons, if_pos hc, if_pos hc, h1, h2]
        exact ⟨rfl, rfl⟩
    have h' : v = t ++ 47 :: s := by rw [h]; simp
    rw [h', (e t ht s).1, (e t ht s).2]
    rfl
  rw [this]

/-- the classes noted when the syntax is bad -/
def badNotes (b : Option NoteId) : List NoteId := b.toList

theorem mediaType_shape (v : Str) : (∃ t s, IsMediaType v t s) ↔
    (!((partition 47 v).2.1 && !(partition 47 v).1.isEmpty && !(partition 47 v).2.2.isEmpty) || (partition 47 v).2.2.contains 47) = false := by
  constructor
  · rintro ⟨t, s, h, ht, hs, h1, h2⟩
    rw [partition_found h1 h]
    simp [ht, hs, h2]
  · intro h
    unfold partition at h
    cases hp : split1 47 v with
    | none => rw [hp] at h; simp at h
    | some p =>
      obtain ⟨t, s⟩ := p
      rw [hp] at h
      rw [split1_eq] at hp
      split at hp
      · have hp' := Option.some.inj hp
        simp at h
        refine ⟨t, s, ?_, by simpa using h.1.1, by simpa using h.1.2, ?_, by simpa using h.2⟩
        · rename_i hc
          have e := List.takeWhile_append_dropWhile (p := (· != 47)) (l := v)
          have h1 := congrArg Prod.fst hp'
          have h2 := congrArg Prod.snd hp'
          dsimp only at h1 h2
          have : v.dropWhile (· != 47) = 47 :: s := by
            rw [← h2]
            cases hd : v.dropWhile (· != 47) with
            | nil =>
              exfalso
              rw [hd, List.append_nil] at e
              have : ∀ c ∈ v, (c != 47) = true := by
                rw [← e]
                intro c hc
                exact List.all_eq_true.1 (List.all_takeWhile (p := (· != 47)) (l := v)) c hc
              have := this 47 (by simpa using hc)
              simp at this
            | cons c r =>
              have : ¬ (c != 47) = true := by
                have := List.head?_dropWhile_not (p := (· != 47)) v
                rw [hd] at this
                simp at this
                simp [this]
              simp at this
              rw [this]; rfl
          rw [← e, this, h1]; simp
        · have h1 := congrArg Prod.fst hp'
          dsimp only at h1
          rw [← h1]
          intro hm
          have := List.all_eq_true.1 (List.all_takeWhile (p := (· != 47)) (l := v)) 47 hm
          simp at this
      · exact nomatch hp

/-- **C51** a value that isn't `type/subtype` is reported as bad syntax, and no more is said about it -/
theorem C51_bad_syntax (add : AddNote) (v : Str) (bad : Option NoteId) (ref : Option Str) (wild tok : Bool) (h : ¬ ∃ t s, IsMediaType v t s) :
    Does (checkMediaType add v bad ref wild tok) add.subject (badNotes bad) () := by
  rw [mediaType_shape, Bool.not_eq_false] at h
  unfold checkMediaType
  dsimp only
  rw [if_pos h]
  cases bad with
  | none => exact Does.pure _ _
  | some n => exact Does.add1 _ _ _

/-- **C51** the notes about `type/subtype` -/
theorem C51_media_type (add : AddNote) (v t s : Str) (bad : Option NoteId) (ref : Option Str) (wild tok : Bool) (h : IsMediaType v t s) :
    Does (checkMediaType add v bad ref wild tok) add.subject (mediaTypeNotes (badNotes bad) wild tok t s) () := by
  have hb : ∀ vrs : Dict Val, Does (match bad with | none => pure () | some cls => add.add cls vrs) add.subject (badNotes bad) () := by
    intro vrs
    cases bad with
    | none => exact Does.pure _ _
    | some n => exact Does.add1 _ _ _
  have hs := (mediaType_shape v).1 ⟨t, s, h⟩
  unfold checkMediaType
  dsimp only
  rw [hs, if_neg (by decide), partition_found h.2.2.2.1 h.1]
  unfold mediaTypeNotes
  dsimp only
  have hw : ([t, s].contains (str "*") && (!wild || t == str "*" && s != str "*")) = true ↔
      (t = str "*" ∨ s = str "*") ∧ ¬ (wild = true ∧ s = str "*") := by
    by_cases h1 : t = str "*" <;> by_cases h2 : s = str "*" <;> cases wild <;> simp [h1, h2, eq_comm (a := [42])]
  by_cases hc : (t = str "*" ∨ s = str "*") ∧ ¬ (wild = true ∧ s = str "*")
  · rw [if_pos (hw.2 hc), if_pos hc]
    exact hb _
  rw [if_neg (fun x => hc (hw.1 x)), if_neg hc]
  have hn : (if ([t, s].contains (str "*")) = true then [t, s].filter (· != str "*") else [t, s]) = [t, s].filter (· != str "*") := by
    split
    · rfl
    · rename_i hx
      rw [eq_comm, List.filter_eq_self]
      intro a ha
      simp only [bne_iff_ne]
      rintro rfl
      exact hx (List.contains_iff_mem.2 ha)
  rw [hn]
  generalize [t, s].filter (· != str "*") = N
  have ht : (matchFull rfc9110.token) = tokenName := funext matchFull_token
  have hr : (fun n => !matchFull restrictedNameUnbounded n) = fun n => !restrictedName n := funext fun n => by rw [matchFull_restricted]
  rw [ht, hr]
  have hl : (N.filter tokenName).length ≠ N.length ↔ N.any (fun n => !tokenName n) = true := by
    rw [ne_eq, List.length_filter_eq_length_iff, List.any_eq_true]
    simp
  by_cases hk : tok = true ∧ N.any (fun n => !tokenName n) = true
  · rw [if_pos ⟨hl.2 hk.2, hk.1⟩, if_pos hk]
    exact hb _
  rw [if_neg (c := _ ∧ tok = true) (fun x => hk ⟨x.2, hl.1 x.1⟩), if_neg hk]
  have hN : (if (N.filter tokenName).length ≠ N.length then N.filter tokenName else N) = N.filter tokenName := by
    split
    · rfl
    · rename_i hx
      rw [eq_comm, List.filter_eq_self]
      exact List.length_filter_eq_length_iff.1 (Decidable.not_not.1 hx)
  rw [hN, List.any_filter, List.any_filter]
  exact Does.seq (Does.when (Does.add1 _ _ _)) (Does.when (Does.add1 _ _ _))

/-- with a class for bad syntax that is none of the others: bad syntax is noted exactly if the value isn't `type/subtype`, or
has a wildcard out of place, or (when asked to look) a name that isn't a token -/
theorem C51_bad_iff (add : AddNote) (v : Str) (b : NoteId) (ref : Option Str) (wild tok : Bool)
    (hb : b ≠ .MEDIA_TYPE_LONG_NAME ∧ b ≠ .MEDIA_TYPE_BAD_NAME) :
    b ∈ (checkMediaType add v (some b) ref wild tok).notes.map (·.cls) ↔
      ∀ t s, IsMediaType v t s → ((t = str "*" ∨ s = str "*") ∧ ¬ (wild = true ∧ s = str "*")) ∨
        (tok = true ∧ ∃ n ∈ [t, s], n ≠ str "*" ∧ tokenName n = false) := by
  have hcls : ∀ {w : W Unit} {cs}, Does w add.subject cs () → w.notes.map (·.cls) = cs := by
    intro w cs h
    have := congrArg (List.map Prod.fst) h.notes
    rw [List.map_map, List.map_map] at this
    exact this.trans (List.map_id' cs)
  by_cases h : ∃ t s, IsMediaType v t s
  · obtain ⟨t, s, h⟩ := h
    rw [hcls (C51_media_type add v t s (some b) ref wild tok h)]
    have hu : ∀ t' s', IsMediaType v t' s' → t' = t ∧ s' = s := by
      intro t' s' h'
      have := (partition_found h'.2.2.2.1 h'.1).symm.trans (partition_found h.2.2.2.1 h.1)
      simp at this
      exact this
    have hx : (tok = true ∧ ([t, s].filter (· != str "*")).any (fun n => !tokenName n) = true) ↔ (tok = true ∧ ∃ n ∈ [t, s], n ≠ str "*" ∧ tokenName n = false) := by
      rw [List.any_filter, List.any_eq_true]
      simp only [Bool.and_eq_true, bne_iff_ne, Bool.not_eq_true', and_assoc]
    unfold mediaTypeNotes
    dsimp only
    constructor
    · intro hm t' s' h'
      obtain ⟨rfl, rfl⟩ := hu t' s' h'
      split at hm
      · rename_i hc; exact .inl hc
      · split at hm
        · rename_i hc; exact .inr (hx.1 hc)
        · exfalso
          rcases List.mem_append.1 hm with hm | hm <;> split at hm
          · exact hb.1 (List.mem_singleton.1 hm)
          · cases hm
          · exact hb.2 (List.mem_singleton.1 hm)
          · cases hm
    · intro hm
      rcases hm t s h with hc | hc
      · rw [if_pos hc]; simp [badNotes]
      · split
        · simp [badNotes]
        · rw [if_pos (hx.2 hc)]; simp [badNotes]
  · rw [hcls (C51_bad_syntax add v (some b) ref wild tok h)]
    constructor
    · intro _ t s h'; exact (h ⟨t, s, h'⟩).elim
    · intro _; simp [badNotes]

example : IsMediaType (str "text/html") (str "text") (str "html") ∧ mediaTypeNotes [.BAD_SYNTAX] false false (str "text") (str "html") = [] ∧
    mediaTypeNotes [.BAD_SYNTAX] false false (str "text") (str "*") = [.BAD_SYNTAX] ∧
    mediaTypeNotes [.BAD_SYNTAX] true false (str "text") (str "*") = [] ∧
    mediaTypeNotes [.BAD_SYNTAX] true false (str "*") (str "html") = [.BAD_SYNTAX] ∧
    mediaTypeNotes [.BAD_SYNTAX] true true (str "te xt") (str "html") = [.BAD_SYNTAX] ∧
    mediaTypeNotes [.BAD_SYNTAX] true false (str "te'xt") (str "*") = [.MEDIA_TYPE_BAD_NAME] ∧
    mediaTypeNotes [.BAD_SYNTAX] true false (str "text") (List.replicate 128 97) = [.MEDIA_TYPE_LONG_NAME] := by
  refine ⟨⟨rfl, ?_⟩, ?_⟩ <;> decide +kernel

end HL.Props
