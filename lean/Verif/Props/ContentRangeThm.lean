import Verif.Props.RangeThm

/-!
# Content-Range, and both fields in a message (C63)
-/

namespace HL.Props
open HL.RE HL.Syntax

/-! ### specification -/

/-- `*`, or a number -/
def LengthText (s : Str) (x : Option Int) : Prop := (s = str "*" ∧ x = none) ∨ ∃ n, Numeral s n ∧ x = some (n : Int)

/-- `*`, or `first-last` -/
def SpanText (s : Str) (x : Option (Int × Int)) : Prop :=
  (s = str "*" ∧ x = none) ∨ ∃ a b n k, s = a ++ [45] ++ b ∧ Numeral a n ∧ Numeral b k ∧ x = some ((n : Int), (k : Int))

/-- `unit span/length`; the span and the length are not both `*` -/
def ContentRangeField (v unit : Str) (span : Option (Int × Int)) (len : Option Int) : Prop :=
  32 ∉ unit ∧ ∃ a b, v = unit ++ [32] ++ a ++ [47] ++ b ∧ 47 ∉ a ∧ SpanText a span ∧ LengthText b len ∧ ¬ (span = none ∧ len = none)

/-- the recorded value -/
def contentRangeVal (unit : Str) (span : Option (Int × Int)) (len : Option Int) : Val :=
  match span with
  | none => .tuple [.str unit, .none, .none, F.optInt len]
  | some (a, b) => .tuple [.str unit, .int a, .int b, F.optInt len]

/-- a response whose status gives `Content-Range` no meaning -/
def meaningless (c : Ctx) : Bool := !c.isRequest && !(c.msg.statusCode == some 206 || c.msg.statusCode == some 416)

/-- the notes about an accepted value -/
def contentRangeNotes (c : Ctx) (span : Option (Int × Int)) (len : Option Int) : List NoteId :=
  (if meaningless c then [.CONTENT_RANGE_MEANINGLESS] else []) ++
  (if len = none then [.CONTENT_RANGE_UNKNOWN_LENGTH] else []) ++
  match span with
  | none => if !c.isRequest && c.msg.statusCode == some 206 then [.CONTENT_RANGE_UNSATISFIED_BAD_SC] else []
  | some (a, b) => (if a > b then [.RANGE_INVALID_content_range] else []) ++
      match len with
      | some l => if b ≥ l then [.RANGE_INVALID_content_range] else []
      | none => []

/-- the notes saying why a value is rejected -/
def contentRangeProblems : List NoteId :=
  [.CONTENT_RANGE_MISSING_UNIT, .CONTENT_RANGE_MISSING_SLASH, .CONTENT_RANGE_INVALID_ASTERISK, .RANGE_INVALID_INTEGER, .RANGE_MISSING_HYPHEN]

/-! ### proofs -/

theorem Numeral.noDash {s n} (h : Numeral s n) : 45 ∉ s := RangeEnd.noDash (.inr ⟨n, h, rfl⟩)

theorem Numeral.ne_star {s n} (h : Numeral s n) : s ≠ str "*" := by
  obtain ⟨ds, rfl, hne, hd, _⟩ := h
  cases ds with
  | nil => exact absurd rfl hne
  | cons d ds =>
    intro e
    have := hd d (by simp)
    have e : 48 + d = 42 := by have := congrArg (·.head?) e; simpa using this
    omega

theorem intOrRaise_good {s : Str} {n : Nat} (h : Numeral s n) (sub : Str) : Does (F.intOrRaise s) sub [] (n : Int) := by
  unfold F.intOrRaise
  rw [h.int.1]
  exact Does.pure _ _

theorem parseLength_good (add : AddNote) (s : Str) (x : Option Int) (h : LengthText s x) :
    Does (F.content_range.parseLength add s) add.subject (if x = none then [.CONTENT_RANGE_UNKNOWN_LENGTH] else []) x := by
  unfold F.content_range.parseLength
  rcases h with ⟨rfl, rfl⟩ | ⟨n, hn, rfl⟩
  · rw [if_pos rfl, if_pos rfl]
    exact Does.add (Does.pure _ _)
  · rw [if_neg hn.ne_star, hn.int.2, if_neg (by decide), if_neg (by simp)]
    exact Does.bind (cs := []) (intOrRaise_good hn _) (Does.pure _ _)

theorem parseSpan_good (add : AddNote) (s : Str) (x : Option (Int × Int)) (h : SpanText s x) :
    Does (F.content_range.parseSpec add s) add.subject [] x ∧ (s = str "*" ↔ x = none) := by
  unfold F.content_range.parseSpec
  rcases h with ⟨rfl, rfl⟩ | ⟨a, b, n, k, rfl, hn, hk, rfl⟩
  · rw [if_pos rfl]
    exact ⟨Does.pure _ _, by simp⟩
  · have hne : a ++ [45] ++ b ≠ str "*" := by
      intro e
      have : (45 : Nat) ∈ str "*" := by rw [← e]; simp
      exact absurd this (by decide)
    rw [if_neg hne, split1_parts.2 ⟨(show _ = a ++ 45 :: b by simp), hn.noDash⟩]
    dsimp only
    rw [hn.int.2, hk.int.2]
    refine ⟨?_, ⟨fun e => absurd e hne, fun e => nomatch e⟩⟩
    simp only [Bool.not_true, Bool.false_eq_true, if_false]
    exact Does.bind (cs := []) (intOrRaise_good hn _) (Does.bind (cs := []) (intOrRaise_good hk _) (Does.pure _ _))

theorem checkStatus_does (c : Ctx) (add : AddNote) :
    Does (F.content_range.checkStatus c add) add.subject (if meaningless c then [.CONTENT_RANGE_MEANINGLESS] else []) () :=
  Does.when (Does.add1 _ _ _)

/-- **C63** (`Content-Range`, accepted) the unit, the positions and the length are recorded; the notes are exactly
`CONTENT_RANGE_MEANINGLESS` on a response that is neither 206 nor 416, one for a `*` where it matters, and `RANGE_INVALID`
if the range ends before it begins or not before the length. -/
theorem C63_content_range_accepted (c : Ctx) (add : AddNote) (v unit : Str) (span : Option (Int × Int)) (len : Option Int)
    (h : ContentRangeField v unit span len) :
    Does (F.content_range.parse c add v) add.subject (contentRangeNotes c span len) (contentRangeVal unit span len) := by
  obtain ⟨hu, a, b, rfl, ha, hs, hl, hboth⟩ := h
  unfold F.content_range.parse contentRangeNotes
  rw [List.append_assoc (if meaningless c then _ else _)]
  refine Does.seq (checkStatus_does c add) ?_
  rw [split1_parts.2 ⟨(show _ = unit ++ 32 :: (a ++ 47 :: b) by simp), hu⟩]
  dsimp only
  rw [split1_parts.2 ⟨rfl, ha⟩]
  dsimp only
  obtain ⟨hp, hstar⟩ := parseSpan_good add a span hs
  have hlen : b = str "*" ↔ len = none := by
    rcases hl with ⟨rfl, rfl⟩ | ⟨n, hn, rfl⟩
    · simp
    · simp [hn.ne_star]
  rw [if_neg (by rw [hstar, hlen]; exact hboth)]
  refine Does.bind (parseLength_good add b len hl) ?_
  rw [if_neg (by rintro ⟨h1, h2⟩; exact h2 (hlen.2 h1))]
  refine Does.bind (cs := []) hp ?_
  cases span with
  | none =>
    rw [if_pos (hstar.2 rfl)]
    exact (Does.seq (Does.when (Does.add1 _ _ _)) (Does.pure _ _)).congr (List.append_nil _)
  | some p =>
    obtain ⟨x, y⟩ := p
    rw [if_neg (by rw [hstar]; simp)]
    dsimp only
    have e : ∀ (p : Prop) [Decidable p] (l : List NoteId), (if decide p then l else []) = if p then l else [] := by
      intro p _ l; by_cases h : p <;> simp [h]
    refine Does.seq ((Does.when (Does.add1 _ _ _)).congr (e _ _)) ?_
    cases len with
    | none => exact Does.pure _ _
    | some l => exact (Does.seq (Does.when (Does.add1 _ _ _)) (Does.pure _ _)).congr ((List.append_nil _).trans (e _ _))

/-- it fails, saying why if `ordinary` -/
structure Fails {α} (w : W α) (ordinary : Prop) : Prop where
  res : w.res = .error .valueError
  noted : ordinary → ∃ X ∈ contentRangeProblems, X ∈ w.notes.map (·.cls)
  none : NoteId.CONTENT_RANGE_MEANINGLESS ∉ w.notes.map (·.cls)

theorem Fails.bind {α β} {x : W α} {o} (h : Fails x o) (f : α → W β) : Fails (x >>= f) o := by
  rw [W.bind_err h.res]
  exact ⟨rfl, h.noted, h.none⟩

theorem Fails.after {α β} {x : W α} {f : α → W β} {s cs a o} (hx : Does x s cs a) (h : Fails (f a) o) (hX : NoteId.CONTENT_RANGE_MEANINGLESS ∉ cs) : Fails (x >>= f) o := by
  rw [W.bind_ok hx.res]
  refine ⟨h.res, fun ho => ?_, ?_⟩
  · obtain ⟨X, h1, h2⟩ := h.noted ho
    exact ⟨X, h1, by rw [List.map_append]; exact List.mem_append_right _ h2⟩
  · rw [List.map_append, hx.cls, List.mem_append]
    exact fun h' => h'.elim hX h.none

theorem Fails.add {α} (add : AddNote) (X vrs) (hX : X ∈ contentRangeProblems) (o) : Fails (do add.add X vrs; W.throw .valueError : W α) o :=
  ⟨rfl, fun _ => ⟨X, hX, List.mem_cons_self ..⟩, by
    intro h
    rcases List.mem_cons.1 h with rfl | h
    · exact absurd hX (by decide)
    · cases h⟩

theorem Ordinary.part {s p q t : Str} (h : Ordinary s) (e : s = p ++ t ++ q) : Ordinary t :=
  h.of_infix (by rw [e]; simp; omega) (by intro c hc; rw [e]; simp [hc])

theorem intOrRaise_bad {s : Str} (hd : isDigit s = true) (h : ¬ ∃ n, Numeral s n) : Fails (F.intOrRaise s) (Ordinary s) := by
  unfold F.intOrRaise
  cases hp : pyInt s with
  | some k => obtain ⟨n, hn, _⟩ := int_numeral hd hp; exact absurd ⟨n, hn⟩ h
  | none => exact ⟨rfl, fun ho => absurd (digits_numeral hd ho) h, by intro h; cases h⟩

theorem not_digit {s : Str} (h : isDigit s = false) : ¬ ∃ n, Numeral s n := by
  rintro ⟨n, hn⟩
  rw [hn.int.2] at h; exact nomatch h

theorem Fails.mono {α} {x : W α} {o o' : Prop} (h : Fails x o) (ho : o' → o) : Fails x o' := ⟨h.res, fun h' => h.noted (ho h'), h.none⟩

theorem Fails.told {α β} {x : W α} {f : α → W β} {s X a o} (hx : Does x s [X] a) (hX : X ∈ contentRangeProblems) (h : f a = W.throw .valueError) : Fails (x >>= f) o := by
  rw [W.bind_ok hx.res, h]
  have e : x.notes.map (·.cls) ++ (W.throw .valueError : W β).notes.map (·.cls) = [X] := by rw [hx.cls]; rfl
  refine ⟨rfl, fun _ => ⟨X, hX, ?_⟩, ?_⟩
  · rw [List.map_append, e]; simp
  · rw [List.map_append, e]
    intro h'
    rw [← List.mem_singleton.1 h'] at hX
    exact absurd hX (by decide)

theorem parseLength_bad (add : AddNote) (s : Str) (h : ¬ ∃ x, LengthText s x) :
    Does (F.content_range.parseLength add s) add.subject [.RANGE_INVALID_INTEGER] none ∨ Fails (F.content_range.parseLength add s) (Ordinary s) := by
  unfold F.content_range.parseLength
  rw [if_neg fun e => h ⟨_, .inl ⟨e, rfl⟩⟩]
  cases hd : isDigit s with
  | false => left; rw [if_pos (by decide)]; exact Does.add (Does.pure _ _)
  | true => right; rw [if_neg (by decide)]; exact (intOrRaise_bad hd fun ⟨n, hn⟩ => h ⟨_, .inr ⟨n, hn, rfl⟩⟩).bind _

theorem parseSpan_bad (add : AddNote) (s : Str) (h : ¬ ∃ x, SpanText s x) :
    (∃ X ∈ contentRangeProblems, Does (F.content_range.parseSpec add s) add.subject [X] none) ∨ Fails (F.content_range.parseSpec add s) (Ordinary s) := by
  unfold F.content_range.parseSpec
  rw [if_neg fun e => h ⟨_, .inl ⟨e, rfl⟩⟩]
  cases hs : split1 45 s with
  | none => exact .inl ⟨.RANGE_MISSING_HYPHEN, by decide, Does.add (Does.pure _ _)⟩
  | some p =>
    obtain ⟨a, b⟩ := p
    obtain ⟨e, _⟩ := split1_parts.1 hs
    dsimp only
    cases ha : isDigit a with
    | false => rw [if_pos (by decide)]; exact .inl ⟨.RANGE_INVALID_INTEGER, by decide, Does.add (Does.pure _ _)⟩
    | true =>
      rw [if_neg (by decide)]
      cases hb : isDigit b with
      | false => rw [if_pos (by decide)]; exact .inl ⟨.RANGE_INVALID_INTEGER, by decide, Does.add (Does.pure _ _)⟩
      | true =>
        rw [if_neg (by decide)]
        right
        by_cases hn : ∃ n, Numeral a n
        · obtain ⟨n, hn⟩ := hn
          refine Fails.after (intOrRaise_good hn []) ?_ (by simp)
          refine ((intOrRaise_bad hb ?_).bind _).mono fun ho => ho.part (p := a ++ [45]) (q := []) (by rw [e]; simp)
          rintro ⟨k, hk⟩
          exact h ⟨_, .inr ⟨a, b, n, k, by rw [e]; simp, hn, hk, rfl⟩⟩
        · exact ((intOrRaise_bad ha hn).bind _).mono fun ho => ho.part (p := []) (q := 45 :: b) (by rw [e]; simp)

/-- **C63** (`Content-Range`, rejected) anything else has no value; if it has a slash or a space in it, and neither
superscript digits nor more than 4300 characters, one of five notes says why.  `CONTENT_RANGE_MEANINGLESS` depends on the
status alone. -/
theorem C63_content_range_rejected (c : Ctx) (add : AddNote) (v : Str) (h : ¬ ∃ unit span len, ContentRangeField v unit span len) :
    (F.content_range.parse c add v).res = .error .valueError ∧
    (Ordinary v → 47 ∈ v ∨ 32 ∈ v → ∃ X ∈ contentRangeProblems, X ∈ (F.content_range.parse c add v).notes.map (·.cls)) ∧
    ((F.content_range.parse c add v).notes.map (·.cls)).count .CONTENT_RANGE_MEANINGLESS = if meaningless c then 1 else 0 := by
  have step : ∀ (k : W Val), Fails k (Ordinary v ∧ (47 ∈ v ∨ 32 ∈ v)) →
      (do F.content_range.checkStatus c add; k : W Val).res = .error .valueError ∧
      (Ordinary v → 47 ∈ v ∨ 32 ∈ v → ∃ X ∈ contentRangeProblems, X ∈ (do F.content_range.checkStatus c add; k : W Val).notes.map (·.cls)) ∧
      ((do F.content_range.checkStatus c add; k : W Val).notes.map (·.cls)).count .CONTENT_RANGE_MEANINGLESS = if meaningless c then 1 else 0 := by
    intro k hk
    rw [show (do F.content_range.checkStatus c add; k : W Val) = (F.content_range.checkStatus c add >>= fun _ => k) from rfl,
      W.bind_ok (checkStatus_does c add).res]
    refine ⟨hk.res, fun h1 h2 => ?_, ?_⟩
    · obtain ⟨X, h3, h4⟩ := hk.noted ⟨h1, h2⟩
      exact ⟨X, h3, by rw [List.map_append]; exact List.mem_append_right _ h4⟩
    · rw [List.map_append, List.count_append, (checkStatus_does c add).cls, List.count_eq_zero.2 hk.none]
      cases meaningless c <;> rfl
  unfold F.content_range.parse
  apply step
  cases hs : split1 32 v with
  | none =>
    dsimp only
    have h32 := split1_nowhere.1 hs
    by_cases h47 : 47 ∈ v
    · rw [show v.contains 47 = true by simpa using h47]
      exact Fails.add add _ _ (by decide) _
    · rw [show v.contains 47 = false by simpa using h47]
      exact ⟨rfl, fun h' => absurd h'.2 (by simp [h32, h47]), by intro h; cases h⟩
  | some p =>
    obtain ⟨unit, rest⟩ := p
    obtain ⟨e, hu⟩ := split1_parts.1 hs
    dsimp only
    cases hs2 : split1 47 rest with
    | none => exact Fails.add add _ _ (by decide) _
    | some q =>
      obtain ⟨a, b⟩ := q
      obtain ⟨e2, ha⟩ := split1_parts.1 hs2
      dsimp only
      have ho : Ordinary v ∧ (47 ∈ v ∨ 32 ∈ v) → Ordinary a ∧ Ordinary b := fun ho =>
        ⟨ho.1.part (p := unit ++ [32]) (q := 47 :: b) (by rw [e, e2]; simp), ho.1.part (p := unit ++ [32] ++ a ++ [47]) (q := []) (by rw [e, e2]; simp)⟩
      have hno : ¬ ∃ span len, SpanText a span ∧ LengthText b len ∧ ¬ (span = none ∧ len = none) := by
        rintro ⟨span, len, h1, h2, h3⟩
        exact h ⟨unit, span, len, hu, a, b, by rw [e, e2]; simp, ha, h1, h2, h3⟩
      by_cases hstar : a = str "*" ∧ b = str "*"
      · rw [if_pos hstar]
        exact Fails.add add _ _ (by decide) _
      · rw [if_neg hstar]
        by_cases hl : ∃ len, LengthText b len
        · obtain ⟨len, hl⟩ := hl
          refine Fails.after (parseLength_good add b len hl) ?_ (by split <;> decide)
          have hlen : b = str "*" ↔ len = none := by
            rcases hl with ⟨rfl, rfl⟩ | ⟨n, hn, rfl⟩
            · simp
            · simp [hn.ne_star]
          rw [if_neg (by rintro ⟨h1, h2⟩; exact h2 (hlen.2 h1))]
          have ha : ¬ ∃ span, SpanText a span := by
            rintro ⟨span, hs⟩
            refine hno ⟨span, len, hs, hl, ?_⟩
            rintro ⟨h1, h2⟩
            exact hstar ⟨(parseSpan_good add a span hs).2.2 h1, hlen.2 h2⟩
          have has : a ≠ str "*" := fun e => ha ⟨_, .inl ⟨e, rfl⟩⟩
          rcases parseSpan_bad add a ha with ⟨X, hX, hd⟩ | hf
          · exact Fails.told hd hX (by rw [if_neg has])
          · exact (hf.bind _).mono fun h' => (ho h').1
        · rcases parseLength_bad add b hl with hd | hf
          · exact Fails.told hd (by decide) (by rw [if_pos ⟨rfl, fun e => hl ⟨_, .inl ⟨e, rfl⟩⟩⟩])
          · exact (hf.bind _).mono fun h' => (ho h').2

/-- **C63** `Content-Range: bytes` in a 206 has no value, and no note says so -/
theorem C63_content_range_unnoted (c : Ctx) (hc : meaningless c = false) :
    (F.content_range.parse c ⟨[], [], []⟩ (str "bytes")).notes = [] ∧
    (F.content_range.parse c ⟨[], [], []⟩ (str "bytes")).res = .error .valueError := by
  unfold F.content_range.parse F.content_range.checkStatus
  unfold meaningless at hc
  rw [hc]
  exact ⟨rfl, rfl⟩

/-! ### in a message -/

theorem range_bad_only : ParseOnly .RANGE_BAD_SYNTAX .range_ := by own_only
theorem range_invalid_only : ParseOnly .RANGE_INVALID_range .range_ := by own_only
theorem cr_invalid_only : ParseOnly .RANGE_INVALID_content_range .content_range_ := by own_only
theorem cr_meaningless_only : ParseOnly .CONTENT_RANGE_MEANINGLESS .content_range_ := by own_only

open Classical in
/-- **C63** (`Range` in a request) its value is recorded as the unit and the ranges, or as `None` with one
`RANGE_BAD_SYNTAX`; `RANGE_INVALID` is added once for each range that ends before it begins. -/
theorem C63_range (P : Processed env related t ls m m') (hu : Unpadded ls) (hm : m.kind = .request) :
    (∀ n ∈ namesFor .range_ ls, (∀ unit rs, RangeField (textOf ls n) unit rs → dget (m'.section t).parsed n = some (rangeVal unit rs)) ∧
      ((¬ ∃ unit rs, RangeField (textOf ls n) unit rs) → dget (m'.section t).parsed n = some .none)) ∧
    ((∀ n ∈ namesFor .range_ ls, Ordinary (textOf ls n)) → AddedAbout .RANGE_BAD_SYNTAX m m' ((namesFor .range_ ls).flatMap fun n =>
      if ∃ unit rs, RangeField (textOf ls n) unit rs then [] else [fieldSubject n])) ∧
    (∀ (unit : Str → Str) (rs : Str → List (Option Int × Option Int)), (∀ n ∈ namesFor .range_ ls, RangeField (textOf ls n) (unit n) (rs n)) →
      AddedAbout .RANGE_INVALID_range m m' ((namesFor .range_ ls).flatMap fun n => List.replicate ((rs n).countP reversed) (fieldSubject n))) := by
  have hv : FieldId.range_.validIn m.kind = true := by rw [hm]; rfl
  have hp : ∀ v, parseText ⟨env, m, related⟩ .range_ v = (F.range.parse ⟨[], [], []⟩ v).res ∧
      parseNotes ⟨env, m, related⟩ .range_ v = (F.range.parse ⟨[], [], []⟩ v).notes.map (·.cls) := fun v => ⟨rfl, rfl⟩
  refine ⟨fun n hn => ⟨fun unit rs h => ?_, fun h => ?_⟩, fun ho => ?_, fun unit rs h => ?_⟩
  · rw [P.singleton hu rfl (by decide) hn hv, (hp _).1, (C63_range_accepted _ _ _ _ h).res]; rfl
  · rw [P.singleton hu rfl (by decide) hn hv, (hp _).1, (C63_range_rejected _ _ h).1]; rfl
  · refine P.singleton_notes range_bad_only rfl hv _ fun n hn => ?_
    rw [(hp _).2]
    by_cases h : ∃ unit rs, RangeField (textOf ls n) unit rs
    · rw [if_pos h]
      obtain ⟨unit, rs, h⟩ := h
      rw [(C63_range_accepted _ _ _ _ h).cls, List.count_eq_zero.2]
      · rfl
      · intro hm; exact nomatch (List.mem_replicate.1 hm).2
    · rw [if_neg h, (C63_range_rejected _ _ h).2 (ho n hn)]; rfl
  · refine P.singleton_notes range_invalid_only rfl hv _ fun n hn => ?_
    rw [(hp _).2, (C63_range_accepted _ _ _ _ (h n hn)).cls, List.count_replicate_self]

open Classical in
/-- **C63** (`Content-Range` in a response) its value is recorded as the unit, the positions and the length, or as `None`;
`CONTENT_RANGE_MEANINGLESS` is added exactly if the status is neither 206 nor 416; `RANGE_INVALID` is added once if the
range ends before it begins and once if it ends at or after the length. -/
theorem C63_content_range (P : Processed env related t ls m m') (hu : Unpadded ls) (hm : m.kind = .response) :
    (∀ n ∈ namesFor .content_range_ ls,
      (∀ unit span len, ContentRangeField (textOf ls n) unit span len → dget (m'.section t).parsed n = some (contentRangeVal unit span len)) ∧
      ((¬ ∃ unit span len, ContentRangeField (textOf ls n) unit span len) → dget (m'.section t).parsed n = some .none)) ∧
    AddedAbout .CONTENT_RANGE_MEANINGLESS m m' ((namesFor .content_range_ ls).flatMap fun n =>
      if m.statusCode ≠ some 206 ∧ m.statusCode ≠ some 416 then [fieldSubject n] else []) ∧
    (∀ (unit : Str → Str) (first last : Str → Int) (len : Str → Option Int),
      (∀ n ∈ namesFor .content_range_ ls, ContentRangeField (textOf ls n) (unit n) (some (first n, last n)) (len n)) →
      AddedAbout .RANGE_INVALID_content_range m m' ((namesFor .content_range_ ls).flatMap fun n =>
        (if first n > last n then [fieldSubject n] else []) ++ (if ∃ l, len n = some l ∧ last n ≥ l then [fieldSubject n] else []))) := by
  have hv : FieldId.content_range_.validIn m.kind = true := by rw [hm]; rfl
  have hp : ∀ v, parseText ⟨env, m, related⟩ .content_range_ v = (F.content_range.parse ⟨env, m, related⟩ ⟨[], [], []⟩ v).res ∧
      parseNotes ⟨env, m, related⟩ .content_range_ v = (F.content_range.parse ⟨env, m, related⟩ ⟨[], [], []⟩ v).notes.map (·.cls) := fun v => ⟨rfl, rfl⟩
  refine ⟨fun n hn => ⟨fun unit span len h => ?_, fun h => ?_⟩, ?_, fun unit first last len h => ?_⟩
  · rw [P.singleton hu rfl (by decide) hn hv, (hp _).1, (C63_content_range_accepted _ _ _ _ _ _ h).res]; rfl
  · rw [P.singleton hu rfl (by decide) hn hv, (hp _).1, (C63_content_range_rejected _ _ _ h).1]; rfl
  · refine P.singleton_notes cr_meaningless_only rfl hv _ fun n hn => ?_
    have hc : (parseNotes ⟨env, m, related⟩ .content_range_ (textOf ls n)).count .CONTENT_RANGE_MEANINGLESS = if meaningless ⟨env, m, related⟩ then 1 else 0 := by
      rw [(hp _).2]
      by_cases h : ∃ unit span len, ContentRangeField (textOf ls n) unit span len
      · obtain ⟨unit, span, len, h⟩ := h
        rw [(C63_content_range_accepted _ _ _ _ _ _ h).cls]
        unfold contentRangeNotes
        rw [List.count_append, List.count_append]
        have h1 : (if len = none then [NoteId.CONTENT_RANGE_UNKNOWN_LENGTH] else []).count .CONTENT_RANGE_MEANINGLESS = 0 := by split <;> rfl
        rw [h1]
        cases meaningless ⟨env, m, related⟩ <;> (dsimp only; repeat' split) <;> rfl
      · exact (C63_content_range_rejected _ _ _ h).2.2
    rw [hc]
    have : meaningless ⟨env, m, related⟩ = true ↔ m.statusCode ≠ some 206 ∧ m.statusCode ≠ some 416 := by
      unfold meaningless Ctx.isRequest
      rw [hm]; simp
    by_cases h : m.statusCode ≠ some 206 ∧ m.statusCode ≠ some 416
    · rw [if_pos h, if_pos (this.2 h)]; rfl
    · rw [if_neg h, if_neg (fun h' => h (this.1 h'))]; rfl
  · refine P.singleton_notes cr_invalid_only rfl hv _ fun n hn => ?_
    rw [(hp _).2, (C63_content_range_accepted _ _ _ _ _ _ (h n hn)).cls]
    unfold contentRangeNotes
    dsimp only
    rw [List.count_append, List.count_append, List.count_append]
    have h1 : (if len n = none then [NoteId.CONTENT_RANGE_UNKNOWN_LENGTH] else []).count .RANGE_INVALID_content_range = 0 := by split <;> rfl
    have h2 : (if meaningless ⟨env, m, related⟩ then [NoteId.CONTENT_RANGE_MEANINGLESS] else []).count .RANGE_INVALID_content_range = 0 := by split <;> rfl
    rw [h1, h2, Nat.zero_add, ← List.replicate_append_replicate]
    refine append_congr' ?_ ?_
    · split <;> rfl
    · cases len n with
      | none => rw [if_neg (by rintro ⟨l, h, _⟩; exact nomatch h)]; rfl
      | some l =>
        dsimp only
        by_cases hl : last n ≥ l
        · rw [if_pos hl, if_pos ⟨l, rfl, hl⟩]; rfl
        · rw [if_neg hl, if_neg]
          · rfl
          · rintro ⟨l', h, h'⟩; cases h; exact hl h'

/-- `bytes 500-999/1234`, `bytes */1234` -/
example : ContentRangeField (str "bytes 500-999/1234") (str "bytes") (some (500, 999)) (some 1234) ∧ ContentRangeField (str "bytes */1234") (str "bytes") none (some 1234) := by
  have n : ∀ ds : List Nat, ds ≠ [] → (∀ d ∈ ds, d < 10) → ds.length ≤ 4300 → ∀ k : Nat, k = digitsNum ds → Numeral (ds.map (48 + ·)) k :=
    fun ds h1 h2 h3 k hk => ⟨ds, rfl, h1, h2, h3, hk⟩
  have l := n [1,2,3,4] (by decide) (by decide) (by decide) 1234 (by decide)
  exact ⟨⟨by decide, str "500-999", str "1234", rfl, by decide, .inr ⟨str "500", str "999", 500, 999, rfl,
      n [5,0,0] (by decide) (by decide) (by decide) _ (by decide), n [9,9,9] (by decide) (by decide) (by decide) _ (by decide), rfl⟩,
      .inr ⟨1234, l, rfl⟩, by simp⟩,
    ⟨by decide, str "*", str "1234", rfl, by decide, .inl ⟨rfl, rfl⟩, .inr ⟨1234, l, rfl⟩, by simp⟩⟩

end HL.Props
