import Verif.Props.CookieReports
import Verif.Props.ContentRangeThm

/-!
# What is reported on Range and Content-Range, in full (C63)

For every text, whatever characters it has and however long it is; in particular this says which texts are passed over in silence.
-/

namespace HL.Props
open HL.F

/-! ### specification -/

/-- digits only, as Python sees it: superscripts count -/
def digitsOnly (s : Str) : Bool := isDigit s

/-- digits that `int()` doesn't take: superscripts, or too many -/
def oddDigits (s : Str) : Bool := isDigit s && (pyInt s).isNone

/-- the `RANGE_BAD_SYNTAX` note that says what the problem is -/
def rangeBad (problem : Str) : Report := { cls := .RANGE_BAD_SYNTAX, vars := [(str "ref_uri", FieldId.range_.ref), (str "problem", .str problem)] }

/-- why a range (without surrounding space) can't be read, if it can't; `[]` if that isn't said -/
def rangeFault (s : Str) : Option (List Report) :=
  let first := beforeC 45 s
  let last := afterC 45 s
  if 45 ∉ s then some [rangeBad (str "the range specifier must contain a hyphen")]
  else if first ≠ [] ∧ ¬ digitsOnly first then some [rangeBad (str "the first position in the range must be an integer")]
  else if oddDigits first then some []
  else if last ≠ [] ∧ ¬ digitsOnly last then some [rangeBad (str "the last position in the range must be an integer")]
  else if oddDigits last then some []
  else if first = [] ∧ last = [] then some [rangeBad (str "at least one of the first or last positions must be specified")]
  else none

/-- a range that ends before it begins -/
def backwards (s : Str) : Bool := match pyInt (beforeC 45 s), pyInt (afterC 45 s) with
  | some a, some b => a > b
  | _, _ => false

/-- what is reported on a `Range`: on each range, up to the first that can't be read -/
def rangeTextReports (v : Str) : List Report :=
  let rs := (splitOn 44 (afterC 61 v)).map strip
  if 61 ∉ v then [rangeBad (str "the range specifier must contain an equals sign")]
  else (rs.takeWhile fun s => (rangeFault s).isNone).flatMap (fun s => sayIf (backwards s) { cls := .RANGE_INVALID_range }) ++
    (rs.findSome? rangeFault).getD []

/-- why a range in `Content-Range` can't be read -/
def spanFault (s : Str) : Option (List Report) :=
  let first := beforeC 45 s
  let last := afterC 45 s
  if s = str "*" then none
  else if 45 ∉ s then some [{ cls := .RANGE_MISSING_HYPHEN, vars := [(str "value", .str s)] }]
  else if ¬ digitsOnly first then some [{ cls := .RANGE_INVALID_INTEGER, vars := [(str "value", .str first)] }]
  else if ¬ digitsOnly last then some [{ cls := .RANGE_INVALID_INTEGER, vars := [(str "value", .str last)] }]
  else if oddDigits first ∨ oddDigits last then some []
  else none

/-- the last position isn't before the length -/
def beyondLength (s len : Str) : Bool := match pyInt (afterC 45 s), pyInt len with
  | some b, some l => b ≥ l
  | _, _ => false

/-- what is reported on a `Content-Range` in a response with this status: `unit range/length` -/
def contentRangeReports (status : Option Int) (v : Str) : List Report :=
  let rest := afterC 32 v
  let rng := beforeC 47 rest
  let len := afterC 47 rest
  sayIf (status != some 206 && status != some 416) { cls := .CONTENT_RANGE_MEANINGLESS } ++
  if 32 ∉ v then sayIf (v.contains 47) { cls := .CONTENT_RANGE_MISSING_UNIT }
  else if 47 ∉ rest then [{ cls := .CONTENT_RANGE_MISSING_SLASH }]
  else if rng = str "*" ∧ len = str "*" then [{ cls := .CONTENT_RANGE_INVALID_ASTERISK }]
  else if len ≠ str "*" ∧ ¬ digitsOnly len then [{ cls := .RANGE_INVALID_INTEGER, vars := [(str "value", .str len)] }]
  else if len ≠ str "*" ∧ oddDigits len then []
  else
    sayIf (len == str "*") { cls := .CONTENT_RANGE_UNKNOWN_LENGTH } ++
    match spanFault rng with
    | some l => l
    | none =>
      if rng = str "*" then sayIf (status == some 206) { cls := .CONTENT_RANGE_UNSATISFIED_BAD_SC }
      else sayIf (backwards rng) { cls := .RANGE_INVALID_content_range } ++ sayIf (beyondLength rng len) { cls := .RANGE_INVALID_content_range }

/-! ### notes and result of a check -/

/-- what is said, and how it ends -/
structure Speaks {α} (add : AddNote) (w : W α) (l : List Report) (r : Except Exn α) : Prop where
  notes : w.notes = l.map (Report.note add)
  res : w.res = r

theorem Speaks.pure {α} {add : AddNote} {a : α} : Speaks add (pure a : W α) [] (.ok a) := ⟨rfl, rfl⟩
theorem Speaks.throw {α} {add : AddNote} {e} : Speaks add (W.throw e : W α) [] (.error e) := ⟨rfl, rfl⟩
theorem Speaks.add {add : AddNote} {X vrs} : Speaks add (add.add X vrs) [⟨X, vrs, []⟩] (.ok ()) := ⟨rfl, rfl⟩
theorem Speaks.when {add : AddNote} {b : Bool} {X vrs} : Speaks add (W.when b (add.add X vrs)) (sayIf b ⟨X, vrs, []⟩) (.ok ()) := by
  cases b <;> exact ⟨rfl, rfl⟩

theorem Speaks.bind {α β} {add : AddNote} {x : W α} {f : α → W β} {l l' a r} (h : Speaks add x l (.ok a)) (h' : Speaks add (f a) l' r) : Speaks add (x >>= f) (l ++ l') r := by
  constructor
  · rw [W.bind_ok h.res, List.map_append, ← h.notes, ← h'.notes]
  · rw [W.bind_ok h.res, h'.res]

theorem Speaks.stop {α β} {add : AddNote} {x : W α} {f : α → W β} {l e} (h : Speaks add x l (.error e)) : Speaks add (x >>= f) l (.error e) := by
  constructor
  · rw [W.bind_err h.res]; exact h.notes
  · rw [W.bind_err h.res]

/-! ### the code -/

theorem split1_beforeC {c : Nat} {s : Str} (h : c ∈ s) : split1 c s = some (beforeC c s, afterC c s) := by
  rw [split1_parts]
  unfold beforeC afterC
  induction s with
  | nil => exact absurd h (by simp)
  | cons x s ih =>
    by_cases hx : x = c
    · subst hx
      simp
    · have hm : c ∈ s := by
        rcases List.mem_cons.1 h with h | h
        · exact absurd h.symm hx
        · exact h
      obtain ⟨h1, h2⟩ := ih hm
      have hb : (x != c) = true := by simpa using hx
      rw [List.takeWhile_cons_of_pos (by simpa using hx), List.dropWhile_cons_of_pos (by simpa using hx), List.cons_append]
      refine ⟨congrArg (x :: ·) h1, ?_⟩
      intro hc
      rcases List.mem_cons.1 hc with hc | hc
      · exact hx hc.symm
      · exact h2 hc

theorem intOrRaise_says {add : AddNote} {s : Str} : Speaks add (intOrRaise s) [] (match pyInt s with | some n => .ok n | none => .error .valueError) := by
  unfold intOrRaise
  cases pyInt s
  · exact Speaks.throw
  · exact Speaks.pure

/-- one end of a range -/
theorem parseEnd_says (add : AddNote) (s p : Str) :
    (s ≠ [] ∧ ¬ digitsOnly s = true → Speaks add (range.parseEnd add s p) [rangeBad p] (.error .valueError)) ∧
    (¬ (s ≠ [] ∧ ¬ digitsOnly s = true) → oddDigits s = true → Speaks add (range.parseEnd add s p) [] (.error .valueError)) ∧
    (¬ (s ≠ [] ∧ ¬ digitsOnly s = true) → oddDigits s = false → Speaks add (range.parseEnd add s p) [] (.ok (pyInt s)) ∧ (pyInt s = none ↔ s = [])) := by
  unfold range.parseEnd
  cases s with
  | nil =>
    refine ⟨fun h => absurd rfl h.1, fun _ h => absurd h (by decide), fun _ _ => ⟨?_, ?_⟩⟩
    · exact (Speaks.pure (a := (none : Option Int)))
    · constructor <;> intro _ <;> first | rfl | decide
  | cons x s =>
    rw [if_neg (by simp)]
    unfold digitsOnly oddDigits
    cases hd : isDigit (x :: s) with
    | false =>
      refine ⟨fun _ => ?_, fun h => absurd ⟨by simp, by simp⟩ h, fun h => absurd ⟨by simp, by simp⟩ h⟩
      exact Speaks.bind (Speaks.add) Speaks.throw
    | true =>
      refine ⟨fun h => absurd rfl h.2, fun _ h => ?_, fun _ h => ?_⟩
      · have hi := intOrRaise_says (add := add) (s := x :: s)
        have hn : pyInt (x :: s) = none := by simpa using h
        rw [hn] at hi
        exact Speaks.stop hi
      · have hi := intOrRaise_says (add := add) (s := x :: s)
        cases hn : pyInt (x :: s) with
        | none => rw [hn] at h; exact absurd h (by simp)
        | some k =>
          rw [hn] at hi
          exact ⟨Speaks.bind hi Speaks.pure, by simp⟩

/-- one range -/
theorem rangeSpec_says (add : AddNote) (rng : Str) :
    match rangeFault (strip rng) with
    | some l => Speaks add (range.parseSpec add rng) l (.error .valueError)
    | none => Speaks add (range.parseSpec add rng) (sayIf (backwards (strip rng)) { cls := .RANGE_INVALID_range }) (.ok (pyInt (beforeC 45 (strip rng)), pyInt (afterC 45 (strip rng)))) := by
  unfold range.parseSpec rangeFault backwards
  generalize strip rng = s
  dsimp only
  by_cases h0 : 45 ∉ s
  · rw [if_pos h0, split1_nowhere.2 h0]
    exact Speaks.bind Speaks.add Speaks.throw
  rw [if_neg h0, split1_beforeC (by simpa using h0)]
  dsimp only
  obtain ⟨a1, a2, a3⟩ := parseEnd_says add (beforeC 45 s) (str "the first position in the range must be an integer")
  by_cases h1 : beforeC 45 s ≠ [] ∧ ¬ digitsOnly (beforeC 45 s) = true
  · rw [if_pos h1]; exact Speaks.stop (a1 h1)
  rw [if_neg h1]
  cases h2 : oddDigits (beforeC 45 s) with
  | true => rw [if_pos rfl]; exact Speaks.stop (a2 h1 h2)
  | false =>
  rw [if_neg (by simp)]
  obtain ⟨b1, b2, b3⟩ := parseEnd_says add (afterC 45 s) (str "the last position in the range must be an integer")
  have hA := a3 h1 h2
  by_cases h3 : afterC 45 s ≠ [] ∧ ¬ digitsOnly (afterC 45 s) = true
  · rw [if_pos h3]; exact Speaks.bind (l := []) hA.1 (Speaks.stop (b1 h3))
  rw [if_neg h3]
  cases h4 : oddDigits (afterC 45 s) with
  | true => rw [if_pos rfl]; exact Speaks.bind (l := []) hA.1 (Speaks.stop (b2 h3 h4))
  | false =>
  rw [if_neg (by simp)]
  have hB := b3 h3 h4
  cases hx : pyInt (beforeC 45 s) with
  | none =>
    have e1 := hA.2.1 hx
    cases hy : pyInt (afterC 45 s) with
    | none =>
      have e2 := hB.2.1 hy
      rw [if_pos ⟨e1, e2⟩]
      rw [hx] at hA
      rw [hy] at hB
      exact Speaks.bind (l := []) hA.1 (Speaks.bind (l := []) hB.1 (Speaks.bind (l := [_]) (l' := []) Speaks.add Speaks.throw))
    | some y =>
      rw [if_neg (fun h => by rw [hB.2.2 h.2] at hy; exact nomatch hy)]
      rw [hx] at hA
      rw [hy] at hB
      exact Speaks.bind (l := []) hA.1 (Speaks.bind (l := []) hB.1 Speaks.pure)
  | some x =>
    rw [if_neg (fun h => by rw [hA.2.2 h.1] at hx; exact nomatch hx)]
    rw [hx] at hA
    cases hy : pyInt (afterC 45 s) with
    | none =>
      rw [hy] at hB
      exact Speaks.bind (l := []) hA.1 (Speaks.bind (l := []) hB.1 Speaks.pure)
    | some y =>
      rw [hy] at hB
      dsimp only
      rw [← List.append_nil (sayIf (decide (x > y)) _)]
      exact Speaks.bind (l := []) hA.1 (Speaks.bind (l := []) hB.1 (Speaks.bind Speaks.when Speaks.pure))

theorem specs_say (add : AddNote) (ps : List Str) :
    ((ps.mapM (range.parseSpec add)).notes =
      ((((ps.map strip).takeWhile fun s => (rangeFault s).isNone).flatMap (fun s => sayIf (backwards s) { cls := .RANGE_INVALID_range }) ++
        ((ps.map strip).findSome? rangeFault).getD []).map (Report.note add))) := by
  induction ps with
  | nil => rfl
  | cons p ps ih =>
    have h := rangeSpec_says add p
    rw [List.mapM_cons, List.map_cons]
    cases hf : rangeFault (strip p) with
    | some l =>
      rw [hf] at h
      dsimp only at h
      rw [W.bind_err h.res, List.takeWhile_cons_of_neg (by simp [hf]), List.findSome?_cons, hf]
      exact h.notes
    | none =>
      rw [hf] at h
      dsimp only at h
      rw [W.bind_ok h.res, List.takeWhile_cons_of_pos (by simp [hf]), List.findSome?_cons, hf, List.flatMap_cons]
      dsimp only
      rw [List.append_assoc, List.map_append, h.notes, ← ih]
      congr 1
      cases hr : (ps.mapM (range.parseSpec add)).res with
      | error e => rw [W.bind_err hr]
      | ok a => rw [W.bind_ok hr]; exact List.append_nil _

theorem range_says (add : AddNote) (v : Str) : (range.parse add v).notes = (rangeTextReports v).map (Report.note add) := by
  unfold range.parse rangeTextReports
  dsimp only
  by_cases h0 : 61 ∉ v
  · rw [if_pos h0, split1_nowhere.2 h0]
    exact (Speaks.bind (Speaks.add (add := add)) (Speaks.throw (α := Val))).notes
  rw [if_neg h0, split1_beforeC (by simpa using h0)]
  dsimp only
  rw [← specs_say]
  cases hr : ((splitOn 44 (afterC 61 v)).mapM (range.parseSpec add)).res with
  | error e => rw [W.bind_err hr]
  | ok a => rw [W.bind_ok hr]; exact List.append_nil _

theorem length_says (add : AddNote) (s : Str) :
    (s = str "*" → Speaks add (content_range.parseLength add s) [{ cls := .CONTENT_RANGE_UNKNOWN_LENGTH }] (.ok none)) ∧
    (s ≠ str "*" → ¬ digitsOnly s = true → Speaks add (content_range.parseLength add s) [{ cls := .RANGE_INVALID_INTEGER, vars := [(str "value", .str s)] }] (.ok none)) ∧
    (s ≠ str "*" → digitsOnly s = true → oddDigits s = true → Speaks add (content_range.parseLength add s) [] (.error .valueError)) ∧
    (s ≠ str "*" → digitsOnly s = true → oddDigits s = false → Speaks add (content_range.parseLength add s) [] (.ok (pyInt s)) ∧ ∃ k, pyInt s = some k) := by
  unfold content_range.parseLength digitsOnly oddDigits
  refine ⟨fun h => ?_, fun h hd => ?_, fun h hd ho => ?_, fun h hd ho => ?_⟩
  · rw [if_pos h]; exact Speaks.bind Speaks.add Speaks.pure
  · rw [if_neg h, if_pos (by simpa using hd)]; exact Speaks.bind Speaks.add Speaks.pure
  · rw [if_neg h, if_neg (by simp [hd])]
    have hi := intOrRaise_says (add := add) (s := s)
    have hn : pyInt s = none := by simpa [hd] using ho
    rw [hn] at hi
    exact Speaks.stop hi
  · rw [if_neg h, if_neg (by simp [hd])]
    have hi := intOrRaise_says (add := add) (s := s)
    cases hn : pyInt s with
    | none => rw [hn, hd] at ho; exact absurd ho (by simp)
    | some k =>
      rw [hn] at hi
      exact ⟨Speaks.bind hi Speaks.pure, k, rfl⟩

/-- `rng` in `Content-Range` -/
theorem span_says (add : AddNote) (s : Str) (hs : s ≠ str "*") :
    match spanFault s with
    | some l => Speaks add (content_range.parseSpec add s) l (.ok none) ∨ (l = [] ∧ Speaks add (content_range.parseSpec add s) l (.error .valueError))
    | none => ∃ a b, pyInt (beforeC 45 s) = some a ∧ pyInt (afterC 45 s) = some b ∧ Speaks add (content_range.parseSpec add s) [] (.ok (some (a, b))) := by
  unfold spanFault content_range.parseSpec
  dsimp only
  rw [if_neg hs, if_neg hs]
  by_cases h0 : 45 ∉ s
  · rw [if_pos h0, split1_nowhere.2 h0]
    exact .inl (Speaks.bind Speaks.add Speaks.pure)
  rw [if_neg h0, split1_beforeC (by simpa using h0)]
  dsimp only
  unfold digitsOnly oddDigits
  cases h1 : isDigit (beforeC 45 s) with
  | false => exact .inl (Speaks.bind Speaks.add Speaks.pure)
  | true =>
  cases h2 : isDigit (afterC 45 s) with
  | false => exact .inl (Speaks.bind Speaks.add Speaks.pure)
  | true =>
  have hi := intOrRaise_says (add := add) (s := beforeC 45 s)
  have hj := intOrRaise_says (add := add) (s := afterC 45 s)
  cases hx : pyInt (beforeC 45 s) with
  | none =>
    rw [hx] at hi
    exact .inr ⟨rfl, Speaks.stop hi⟩
  | some x =>
    rw [hx] at hi
    cases hy : pyInt (afterC 45 s) with
    | none =>
      rw [hy] at hj
      exact .inr ⟨rfl, Speaks.bind (l := []) hi (Speaks.stop hj)⟩
    | some y =>
      rw [hy] at hj
      exact ⟨x, y, rfl, rfl, Speaks.bind (l := []) hi (Speaks.bind (l := []) hj Speaks.pure)⟩

theorem status_says {c : Ctx} (hc : c.isRequest = false) (add : AddNote) :
    Speaks add (content_range.checkStatus c add) (sayIf (c.msg.statusCode != some 206 && c.msg.statusCode != some 416) { cls := .CONTENT_RANGE_MEANINGLESS }) (.ok ()) := by
  unfold content_range.checkStatus
  rw [hc]
  have : (!false && !(c.msg.statusCode == some 206 || c.msg.statusCode == some 416)) = (c.msg.statusCode != some 206 && c.msg.statusCode != some 416) := by
    rw [Bool.not_or]; rfl
  rw [this]
  exact Speaks.when

/-- at or after the length, if that is known -/
def notBefore (b : Int) : Option Int → Bool
  | some l => decide (b ≥ l)
  | none => false

theorem contentRange_says {c : Ctx} (hc : c.isRequest = false) (add : AddNote) (v : Str) :
    (content_range.parse c add v).notes = (contentRangeReports c.msg.statusCode v).map (Report.note add) := by
  unfold content_range.parse contentRangeReports
  dsimp only
  have hs := status_says hc add
  have key : ∀ {w : W Val} {l}, w.notes = l.map (Report.note add) → (content_range.checkStatus c add >>= fun _ => w).notes =
      (sayIf (c.msg.statusCode != some 206 && c.msg.statusCode != some 416) { cls := .CONTENT_RANGE_MEANINGLESS } ++ l).map (Report.note add) := by
    intro w l h
    rw [W.bind_ok hs.res, List.map_append, ← h, ← hs.notes]
  apply key
  by_cases h0 : 32 ∉ v
  · rw [if_pos h0, split1_nowhere.2 h0]
    have := Speaks.bind (Speaks.when (add := add) (b := v.contains 47) (X := .CONTENT_RANGE_MISSING_UNIT) (vrs := [])) (f := fun _ => (W.throw .valueError : W Val)) Speaks.throw
    rw [List.append_nil] at this
    exact this.notes
  rw [if_neg h0, split1_beforeC (by simpa using h0)]
  dsimp only
  by_cases h1 : 47 ∉ afterC 32 v
  · rw [if_pos h1, split1_nowhere.2 h1]
    exact (Speaks.bind (Speaks.add (add := add)) (Speaks.throw (α := Val))).notes
  rw [if_neg h1, split1_beforeC (by simpa using h1)]
  dsimp only
  generalize beforeC 47 (afterC 32 v) = rng
  generalize afterC 47 (afterC 32 v) = len
  by_cases h2 : rng = str "*" ∧ len = str "*"
  · rw [if_pos h2, if_pos h2]
    exact (Speaks.bind (Speaks.add (add := add)) (Speaks.throw (α := Val))).notes
  rw [if_neg h2, if_neg h2]
  obtain ⟨l1, l2, l3, l4⟩ := length_says add len
  by_cases h3 : len ≠ str "*" ∧ ¬ digitsOnly len = true
  · rw [if_pos h3]
    rw [W.bind_ok (l2 h3.1 h3.2).res]
    dsimp only
    rw [if_pos ⟨rfl, h3.1⟩]
    exact (List.append_nil _).trans (l2 h3.1 h3.2).notes
  rw [if_neg h3]
  by_cases h4 : len ≠ str "*" ∧ oddDigits len = true
  · rw [if_pos h4]
    have hd : digitsOnly len = true := by
      cases hd : digitsOnly len
      · exact absurd ⟨h4.1, by simp [hd]⟩ h3
      · rfl
    exact (Speaks.stop (l3 h4.1 hd h4.2)).notes
  rw [if_neg h4]
  -- the length is read
  have hlen : ∃ complete : Option Int, Speaks add (content_range.parseLength add len) (sayIf (len == str "*") { cls := .CONTENT_RANGE_UNKNOWN_LENGTH }) (.ok complete) ∧
      (¬ (complete = none ∧ len ≠ str "*")) ∧ (∀ b : Int, notBefore b complete = notBefore b (pyInt len)) := by
    by_cases hl : len = str "*"
    · refine ⟨none, ?_, fun h => h.2 hl, fun b => ?_⟩
      · rw [show (len == str "*") = true by simp [hl]]; exact l1 hl
      · rw [hl]; rfl
    · have hd : digitsOnly len = true := by
        cases hd : digitsOnly len
        · exact absurd ⟨hl, by simp [hd]⟩ h3
        · rfl
      have ho : oddDigits len = false := by
        cases ho : oddDigits len
        · rfl
        · exact absurd ⟨hl, ho⟩ h4
      obtain ⟨h5, k, h6⟩ := l4 hl hd ho
      refine ⟨pyInt len, ?_, fun h => ?_, fun b => rfl⟩
      · rw [show (len == str "*") = false by simp [hl]]; exact h5
      · rw [h6] at h; exact nomatch h.1
  obtain ⟨complete, hc1, hc2, hc3⟩ := hlen
  rw [W.bind_ok hc1.res, List.map_append, ← hc1.notes]
  dsimp only
  congr 1
  rw [if_neg hc2]
  by_cases hr : rng = str "*"
  · have e1 : content_range.parseSpec add rng = pure none := by unfold content_range.parseSpec; rw [if_pos hr]
    have e2 : spanFault rng = none := by unfold spanFault; dsimp only; rw [if_pos hr]
    rw [e1, e2, if_pos hr, W.bind_ok (a := none) rfl]
    dsimp only
    rw [if_pos hr, hc]
    have := Speaks.bind (Speaks.when (add := add) (b := c.msg.statusCode == some 206) (X := .CONTENT_RANGE_UNSATISFIED_BAD_SC) (vrs := []))
      (f := fun _ => (pure (.tuple [.str (beforeC 32 v), .none, .none, optInt complete]) : W Val)) Speaks.pure
    rw [List.append_nil] at this
    exact this.notes
  · have h := span_says add rng hr
    rw [if_neg hr]
    cases hf : spanFault rng with
    | some l =>
      rw [hf] at h
      dsimp only at h ⊢
      rcases h with h | ⟨rfl, h⟩
      · rw [W.bind_ok h.res]
        dsimp only
        rw [if_neg hr]
        exact (List.append_nil _).trans h.notes
      · rw [W.bind_err h.res]
        exact h.notes
    | none =>
      rw [hf] at h
      dsimp only at h ⊢
      obtain ⟨a, b, ea, eb, h⟩ := h
      rw [W.bind_ok h.res]
      dsimp only
      rw [if_neg hr]
      rw [h.notes]
      have e1 : backwards rng = decide (a > b) := by unfold backwards; rw [ea, eb]
      have e2 : beyondLength rng len = notBefore b complete := by
        rw [hc3 b]
        unfold beyondLength notBefore; rw [eb]
        cases pyInt len <;> rfl
      rw [e1, e2]
      have w1 : Speaks add (W.when (decide (a > b)) (add.add .RANGE_INVALID_content_range)) (sayIf (decide (a > b)) { cls := .RANGE_INVALID_content_range }) (.ok ()) := Speaks.when
      cases complete with
      | none =>
        exact (Speaks.bind w1 (f := fun _ => (pure (.tuple [.str (beforeC 32 v), .int a, .int b, optInt none]) : W Val)) Speaks.pure).notes
      | some l =>
        have := Speaks.bind w1 (f := fun _ => W.when (decide (b ≥ l)) (add.add .RANGE_INVALID_content_range) >>= fun _ =>
          (pure (.tuple [.str (beforeC 32 v), .int a, .int b, optInt (some l)]) : W Val)) (Speaks.bind Speaks.when Speaks.pure)
        rw [List.append_nil] at this
        exact this.notes

/-! ### in a section -/

/-- the classes of note on `Range` -/
def rangeClasses : List NoteId := [.RANGE_BAD_SYNTAX, .RANGE_INVALID_range]

/-- the classes of note on `Content-Range` -/
def contentRangeClasses : List NoteId := [.CONTENT_RANGE_MEANINGLESS, .CONTENT_RANGE_MISSING_UNIT, .CONTENT_RANGE_MISSING_SLASH, .CONTENT_RANGE_INVALID_ASTERISK,
  .CONTENT_RANGE_UNKNOWN_LENGTH, .CONTENT_RANGE_UNSATISFIED_BAD_SC, .RANGE_MISSING_HYPHEN, .RANGE_INVALID_INTEGER, .RANGE_INVALID_content_range]

theorem rangeFault_these {s l} (h : rangeFault s = some l) : ∀ r ∈ l, r.Clean ∧ rangeClasses.contains r.cls = true := by
  have hb : ∀ p, (rangeBad p).Clean ∧ rangeClasses.contains (rangeBad p).cls = true := fun p => ⟨⟨by show ([str "ref_uri", str "problem"] : List Str).Nodup; decide, by simp [rangeBad]⟩, rfl⟩
  unfold rangeFault at h
  dsimp only at h
  intro r hr
  repeat' split at h
  all_goals first
    | (rw [← Option.some.inj h] at hr; first | (rw [List.mem_singleton] at hr; subst hr; exact hb _) | exact absurd hr List.not_mem_nil)
    | exact nomatch h

theorem rangeReports_these (v) : ∀ r ∈ rangeTextReports v, r.Clean ∧ rangeClasses.contains r.cls = true := by
  intro r hr
  unfold rangeTextReports at hr
  dsimp only at hr
  split at hr
  · rw [List.mem_singleton] at hr; subst hr
    exact ⟨⟨by show ([str "ref_uri", str "problem"] : List Str).Nodup; decide, by simp [rangeBad]⟩, rfl⟩
  · rcases List.mem_append.1 hr with hr | hr
    · obtain ⟨s, _, hr⟩ := List.mem_flatMap.1 hr
      obtain ⟨_, rfl⟩ := mem_sayIf.1 hr
      exact ⟨⟨by simp, by simp⟩, rfl⟩
    · cases hf : ((splitOn 44 (afterC 61 v)).map strip).findSome? rangeFault with
      | none => rw [hf] at hr; exact absurd hr (by simp)
      | some l =>
        rw [hf] at hr
        obtain ⟨s, _, hs⟩ := List.exists_of_findSome?_eq_some hf
        exact rangeFault_these hs r hr

theorem spanFault_these {s l} (h : spanFault s = some l) : ∀ r ∈ l, r.Clean ∧ contentRangeClasses.contains r.cls = true := by
  unfold spanFault at h
  dsimp only at h
  intro r hr
  repeat' split at h
  all_goals first
    | (rw [← Option.some.inj h] at hr; first | (rw [List.mem_singleton] at hr; subst hr; exact ⟨⟨by simp, by simp⟩, rfl⟩) | exact absurd hr List.not_mem_nil)
    | exact nomatch h

theorem contentRangeReports_these (c v) : ∀ r ∈ contentRangeReports c v, r.Clean ∧ contentRangeClasses.contains r.cls = true := by
  intro r hr
  unfold contentRangeReports at hr
  dsimp only at hr
  have hs : ∀ {b X}, contentRangeClasses.contains X = true → r ∈ sayIf b { cls := X } → r.Clean ∧ contentRangeClasses.contains r.cls = true := by
    intro b X hX h
    obtain ⟨_, rfl⟩ := mem_sayIf.1 h
    exact ⟨⟨by simp, by simp⟩, hX⟩
  rcases List.mem_append.1 hr with hr | hr
  · exact hs rfl hr
  split at hr
  · exact hs rfl hr
  split at hr
  · rw [List.mem_singleton] at hr; subst hr; exact ⟨⟨by simp, by simp⟩, rfl⟩
  split at hr
  · rw [List.mem_singleton] at hr; subst hr; exact ⟨⟨by simp, by simp⟩, rfl⟩
  split at hr
  · rw [List.mem_singleton] at hr; subst hr; exact ⟨⟨by simp, by simp⟩, rfl⟩
  split at hr
  · exact absurd hr (by simp)
  rcases List.mem_append.1 hr with hr | hr
  · exact hs rfl hr
  split at hr
  · exact spanFault_these ‹_› r hr
  split at hr
  · exact hs rfl hr
  rcases List.mem_append.1 hr with hr | hr
  · exact hs rfl hr
  · exact hs rfl hr

section
variable {env : Env} {related : Option Msg} {t : Bool} {ls : List Line} {m m' : Msg}

theorem among_all {Xs : List NoteId} {add : AddNote} {l : List Report} (h : ∀ r ∈ l, Xs.contains r.cls = true) : amongClass Xs (l.map (Report.note add)) = l.map (Report.note add) := by
  unfold amongClass
  rw [List.filter_eq_self]
  intro x hx
  obtain ⟨r, hr, rfl⟩ := List.mem_map.1 hx
  have : (Report.note add r).cls = r.cls := by rw [Report.note, foldl_addChild]; rfl
  rw [this]
  exact h r hr

/-- **C63** (notes on `Range` in full) in a request -/
theorem C63_range_report (P : Processed env related t ls m m') (hk : m.kind = .request) :
    Reported rangeClasses m m' ((namesFor .range_ ls).flatMap fun n => (rangeTextReports (textOf ls n)).map (fieldSubject n, ·)) := by
  have hX : Only rangeClasses [.range_] := by only_these
  have hV : FieldId.range_.validIn m.kind = true := by rw [hk]; rfl
  refine (P.text_reports hX rfl hV rangeTextReports (fun _ => []) (fun v r hr => (rangeReports_these v r hr).1) (fun _ _ r hr => absurd hr (by simp)) ?_ ?_).congr ?_
  · intro add hd v hf
    unfold Handler.parse
    rw [hf]
    show amongClass _ (range.parse add v).notes = _
    rw [range_says, among_all fun r hr => (rangeReports_these v r hr).2]
  · intro c add hd n _ _ _ _ _ hf _
    unfold Handler.evaluate
    rw [hf]
    rfl
  · apply flatMap_congr_mem
    intro n _
    simp

/-- **C63** (notes on `Content-Range` in full) in a response -/
theorem C63_content_range_report (P : Processed env related t ls m m') (hk : m.kind = .response) :
    Reported contentRangeClasses m m' ((namesFor .content_range_ ls).flatMap fun n => (contentRangeReports m.statusCode (textOf ls n)).map (fieldSubject n, ·)) := by
  have hX : Only contentRangeClasses [.content_range_] := by only_these
  have hV : FieldId.content_range_.validIn m.kind = true := by rw [hk]; rfl
  refine (P.text_reports hX rfl hV (contentRangeReports m.statusCode) (fun _ => []) (fun v r hr => (contentRangeReports_these _ v r hr).1) (fun _ _ r hr => absurd hr (by simp)) ?_ ?_).congr ?_
  · intro add hd v hf
    unfold Handler.parse
    rw [hf]
    show amongClass _ (content_range.parse ⟨env, m, related⟩ add v).notes = _
    rw [contentRange_says (by unfold Ctx.isRequest; rw [hk]; rfl), among_all fun r hr => (contentRangeReports_these _ v r hr).2]
  · intro c add hd n _ _ _ _ _ hf _
    unfold Handler.evaluate
    rw [hf]
    rfl
  · apply flatMap_congr_mem
    intro n _
    simp

end

/-- non-vacuity -/
example : rangeTextReports (str "bytes=5-3, 2-7,x-1,9") =
    [{ cls := .RANGE_INVALID_range }, rangeBad (str "the first position in the range must be an integer")] := by
  rfl

example : contentRangeReports (some 200) (str "bytes 5-3/2") =
    [{ cls := .CONTENT_RANGE_MEANINGLESS }, { cls := .RANGE_INVALID_content_range }, { cls := .RANGE_INVALID_content_range }] ∧
    contentRangeReports (some 206) (str "bytes 5-x/*") = [{ cls := .CONTENT_RANGE_UNKNOWN_LENGTH }, { cls := .RANGE_INVALID_INTEGER, vars := [(str "value", .str (str "x"))] }] := by
  exact ⟨rfl, rfl⟩

end HL.Props
