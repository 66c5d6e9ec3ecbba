import Verif.NoteBare
import Verif.Props.Basic
import Verif.Fields

/-!
# Texts that add no markup to a note

What a variable shown outside code spans may look like: plain text, or Markdown the linter made, in which everything
that comes from the message is in code spans.
-/

namespace HL.Props

/-- `<`, `>`, `[`, `]` and the backslash: the characters HTML, links and escapes are made of -/
def special (c : Nat) : Bool := c == 60 || c == 62 || c == 91 || c == 93 || c == 92
/-- a line break: CR or LF -/
def isBreak (c : Nat) : Bool := c == 10 || c == 13
/-- a space or tab -/
def isBlank (c : Nat) : Bool := c == 32 || c == 9

/-- no markup and no line break, and it does not begin with a space -/
def plainText (s : Str) : Bool :=
  s.all (fun c => !special c && !isBreak c) && !(s.head?.any isBlank)

/-- where one is in a piece of Markdown: at the beginning of a line, in a line, in a code span -/
inductive MdAt where
  | line | out | code
  deriving DecidableEq, Repr

/-- Markdown in which markup occurs only in code spans, without indented lines -/
def calmMd : MdAt → Str → Bool
  | p, [] => p == .out
  | .line, c :: r =>
    if c == 96 then calmMd .code r
    else if special c || isBreak c || isBlank c then false
    else calmMd .out r
  | .out, c :: r =>
    if c == 96 then calmMd .code r
    else if special c then false
    else if isBreak c then calmMd .line r
    else calmMd .out r
  | .code, c :: r => if c == 96 then calmMd .out r else calmMd .code r

/-- a value that can be shown outside code: a number, a time, plain text (or the remark on report-only policies), or
Markdown with markup only in code spans -/
def calm : Val → Bool
  | .int _ => true
  | .rel _ _ _ => true
  | .str s => plainText (removeC 96 s) || s == F.cspReportOnly.text || s == F.coxpReportOnly.text
  | .md s => s.isEmpty || calmMd .line s
  | _ => false

/-- the variables that the class's text shows outside code are bound to such values -/
def inert (cls : NoteId) (vrs : Dict Val) : Bool :=
  cls.bare.all fun k => (dget vrs.reverse k).any calm

/-- the same of the variables of a note that has been made -/
def Quiet (cls : NoteId) (vars : Dict Val) : Prop := ∀ k ∈ cls.bare, ∃ v, dget vars k = some v ∧ calm v = true

theorem quiet_dupdate {cls : NoteId} {d vrs : Dict Val} (h : inert cls vrs = true) : Quiet cls (HL.dupdate d vrs) := by
  intro k hk
  have h1 := (List.all_eq_true.1 h) k hk
  rw [Option.any_eq_true] at h1
  obtain ⟨v, hv, hc⟩ := h1
  refine ⟨v, ?_, hc⟩
  rw [dget_dupdate, hv]
  rfl

theorem inert_append {cls : NoteId} {b vrs : Dict Val} (h : inert cls vrs = true) : inert cls (b ++ vrs) = true := by
  refine List.all_eq_true.2 fun k hk => ?_
  have h1 := (List.all_eq_true.1 h) k hk
  rw [Option.any_eq_true] at h1 ⊢
  obtain ⟨v, hv, hc⟩ := h1
  refine ⟨v, ?_, hc⟩
  rw [List.reverse_append, dget_append, hv]
  rfl

theorem inert_none {cls : NoteId} {vrs : Dict Val} (h : cls.bare = []) : inert cls vrs = true := by
  simp [inert, h]

/-! ### plain texts -/

/-- neither markup, nor a line break, nor a blank, nor a backtick -/
def ordinary (c : Nat) : Bool := !special c && !isBreak c && !isBlank c && c != 96

theorem plainText_append {a b : Str} (ha : a.all ordinary = true) (hne : a ≠ [])
    (hb : b.all (fun c => !special c && !isBreak c) = true) : plainText (removeC 96 (a ++ b)) = true := by
  obtain ⟨x, r, rfl⟩ := List.exists_cons_of_ne_nil hne
  simp only [List.all_cons, Bool.and_eq_true] at ha
  have hx : (x != 96) = true := by
    have := ha.1
    simp only [ordinary, Bool.and_eq_true] at this
    exact this.2
  have e : removeC 96 (x :: r ++ b) = x :: removeC 96 (r ++ b) := by
    simp only [removeC, List.cons_append, List.filter_cons, hx, ↓reduceIte]
  have ord : ∀ c, ordinary c = true → (!special c && !isBreak c) = true := by
    intro c hc
    simp only [ordinary, Bool.and_eq_true] at hc ⊢
    exact hc.1.1
  rw [e]
  unfold plainText
  rw [Bool.and_eq_true]
  constructor
  · rw [List.all_eq_true]
    intro c hc
    rcases List.mem_cons.1 hc with rfl | hc
    · exact ord _ ha.1
    · have hm := (List.mem_filter.1 hc).1
      rcases List.mem_append.1 hm with h | h
      · exact ord _ (List.all_eq_true.1 ha.2 c h)
      · exact List.all_eq_true.1 hb c h
  · have := ha.1
    simp only [ordinary, Bool.and_eq_true] at this
    simpa using this.1.2

theorem calm_append {a b : Str} (ha : a.all ordinary = true) (hne : a ≠ [])
    (hb : b.all (fun c => !special c && !isBreak c) = true) : calm (.str (a ++ b)) = true := by
  show (plainText (removeC 96 (a ++ b)) || _ || _) = true
  rw [plainText_append ha hne hb]
  rfl

theorem calm_ordinary {a : Str} (ha : a.all ordinary = true) (hne : a ≠ []) : calm (.str a) = true := by
  have := calm_append ha hne (b := []) rfl
  simpa using this

theorem ordinary_digit (d : Nat) (h : d < 10) : ordinary (Nat.digitChar d).toNat = true := by
  have : ∀ d : Fin 10, ordinary (Nat.digitChar d.1).toNat = true := by decide
  exact this ⟨d, h⟩

theorem toDigitsCore_ordinary (fuel n : Nat) (l : List Char) (hl : (l.map Char.toNat).all ordinary = true) :
    ((Nat.toDigitsCore 10 fuel n l).map Char.toNat).all ordinary = true := by
  induction fuel generalizing n l with
  | zero => exact hl
  | succ f ih =>
    unfold Nat.toDigitsCore
    dsimp only
    have h1 : (((Nat.digitChar (n % 10)) :: l).map Char.toNat).all ordinary = true := by
      simp only [List.map_cons, List.all_cons, Bool.and_eq_true]
      exact ⟨ordinary_digit _ (Nat.mod_lt _ (by decide)), hl⟩
    split
    · exact h1
    · exact ih _ _ h1

theorem toDigitsCore_ne (fuel n : Nat) (l : List Char) (hl : l ≠ [] ∨ fuel ≠ 0) : Nat.toDigitsCore 10 fuel n l ≠ [] := by
  induction fuel generalizing n l with
  | zero =>
    rcases hl with h | h
    · exact h
    · exact absurd rfl h
  | succ f ih =>
    unfold Nat.toDigitsCore
    dsimp only
    split
    · simp
    · exact ih _ _ (.inl (by simp))

theorem dec_ordinary (n : Nat) : (dec n).all ordinary = true := toDigitsCore_ordinary _ _ _ rfl
theorem dec_ne_nil (n : Nat) : dec n ≠ [] := by
  intro h
  have : Nat.toDigits 10 n = [] := List.map_eq_nil_iff.1 h
  exact toDigitsCore_ne _ _ _ (.inr (by simp)) this

theorem calm_fNum (n : Nat) : calm (.str (fNum n)) = true := calm_ordinary (dec_ordinary n) (dec_ne_nil n)

theorem all_of_mem {p : Nat → Bool} {a b : Str} (h : ∀ c ∈ a, c ∈ b) (hb : b.all p = true) : a.all p = true :=
  List.all_eq_true.2 fun c hc => List.all_eq_true.1 hb c (h c hc)

theorem commaGo_ordinary (fuel : Nat) (s : Str) (h : s.all ordinary = true) : (commaNum.go fuel s).all ordinary = true := by
  induction fuel generalizing s with
  | zero => exact h
  | succ f ih =>
    unfold commaNum.go
    split
    · exact h
    · simp only [List.all_append, Bool.and_eq_true]
      exact ⟨⟨all_of_mem (fun c hc => List.mem_of_mem_take hc) h, rfl⟩,
        ih _ (all_of_mem (fun c hc => List.mem_of_mem_drop hc) h)⟩

theorem commaGo_ne (fuel : Nat) (s : Str) (h : s ≠ []) : commaNum.go fuel s ≠ [] := by
  cases fuel with
  | zero => exact h
  | succ f =>
    unfold commaNum.go
    split
    · exact h
    · simp

theorem commaNum_ordinary (n : Nat) : (commaNum n).all ordinary = true := by
  unfold commaNum
  rw [List.all_reverse]
  exact commaGo_ordinary _ _ (by rw [List.all_reverse]; exact dec_ordinary n)

theorem commaNum_ne (n : Nat) : commaNum n ≠ [] := by
  unfold commaNum
  intro h
  rw [List.reverse_eq_nil_iff] at h
  exact commaGo_ne _ _ (by rw [Ne, List.reverse_eq_nil_iff]; exact dec_ne_nil n) h

theorem calm_commaNum (n : Nat) : calm (.str (commaNum n ++ str " bytes")) = true :=
  calm_append (commaNum_ordinary n) (commaNum_ne n) rfl

/-- one of a few texts, all of them harmless -/
theorem calm_among {l : List Str} {x : Str} (h : l.contains x = true) (hl : l.all (fun s => calm (.str s)) = true) :
    calm (.str x) = true := List.all_eq_true.1 hl x (by simpa using h)

theorem calm_typeName (v : Val) : calm (.str v.typeName) = true := by
  unfold Val.typeName
  split <;> rfl

/-! ### Markdown lists -/

theorem calmMd_code (y r : Str) (h : ¬ 96 ∈ y) : calmMd .code (y ++ 96 :: r) = calmMd .out r := by
  induction y with
  | nil => simp [calmMd]
  | cons c y ih =>
    simp only [List.mem_cons, not_or] at h
    have hc : (c == 96) = false := by simp; exact fun e => h.1 e.symm
    rw [List.cons_append]
    show (if c == 96 then calmMd .out (y ++ 96 :: r) else calmMd .code (y ++ 96 :: r)) = _
    rw [hc]
    exact ih h.2

theorem not_mem_removeC (s : Str) : ¬ 96 ∈ removeC 96 s := by
  simp [removeC]

theorem calmMd_quoted (p : MdAt) (hp : p ≠ .code) (x r : Str) :
    calmMd p ([96] ++ removeC 96 x ++ [96] ++ r) = calmMd .out r := by
  have e : [96] ++ removeC 96 x ++ [96] ++ r = 96 :: (removeC 96 x ++ 96 :: r) := by simp
  rw [e]
  cases p with
  | code => exact absurd rfl hp
  | line => exact calmMd_code _ _ (not_mem_removeC x)
  | out => exact calmMd_code _ _ (not_mem_removeC x)

/-- items and what separates them -/
theorem calmMd_join {q : MdAt} {sep : Str} {items : List Str} (hs : ∀ r, calmMd .out (sep ++ r) = calmMd q r)
    (hi : ∀ i ∈ items, ∀ r, calmMd q (i ++ r) = calmMd .out r) (hne : items ≠ []) (r : Str) :
    calmMd q (join sep items ++ r) = calmMd .out r := by
  induction items with
  | nil => exact absurd rfl hne
  | cons x xs ih =>
    cases xs with
    | nil => exact hi x (List.mem_cons_self ..) r
    | cons y ys =>
      show calmMd q (x ++ sep ++ join sep (y :: ys) ++ r) = _
      rw [List.append_assoc, List.append_assoc, hi x (List.mem_cons_self ..), hs,
        ih (fun i h => hi i (List.mem_cons_of_mem _ h)) (by simp)]

theorem calmMd_join' {sep : Str} {items : List Str} (hs : ∀ r, calmMd .out (sep ++ r) = calmMd .out r)
    (hl : ∀ i ∈ items, ∀ r, calmMd .line (i ++ r) = calmMd .out r)
    (hi : ∀ i ∈ items, ∀ r, calmMd .out (i ++ r) = calmMd .out r) (hne : items ≠ []) (r : Str) :
    calmMd .line (join sep items ++ r) = calmMd .out r := by
  cases items with
  | nil => exact absurd rfl hne
  | cons x xs =>
    cases xs with
    | nil => exact hl x (List.mem_cons_self ..) r
    | cons y ys =>
      show calmMd .line (x ++ sep ++ join sep (y :: ys) ++ r) = _
      rw [List.append_assoc, List.append_assoc, hl x (List.mem_cons_self ..), hs,
        calmMd_join hs (fun i h => hi i (List.mem_cons_of_mem _ h)) (by simp)]

theorem calm_md_of {s : Str} (h : ∀ r, calmMd .line (s ++ r) = calmMd .out r) : calm (.md s) = true := by
  show (s.isEmpty || calmMd .line s) = true
  have := h []
  rw [List.append_nil] at this
  rw [this]
  simp [calmMd]

theorem calm_lines {items : List Str} (hi : ∀ i ∈ items, ∀ r, calmMd .line (i ++ r) = calmMd .out r) :
    calm (.md (join [10] items)) = true := by
  by_cases hne : items = []
  · subst hne; rfl
  · exact calm_md_of (calmMd_join (fun r => rfl) hi hne)

theorem calm_markdownList (items : List Str) : calm (markdownList items (str "`")) = true := by
  unfold markdownList
  refine calm_lines fun i hi r => ?_
  simp only [List.mem_map] at hi
  obtain ⟨_, ⟨x, _, rfl⟩, rfl⟩ := hi
  have e : str "- " ++ str "`" ++ removeC 96 x ++ str "`" ++ r = str "- " ++ ([96] ++ removeC 96 x ++ [96] ++ r) := by
    simp only [List.append_assoc]
  rw [e]
  exact calmMd_quoted .out (by decide) x r

theorem calm_makeList (items : List Str) : calm (F.csp.makeList items) = true := by
  unfold F.csp.makeList
  refine calm_lines fun i hi r => ?_
  simp only [List.mem_map] at hi
  obtain ⟨x, _, rfl⟩ := hi
  have e : str "* `" ++ removeC 96 x ++ str "`" ++ r = str "* " ++ ([96] ++ removeC 96 x ++ [96] ++ r) := by
    simp only [List.append_assoc]; rfl
  rw [e]
  exact calmMd_quoted .out (by decide) x r

theorem calm_commas (xs : List Str) : calm (.md (join (str ", ") (xs.map fun n => [96] ++ removeC 96 n ++ [96]))) = true := by
  by_cases hne : xs = []
  · subst hne; rfl
  · refine calm_md_of (calmMd_join' (fun r => rfl) ?_ ?_ (by simpa using hne))
    all_goals
      intro i hi r
      simp only [List.mem_map] at hi
      obtain ⟨x, _, rfl⟩ := hi
    · exact calmMd_quoted .line (by decide) x r
    · exact calmMd_quoted .out (by decide) x r

/-- text with neither markup, backtick nor line break -/
theorem calmMd_out (s r : Str) (h : s.all (fun c => !special c && !isBreak c && c != 96) = true) :
    calmMd .out (s ++ r) = calmMd .out r := by
  induction s with
  | nil => rfl
  | cons c s ih =>
    simp only [List.all_cons, Bool.and_eq_true] at h
    have h1 : (c == 96) = false := by have := h.1.2; simpa [bne] using this
    have h2 : special c = false := by have := h.1.1.1; simpa using this
    have h3 : isBreak c = false := by have := h.1.1.2; simpa using this
    rw [List.cons_append]
    show (if c == 96 then _ else if special c then false else if isBreak c then _ else calmMd .out (s ++ r)) = _
    rw [h1, h2, h3]
    exact ih h.2

theorem calm_str {s : Str} (h : plainText (removeC 96 s) = true) : calm (.str s) = true := by
  show (plainText (removeC 96 s) || _ || _) = true
  rw [h]
  rfl

theorem calm_expected {d : Str} {i : F.CcInfo} (h : F.ccInfo d = some i) : calm (.str i.expected) = true := by
  have hm := List.mem_of_find?_eq_some h
  have : ∀ i ∈ F.knownCC, calm (.str i.expected) = true := by decide +kernel
  exact this i hm

theorem join_all {p : Nat → Bool} {sep : Str} {items : List Str} (hs : sep.all p = true)
    (hi : ∀ i ∈ items, i.all p = true) : (join sep items).all p = true := by
  induction items with
  | nil => rfl
  | cons x xs ih =>
    cases xs with
    | nil => exact hi x (List.mem_cons_self ..)
    | cons y ys =>
      show (x ++ sep ++ join sep (y :: ys)).all p = true
      rw [List.all_append, List.all_append, hi x (List.mem_cons_self ..), hs,
        ih fun i h => hi i (List.mem_cons_of_mem _ h)]
      rfl

theorem join_head (sep x : Str) (xs : List Str) : ∃ r, join sep (x :: xs) = x ++ r := by
  cases xs with
  | nil => exact ⟨[], by simp [join]⟩
  | cons y ys => exact ⟨sep ++ join sep (y :: ys), by simp [join]⟩

theorem calm_csd {l : List Str} (h : ∀ v ∈ l, v ∈ F.csdKnown) :
    calm (.str (join (str ", ") (l.map fun v => str "`" ++ v ++ str "`"))) = true := by
  cases l with
  | nil => rfl
  | cons v vs =>
    have known : ∀ v ∈ F.csdKnown, v.all ordinary = true ∧ v ≠ [] := by decide +kernel
    have safe : ∀ v ∈ F.csdKnown, v.all (fun c => !special c && !isBreak c) = true := by decide +kernel
    refine calm_str ?_
    have hall : (join (str ", ") ((v :: vs).map fun v => str "`" ++ v ++ str "`")).all
        (fun c => !special c && !isBreak c) = true := by
      refine join_all rfl fun i hi => ?_
      obtain ⟨w, hw, rfl⟩ := List.mem_map.1 hi
      rw [List.all_append, List.all_append, safe w (h w hw)]
      rfl
    rw [List.map_cons] at hall ⊢
    obtain ⟨r, e⟩ := join_head (str ", ") (str "`" ++ v ++ str "`") (vs.map fun v => str "`" ++ v ++ str "`")
    rw [e] at hall ⊢
    have e2 : removeC 96 (str "`" ++ v ++ str "`" ++ r) = removeC 96 (v ++ (str "`" ++ r)) := by
      rw [List.append_assoc, List.append_assoc]
      rfl
    rw [e2]
    obtain ⟨h1, h2⟩ := known v (h v (List.mem_cons_self ..))
    refine plainText_append h1 h2 ?_
    rw [List.append_assoc, List.append_assoc, List.all_append, List.all_append, Bool.and_eq_true, Bool.and_eq_true] at hall
    exact hall.2.2

theorem calm_hints {hints : List Str} (h : ∀ t ∈ hints, t ∈ F.linkHints) (targets : Str → List Str)
    (hne : ∀ t ∈ hints, targets t ≠ []) :
    calm (.md (join [10] (hints.map fun t =>
      str "- `" ++ t ++ str "`: " ++ join (str ", ") ((targets t).map fun x => [96] ++ removeC 96 x ++ [96])))) = true := by
  refine calm_lines fun i hi r => ?_
  obtain ⟨t, ht, rfl⟩ := List.mem_map.1 hi
  have known : ∀ t ∈ F.linkHints, removeC 96 t = t := by decide +kernel
  have e : str "- `" ++ t ++ str "`: " ++ join (str ", ") ((targets t).map fun x => [96] ++ removeC 96 x ++ [96]) ++ r =
      str "- " ++ ([96] ++ removeC 96 t ++ [96] ++ (str ": " ++
        (join (str ", ") ((targets t).map fun x => [96] ++ removeC 96 x ++ [96]) ++ r))) := by
    rw [known t (h t ht)]
    simp only [List.append_assoc]
    rfl
  rw [e]
  show calmMd .out ([96] ++ removeC 96 t ++ [96] ++ _) = _
  rw [calmMd_quoted .out (by decide)]
  show calmMd .out (join (str ", ") ((targets t).map fun x => [96] ++ removeC 96 x ++ [96]) ++ r) = _
  refine calmMd_join (fun r => rfl) ?_ (by simpa using hne t ht) r
  intro i hi r
  obtain ⟨x, _, rfl⟩ := List.mem_map.1 hi
  exact calmMd_quoted .out (by decide) x r

end HL.Props
