import Verif.Props.ParamsThm
import Verif.Props.FieldThm

/-!
# C19: `split_list_field` is the #rule of RFC 9110, 5.6.1
-/

namespace HL.Props
open HL.RE HL.Syntax

/-! ### specification -/

/-- text in which commas occur inside complete quoted strings only -/
inductive Segment : Str → Prop
  | nil : Segment []
  | char {c s} : c ≠ 34 → c ≠ 44 → Segment s → Segment (c :: s)
  | quoted {q s} : IsQuoted q → Segment s → Segment (q ++ s)

/-- a list element with white space before and after it; `element = []` is an empty list element -/
structure Slot where
  before : Str
  element : Str
  after : Str

/-- what is allowed in a slot -/
structure Slot.Good (s : Slot) : Prop where
  before : AllSpace s.before
  after : AllSpace s.after
  element : s.element = [] ∨ (Segment s.element ∧ Stripped s.element)

/-- its text -/
def Slot.text (s : Slot) : Str := s.before ++ s.element ++ s.after

/-! ### the item expression takes all of a segment -/

/-- one character outside quotes, or a quoted string -/
abbrev pieceRE : RE := .alt (.ncls [(34,34), (44,44)]) rfc9110.quoted_string

theorem outside_iff (c : Nat) : csetHas true true [(34,34), (44,44)] c = true ↔ c ≠ 34 ∧ c ≠ 44 := by
  have h1 : (34 ∈ caseVariants c ↔ c = 34) := by
    unfold caseVariants; split <;> (try split) <;> simp_all <;> omega
  have h2 : (44 ∈ caseVariants c ↔ c = 44) := by
    unfold caseVariants; split <;> (try split) <;> simp_all <;> omega
  unfold csetHas
  have : (caseVariants c).any (inRanges [(34,34), (44,44)]) = true ↔ c = 34 ∨ c = 44 := by
    rw [List.any_eq_true]
    constructor
    · rintro ⟨x, hx, hr⟩
      simp [inRanges] at hr
      rcases hr with hr | hr
      · exact .inl (h1.1 (by rw [show (34 : Nat) = x by omega]; exact hx))
      · exact .inr (h2.1 (by rw [show (44 : Nat) = x by omega]; exact hx))
    · rintro (h | h)
      · exact ⟨34, h1.2 h, by decide⟩
      · exact ⟨44, h2.2 h, by decide⟩
  rw [if_pos rfl]
  cases hb : (caseVariants c).any (inRanges [(34,34), (44,44)]) with
  | true => simp; rcases this.1 hb with h | h <;> simp [h]
  | false =>
    rw [hb] at this
    simp at this ⊢
    exact this

theorem quoted_run_other {c : Nat} (hc : c ≠ 34) (t : Str) : rfc9110.quoted_string.run true (c :: t) = [] := by
  rw [List.eq_nil_iff_forall_not_mem]
  intro x hx
  obtain ⟨p, e, hp⟩ := (mem_run_iff ..).1 hx
  obtain ⟨b, rfl, _⟩ := (quotedString_L _ _).1 hp
  simp at e
  exact hc e.1

theorem quoted_run {q : Str} (hq : IsQuoted q) (t : Str) : ∃ l, rfc9110.quoted_string.run true (q ++ t) = t :: l := by
  have hm : t ∈ rfc9110.quoted_string.run true (q ++ t) := (mem_run_iff ..).2 ⟨q, rfl, (quotedString_L _ _).2 hq⟩
  cases h : rfc9110.quoted_string.run true (q ++ t) with
  | nil => rw [h] at hm; simp at hm
  | cons x l =>
    refine ⟨l, ?_⟩
    obtain ⟨p, e, hp⟩ := (mem_run_iff ..).1 (show x ∈ rfc9110.quoted_string.run true (q ++ t) by rw [h]; simp)
    obtain ⟨b, rfl, hb⟩ := (quotedString_L _ _).1 hp
    obtain ⟨a, rfl, ha⟩ := hq
    simp only [List.append_assoc, List.cons_append, List.nil_append, List.cons.injEq, true_and] at e
    rw [(body_unique ha hb e).2]

theorem piece_char {c : Nat} (h1 : c ≠ 34) (h2 : c ≠ 44) (t : Str) : pieceRE.run true (c :: t) = [t] := by
  show (if csetHas true true [(34,34), (44,44)] c then [t] else []) ++ _ = _
  rw [quoted_run_other h1, if_pos ((outside_iff c).2 ⟨h1, h2⟩)]
  rfl

theorem piece_quoted {q : Str} (hq : IsQuoted q) (t : Str) : ∃ l, pieceRE.run true (q ++ t) = t :: l := by
  obtain ⟨l, hl⟩ := quoted_run hq t
  obtain ⟨a, rfl, ha⟩ := hq
  refine ⟨l, ?_⟩
  show (match ([34] ++ a ++ [34] ++ t) with | [] => [] | c :: t => if csetHas true true [(34,34), (44,44)] c then [t] else []) ++ _ = _
  rw [hl]
  show (if csetHas true true [(34,34), (44,44)] 34 then _ else _) ++ _ = _
  rw [if_neg (by decide)]
  rfl

/-- the end of a segment -/
def SegEnd (t : Str) : Prop := t = [] ∨ ∃ r, t = 44 :: r

theorem piece_end {t : Str} (h : SegEnd t) : pieceRE.run true t = [] := by
  rcases h with rfl | ⟨r, rfl⟩
  · decide +kernel
  · show (if csetHas true true [(34,34), (44,44)] 44 then [r] else []) ++ _ = _
    rw [quoted_run_other (by decide), if_neg (by decide)]
    rfl

theorem quoted_len {q : Str} (hq : IsQuoted q) : 2 ≤ q.length := by
  obtain ⟨b, rfl, _⟩ := hq
  simp

/-- greedy repetition ends at the end of the segment first -/
theorem opt_segment {seg : Str} (hs : Segment seg) {t : Str} (ht : SegEnd t) : ∀ n, seg.length ≤ n → ∃ l, optRun false (pieceRE.run true) n (seg ++ t) = t :: l := by
  induction hs with
  | nil =>
    intro n _
    cases n with
    | zero => exact ⟨[], rfl⟩
    | succ n => exact ⟨[], by rw [List.nil_append, optRun, piece_end ht]; rfl⟩
  | char h1 h2 _ ih =>
    intro n hn
    cases n with
    | zero => simp at hn
    | succ n =>
      obtain ⟨l, hl⟩ := ih n (by simpa using hn)
      rw [List.cons_append, optRun, piece_char h1 h2]
      simp only [List.filter_cons, List.length_cons, Nat.lt_succ_self, decide_true, if_true, List.filter_nil, List.flatMap_cons, List.flatMap_nil, List.append_nil, hl]
      exact ⟨_, rfl⟩
  | quoted hq _ ih =>
    rename_i q s _
    intro n hn
    have := quoted_len hq
    cases n with
    | zero => rw [List.length_append] at hn; omega
    | succ n =>
      obtain ⟨l, hl⟩ := ih n (by simp at hn; omega)
      obtain ⟨k, hk⟩ := piece_quoted hq (s ++ t)
      rw [List.append_assoc, optRun, hk]
      have hlt : decide ((s ++ t).length < (q ++ (s ++ t)).length) = true := by
        apply decide_eq_true; rw [List.length_append (as := q)]; omega
      simp only [List.filter_cons, hlt, if_true, List.flatMap_cons, hl]
      exact ⟨_, rfl⟩

theorem item_segment {seg : Str} (hs : Segment seg) (hne : seg ≠ []) {t : Str} (ht : SegEnd t) : ∃ l, listItemRE.run true (seg ++ t) = t :: l := by
  have key : ∀ {s : Str}, Segment s → ∀ {x : Str}, (∃ k, pieceRE.run true x = (s ++ t) :: k) → ∃ l, listItemRE.run true x = t :: l := by
    intro s hs x ⟨k, hk⟩
    show ∃ l, (iterRun (pieceRE.run true) 1 x).flatMap (fun t => optRun false (pieceRE.run true) t.length t) = t :: l
    unfold iterRun
    rw [hk]
    obtain ⟨l, hl⟩ := opt_segment hs ht (s ++ t).length (by simp)
    simp only [List.flatMap_cons, iterRun, List.cons_append, List.nil_append, hl]
    exact ⟨_, rfl⟩
  cases hs with
  | nil => exact absurd rfl hne
  | char h1 h2 h => exact key h ⟨[], piece_char h1 h2 _⟩
  | quoted hq h => rw [List.append_assoc]; exact key h (piece_quoted hq _)

theorem item_end {t : Str} (ht : SegEnd t) : listItemRE.run true t = [] := by
  show (iterRun (pieceRE.run true) 1 t).flatMap _ = []
  unfold iterRun
  rw [piece_end ht]
  rfl

theorem look_end {t : Str} (ht : SegEnd t) : lookSplit true listSepRE t = true := by
  unfold lookSplit
  rw [Bool.or_eq_true]
  rcases ht with rfl | ⟨r, rfl⟩
  · right; decide +kernel
  · left
    have : r ∈ listSepRE.run true (44 :: r) := by
      refine (mem_run_iff ..).2 ⟨[44], rfl, [], [44], rfl, (ws_star _).2 (by intro c h; cases h), [[44]], rfl, by simp, by simp, ?_⟩
      intro p hp
      rw [List.mem_singleton] at hp
      subst hp
      exact ⟨[44], [], rfl, (ch_L 44 (by decide) (variants_plain (by decide)) true _).2 rfl, (ws_star _).2 (by intro c h; cases h)⟩
    cases h : listSepRE.run true (44 :: r) with
    | nil => rw [h] at this; simp at this
    | cons => rfl

/-! ### the whole text -/

/-- the matches -/
abbrev items (fuel : Nat) (s : Str) : List Str := findall true listItemRE (lookSplit true listSepRE) fuel s

theorem items_end {t : Str} (ht : SegEnd t) (fuel : Nat) : items (fuel + 1) t = match t with | [] => [] | _ :: r => items fuel r := by
  unfold items
  conv => lhs; unfold findall
  rw [item_end ht]
  cases t <;> rfl

theorem items_take {seg : Str} (hs : Segment seg) (hne : seg ≠ []) {t : Str} (ht : SegEnd t) (fuel : Nat) :
    items (fuel + 1) (seg ++ t) = seg :: items fuel t := by
  obtain ⟨l, hl⟩ := item_segment hs hne ht
  unfold items
  conv => lhs; unfold findall
  rw [hl, List.find?_cons_of_pos (look_end ht)]
  dsimp only
  have hp : 0 < seg.length := List.length_pos_iff.2 hne
  rw [if_pos (by simp; omega)]
  congr 1
  simp

/-- segments after the first -/
def restText : List Str → Str
  | [] => []
  | s :: ss => 44 :: (s ++ restText ss)

theorem restText_end (ss : List Str) : SegEnd (restText ss) := by
  cases ss with
  | nil => exact .inl rfl
  | cons s ss => exact .inr ⟨_, rfl⟩

theorem join_rest (s : Str) (ss : List Str) : join (str ",") (s :: ss) = s ++ restText ss := by
  induction ss generalizing s with
  | nil => simp [join, restText]
  | cons a ss ih =>
    rw [join, ih]
    simp [restText]

theorem items_rest : ∀ (ss : List Str) (_ : ∀ s ∈ ss, Segment s) (s : Str) (_ : Segment s) (fuel : Nat), (s ++ restText ss).length < fuel →
    items fuel (s ++ restText ss) = (s :: ss).filter (fun f => !f.isEmpty)
  | ss, h, s, hs, fuel, hf => by
    have tail : ∀ fuel, (restText ss).length < fuel → items fuel (restText ss) = ss.filter (fun f => !f.isEmpty) := by
      intro fuel hf
      cases fuel with
      | zero => omega
      | succ n =>
        rw [items_end (restText_end ss)]
        cases ss with
        | nil => rfl
        | cons a as =>
          dsimp only [restText]
          rw [items_rest as (fun x hx => h x (by simp [hx])) a (h a (by simp)) n (by simp [restText] at hf ⊢; omega)]
    cases hse : s with
    | nil =>
      rw [hse] at hf
      rw [List.nil_append, tail fuel (by simpa using hf)]
      rfl
    | cons c s' =>
      cases fuel with
      | zero => omega
      | succ n =>
        rw [← hse, items_take hs (by rw [hse]; simp) (restText_end ss), tail n (by rw [hse] at hf; simp at hf ⊢; omega), List.filter_cons]
        rw [if_pos (by rw [hse]; rfl)]
termination_by ss => ss.length

theorem filter_strip (ss : List Str) : ((ss.filter (fun f => !f.isEmpty)).map strip).filter (fun f => !f.isEmpty) = (ss.map strip).filter (fun f => !f.isEmpty) := by
  induction ss with
  | nil => rfl
  | cons s ss ih =>
    cases s with
    | nil => simpa [strip, rstrip, lstrip] using ih
    | cons c s => simp only [List.filter_cons, List.isEmpty_cons, Bool.not_false, if_true, List.map_cons, ih]

/-- **C19** (segments) Text whose commas outside quoted strings divide it into `segs`, each made of characters other than
`"` and of complete quoted strings, is split into the segments, stripped, without the empty ones. -/
theorem C19_segments (segs : List Str) (h : ∀ s ∈ segs, Segment s) :
    splitListField (join (str ",") segs) = (segs.map strip).filter (fun f => !f.isEmpty) := by
  cases segs with
  | nil => decide +kernel
  | cons s ss =>
    unfold splitListField
    rw [join_rest]
    have := items_rest ss (fun x hx => h x (by simp [hx])) s (h s (by simp)) ((s ++ restText ss).length + 1) (Nat.lt_succ_self _)
    unfold items at this
    rw [this, filter_strip]

theorem segment_append {a b : Str} (ha : Segment a) (hb : Segment b) : Segment (a ++ b) := by
  induction ha with
  | nil => exact hb
  | char h1 h2 _ ih => exact .char h1 h2 ih
  | quoted hq _ ih => rw [List.append_assoc]; exact .quoted hq ih

theorem segment_space {w : Str} (h : AllSpace w) : Segment w := by
  induction w with
  | nil => exact .nil
  | cons c w ih =>
    have hc := h c (by simp)
    refine .char ?_ ?_ (ih fun d hd => h d (by simp [hd]))
    · rintro rfl; exact absurd hc (by decide)
    · rintro rfl; exact absurd hc (by decide)

theorem Slot.Good.segment {s : Slot} (h : s.Good) : Segment s.text := by
  refine segment_append (segment_append (segment_space h.before) ?_) (segment_space h.after)
  rcases h.element with e | e
  · rw [e]; exact .nil
  · exact e.1

theorem Slot.Good.strip {s : Slot} (h : s.Good) : HL.strip s.text = s.element := by
  unfold Slot.text
  rcases h.element with e | e
  · rw [e, List.append_nil, strip_nil_of]
    intro c hc
    rcases List.mem_append.1 hc with hc | hc
    · exact h.before c hc
    · exact h.after c hc
  · exact strip_spaced h.before h.after e.2

/-- **C19** Elements of a list — non-empty, without white space at their ends, commas and double quotes only in complete
quoted strings — written with any white space around them, with any number of empty elements anywhere, and separated by
commas, are what `split_list_field` returns. -/
theorem C19_elements (slots : List Slot) (h : ∀ s ∈ slots, s.Good) :
    splitListField (join (str ",") (slots.map Slot.text)) = (slots.map (·.element)).filter (fun f => !f.isEmpty) := by
  rw [C19_segments _ (by
    intro s hs
    obtain ⟨x, hx, rfl⟩ := List.mem_map.1 hs
    exact (h x hx).segment), List.map_map]
  congr 1
  apply List.map_congr_left
  intro x hx
  exact (h x hx).strip

/-- **C19** (lines) so splitting several lines and splitting them joined by commas give the same elements -/
theorem C19_lines (lines : List (List Slot)) (h : ∀ l ∈ lines, l ≠ [] ∧ ∀ s ∈ l, s.Good) :
    splitListField (join (str ",") (lines.map fun l => join (str ",") (l.map Slot.text))) =
      (lines.map fun l => join (str ",") (l.map Slot.text)).flatMap splitListField := by
  have hj : ∀ ls : List (List Slot), (∀ l ∈ ls, l ≠ []) → join (str ",") (ls.map fun l => join (str ",") (l.map Slot.text)) = join (str ",") (ls.flatten.map Slot.text) := by
    have app : ∀ (a b : List Str), a ≠ [] → b ≠ [] → join (str ",") (a ++ b) = join (str ",") a ++ str "," ++ join (str ",") b := by
      intro a b ha hb
      cases a with
      | nil => exact absurd rfl ha
      | cons x a =>
        rw [List.cons_append, join_rest, join_rest]
        clear ha
        induction a generalizing x with
        | nil =>
          cases b with
          | nil => exact absurd rfl hb
          | cons y b => rw [List.nil_append, join_rest]; simp [restText]
        | cons z a ih =>
          have := ih z
          simp only [List.append_assoc, restText, List.cons_append] at this ⊢
          rw [this]
    intro ls hne
    induction ls with
    | nil => rfl
    | cons l ls ih =>
      have ih := ih fun x hx => hne x (by simp [hx])
      cases ls with
      | nil => simp [join]
      | cons k ls =>
        have hk : (k :: ls).flatten ≠ [] := by
          have := hne k (by simp)
          cases k with
          | nil => exact absurd rfl this
          | cons => simp
        have e : ((l :: k :: ls).map fun l => join (str ",") (l.map Slot.text)) = [join (str ",") (l.map Slot.text)] ++ ((k :: ls).map fun l => join (str ",") (l.map Slot.text)) := rfl
        rw [e, app _ _ (by simp) (by simp), ih, show ((l :: k :: ls).flatten.map Slot.text) = l.map Slot.text ++ (k :: ls).flatten.map Slot.text from List.map_append, app (l.map Slot.text) ((k :: ls).flatten.map Slot.text) (by simpa using hne l (by simp)) (fun e => hk (List.map_eq_nil_iff.1 e))]
        rfl
  rw [hj _ fun l hl => (h l hl).1, C19_elements _ (by
    intro s hs
    obtain ⟨l, hl, hs⟩ := List.mem_flatten.1 hs
    exact (h l hl).2 s hs)]
  rw [List.flatMap_map]
  have : ∀ ls : List (List Slot), (∀ l ∈ ls, ∀ s ∈ l, s.Good) → (ls.flatMap fun l => splitListField (join (str ",") (l.map Slot.text))) = (ls.flatten.map (·.element)).filter (fun f => !f.isEmpty) := by
    intro ls hls
    induction ls with
    | nil => rfl
    | cons l ls ih =>
      rw [List.flatMap_cons, ih fun x hx => hls x (by simp [hx]), C19_elements l (hls l (by simp)), List.flatten_cons, List.map_append, List.filter_append]
  rw [this _ fun l hl => (h l hl).2]

/-- every element returned is non-empty and stripped, whatever the text -/
theorem C19_stripped (s : Str) : ∀ x ∈ splitListField s, x ≠ [] ∧ ∃ y, x = strip y := by
  intro x hx
  unfold splitListField at hx
  obtain ⟨h1, h2⟩ := List.mem_filter.1 hx
  obtain ⟨y, _, rfl⟩ := List.mem_map.1 h1
  exact ⟨fun e => by rw [e] at h2; simp at h2, y, rfl⟩

/-! a concrete list: `, a;q="x, y" ,,\t"," , b ` -/

example : (∀ s ∈ [Slot.mk [] [] [], ⟨str " ", str "a;q=\"x, y\"", str " "⟩, ⟨[], [], []⟩, ⟨[9], str "\",\"", str " "⟩, ⟨str " ", str "b", str " "⟩], s.Good) ∧
    splitListField (str ", a;q=\"x, y\" ,," ++ [9] ++ str "\",\" , b ") = [str "a;q=\"x, y\"", str "\",\"", str "b"] := by
  have q : ∀ b, QuotedBody b → IsQuoted ([34] ++ b ++ [34]) := fun b h => ⟨b, rfl, h⟩
  refine ⟨?_, by decide +kernel⟩
  intro s hs
  have sp : ∀ w : Str, (w.all isSpace) = true → AllSpace w := fun w h c hc => (List.all_eq_true.1 h) c hc
  simp only [List.mem_cons, List.not_mem_nil, or_false] at hs
  rcases hs with rfl | rfl | rfl | rfl | rfl
  · exact ⟨sp _ rfl, sp _ rfl, .inl rfl⟩
  · refine ⟨sp _ rfl, sp _ rfl, .inr ⟨?_, ⟨_, rfl, by decide⟩, _, rfl, by decide⟩⟩
    refine .char (by decide) (by decide) (.char (by decide) (by decide) (.char (by decide) (by decide) (.char (by decide) (by decide) ?_)))
    have := Segment.quoted (q (str "x, y") (.text (by decide) (.text (by decide) (.text (by decide) (.text (by decide) .nil))))) .nil
    exact this
  · exact ⟨sp _ rfl, sp _ rfl, .inl rfl⟩
  · refine ⟨sp _ rfl, sp _ rfl, .inr ⟨?_, ⟨_, rfl, by decide⟩, _, rfl, by decide⟩⟩
    have := Segment.quoted (q (str ",") (.text (by decide) .nil)) .nil
    exact this
  · exact ⟨sp _ rfl, sp _ rfl, .inr ⟨.char (by decide) (by decide) .nil, ⟨_, rfl, by decide⟩, _, rfl, by decide⟩⟩

end HL.Props
