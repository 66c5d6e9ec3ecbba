import Verif.Props.Strings
import Verif.Props.Sections
import Verif.Cli
import Verif.I18n

/-!
# C65 - C68: locale scopes and the command line
-/

namespace HL.Props
open Cli

/-! ### C65 -/

/-- What a program translates, when the locale is read off the program text: each `translate` uses the locale of the
innermost enclosing `with set_locale(...)` block (`cur` outside of all), until something raises. -/
def lexical : I18n.Prog → Str → List (Str × Str) × Except Exn Unit
  | .translate m, cur => ([(cur, m)], .ok ())
  | .raise e, _ => ([], .error e)
  | .seq p q, cur => match lexical p cur with
    | (l, .error e) => (l, .error e)
    | (l, .ok ()) => (l ++ (lexical q cur).1, (lexical q cur).2)
  | .withLocale none body, _ => lexical body (str "en")
  | .withLocale (some name) body, _ => lexical body (if name = [] then str "en" else name)
  | .tryExcept body handler, cur => match lexical body cur with
    | (l, .ok ()) => (l, .ok ())
    | (l, .error _) => (l ++ (lexical handler cur).1, (lexical handler cur).2)

theorem run_lexical (p : I18n.Prog) (cur : Str) :
    (I18n.run p cur).locale = cur ∧ ((I18n.run p cur).log, (I18n.run p cur).res) = lexical p cur := by
  induction p generalizing cur with
  | translate m => exact ⟨rfl, rfl⟩
  | raise e => exact ⟨rfl, rfl⟩
  | seq p q ihp ihq =>
    have hp := ihp cur
    rw [I18n.run, lexical]
    dsimp only
    rw [← hp.2]
    cases h : (I18n.run p cur).res with
    | error e => exact ⟨hp.1, rfl⟩
    | ok u =>
      have hq := ihq cur
      dsimp only
      rw [hp.1]
      refine ⟨hq.1, ?_⟩
      rw [← hq.2]
  | withLocale name body ih =>
    refine ⟨rfl, ?_⟩
    rw [I18n.run]
    cases name with
    | none =>
      rw [lexical]
      exact (ih _).2
    | some n =>
      rw [lexical]
      have : I18n.effective (some n) = if n = [] then str "en" else n := by
        cases n <;> rfl
      rw [this]
      exact (ih _).2
  | tryExcept b h ihb ihh =>
    have hb := ihb cur
    rw [I18n.run, lexical]
    dsimp only
    rw [← hb.2]
    cases hr : (I18n.run b cur).res with
    | ok u => dsimp only; exact ⟨hb.1, by rw [hr]⟩
    | error e =>
      have hh := ihh cur
      dsimp only
      rw [hb.1]
      exact ⟨hh.1, by rw [← hh.2]⟩

/-- **C65**: whatever a program does, also when it raises, the locale afterwards is the one before it. -/
theorem C65_restored (p : I18n.Prog) (cur : Str) : (I18n.run p cur).locale = cur := (run_lexical p cur).1

/-- **C65**: what is translated under which locale, and the outcome, are those of lexical scoping. -/
theorem C65_scope (p : I18n.Prog) (cur : Str) :
    (I18n.run p cur).log = (lexical p cur).1 ∧ (I18n.run p cur).res = (lexical p cur).2 := by
  rw [← (run_lexical p cur).2]
  exact ⟨rfl, rfl⟩

/-- a raise inside a nested scope: the handler translates under the outer locale again -/
example : (I18n.run (.withLocale (some (str "fr"))
      (.tryExcept (.withLocale (some []) (.seq (.translate (str "a")) (.raise .valueError))) (.translate (str "b")))) (str "ja")).log =
    [(str "en", str "a"), (str "fr", str "b")] := by decide

/-! ### C66 -/

/-- what is printed for one note: its line, and its sub-notes right below -/
def noteLines (n : Note) : List Line := .note n :: n.subnotes.map .subnote

/-- one category's block: its header, then its notes in the order given -/
def block (notes : List Note) (c : Cat) : List Line :=
  .category c :: (notes.filter fun n => decide (n.category = c)).flatMap noteLines

theorem strLe_refl (s : Str) : strLe s s = true := by
  induction s with
  | nil => rfl
  | cons a s ih => simp [strLe, ih]

theorem strLe_antisymm {s t : Str} (h1 : strLe s t = true) (h2 : strLe t s = true) : s = t := by
  induction s generalizing t with
  | nil => cases t with
    | nil => rfl
    | cons b t => simp [strLe] at h2
  | cons a s ih => cases t with
    | nil => simp [strLe] at h1
    | cons b t =>
      simp only [strLe, Bool.or_eq_true, decide_eq_true_eq, Bool.and_eq_true, beq_iff_eq] at h1 h2
      rcases h1 with h1 | ⟨rfl, h1⟩
      · rcases h2 with h2 | ⟨h2, _⟩ <;> omega
      · rcases h2 with h2 | ⟨_, h2⟩
        · omega
        · rw [ih h1 h2]

theorem strLe_trans {s t u : Str} (h1 : strLe s t = true) (h2 : strLe t u = true) : strLe s u = true := by
  induction s generalizing t u with
  | nil => rfl
  | cons a s ih => cases t with
    | nil => simp [strLe] at h1
    | cons b t => cases u with
      | nil => simp [strLe] at h2
      | cons c u =>
        simp only [strLe, Bool.or_eq_true, decide_eq_true_eq, Bool.and_eq_true, beq_iff_eq] at h1 h2 ⊢
        rcases h1 with h1 | ⟨rfl, h1⟩
        · rcases h2 with h2 | ⟨rfl, h2⟩
          · left; omega
          · left; exact h1
        · rcases h2 with h2 | ⟨rfl, h2⟩
          · left; exact h2
          · right; exact ⟨rfl, ih h1 h2⟩

theorem strLe_total (s t : Str) : strLe s t = true ∨ strLe t s = true := by
  induction s generalizing t with
  | nil => exact .inl rfl
  | cons a s ih => cases t with
    | nil => exact .inr rfl
    | cons b t =>
      simp only [strLe, Bool.or_eq_true, decide_eq_true_eq, Bool.and_eq_true, beq_iff_eq]
      rcases Nat.lt_trichotomy a b with h | rfl | h
      · exact .inl (.inl h)
      · rcases ih t with h | h
        · exact .inl (.inr ⟨rfl, h⟩)
        · exact .inr (.inr ⟨rfl, h⟩)
      · exact .inr (.inl h)

/-! stable insertion sort -/

section StableSort
variable {α : Type} {le : α → α → Bool}

theorem insertSorted_mem {x y : α} {l : List α} : y ∈ insertSorted le x l ↔ y = x ∨ y ∈ l := by
  induction l with
  | nil => simp [insertSorted]
  | cons z l ih =>
    unfold insertSorted
    split
    · simp only [List.mem_cons, ih]; exact or_left_comm
    · simp only [List.mem_cons]

theorem insertSorted_sorted (htot : ∀ a b, le a b = true ∨ le b a = true) (htr : ∀ a b c, le a b = true → le b c = true → le a c = true)
    {x : α} {l : List α} (h : l.Pairwise (fun a b => le a b = true)) : (insertSorted le x l).Pairwise (fun a b => le a b = true) := by
  induction l with
  | nil => simp [insertSorted]
  | cons y l ih =>
    rw [List.pairwise_cons] at h
    unfold insertSorted
    split
    · rename_i hyx
      rw [List.pairwise_cons]
      refine ⟨?_, ih h.2⟩
      intro z hz
      rcases insertSorted_mem.1 hz with rfl | hz
      · exact hyx
      · exact h.1 z hz
    · rename_i hyx
      have hxy : le x y = true := (htot x y).resolve_right hyx
      rw [List.pairwise_cons, List.pairwise_cons]
      refine ⟨?_, h.1, h.2⟩
      intro z hz
      rcases List.mem_cons.1 hz with rfl | hz
      · exact hxy
      · exact htr x y z hxy (h.1 z hz)

theorem insertSorted_filter_neg {p : α → Bool} {x : α} {l : List α} (hx : p x = false) : (insertSorted le x l).filter p = l.filter p := by
  induction l with
  | nil => simp [insertSorted, hx]
  | cons y l ih =>
    unfold insertSorted
    split
    · rw [List.filter_cons, ih, ← List.filter_cons]
    · rw [List.filter_cons_of_neg (by rw [hx]; decide)]

/-- inserting `x` puts it after the elements of its own class -/
theorem insertSorted_filter_pos {p : α → Bool} {x : α} {l : List α} (hx : p x = true) (hp : ∀ y ∈ l, p y = true → le y x = true)
    (hs : l.Pairwise (fun a b => le a b = true)) (htr : ∀ a b c, le a b = true → le b c = true → le a c = true) :
    (insertSorted le x l).filter p = l.filter p ++ [x] := by
  induction l with
  | nil => simp [insertSorted, hx]
  | cons y l ih =>
    rw [List.pairwise_cons] at hs
    unfold insertSorted
    split
    · rw [List.filter_cons, ih (fun z hz => hp z (List.mem_cons_of_mem _ hz)) hs.2, List.filter_cons]
      split <;> rfl
    · rename_i hyx
      have hnone : (y :: l).filter p = [] := by
        rw [List.filter_eq_nil_iff]
        intro z hz hpz
        have hzx := hp z hz hpz
        rcases List.mem_cons.1 hz with rfl | hz
        · exact hyx hzx
        · exact hyx (htr _ _ _ (hs.1 z hz) hzx)
      rw [List.filter_cons_of_pos hx, hnone]
      rfl

theorem pySorted_spec (htot : ∀ a b, le a b = true ∨ le b a = true) (htr : ∀ a b c, le a b = true → le b c = true → le a c = true)
    (l acc : List α) (hacc : acc.Pairwise (fun a b => le a b = true)) :
    (l.foldl (fun acc x => insertSorted le x acc) acc).Pairwise (fun a b => le a b = true) ∧
    (∀ y, y ∈ l.foldl (fun acc x => insertSorted le x acc) acc ↔ y ∈ acc ∨ y ∈ l) ∧
    ∀ p : α → Bool, (∀ a b, p a = true → p b = true → le a b = true) →
      (l.foldl (fun acc x => insertSorted le x acc) acc).filter p = acc.filter p ++ l.filter p := by
  induction l generalizing acc with
  | nil => exact ⟨hacc, by simp, by simp⟩
  | cons x l ih =>
    obtain ⟨h1, h2, h3⟩ := ih (insertSorted le x acc) (insertSorted_sorted htot htr hacc)
    refine ⟨h1, ?_, ?_⟩
    · intro y
      rw [List.foldl_cons, h2, insertSorted_mem, List.mem_cons]
      constructor
      · rintro ((h | h) | h)
        · exact .inr (.inl h)
        · exact .inl h
        · exact .inr (.inr h)
      · rintro (h | h | h)
        · exact .inl (.inr h)
        · exact .inl (.inl h)
        · exact .inr h
    · intro p hp
      rw [List.foldl_cons, h3 p hp]
      by_cases hx : p x = true
      · rw [insertSorted_filter_pos hx (fun y _ hy => hp y x hy hx) hacc htr, List.filter_cons_of_pos hx, List.append_assoc]
        rfl
      · rw [insertSorted_filter_neg (by simpa using hx), List.filter_cons_of_neg hx]

end StableSort

theorem catValue_inj {a b : Cat} (h : catValue a = catValue b) : a = b := by
  revert h; cases a <;> cases b <;> decide

/-- the loop, from inside category `c`, over notes that come no earlier than `c` -/
theorem printLoop_spec (c : Cat) (L : List Note) (hs : L.Pairwise fun a b => strLe (catValue a.category) (catValue b.category) = true)
    (hc : ∀ n ∈ L, strLe (catValue c) (catValue n.category) = true) :
    ∃ cats : List Cat, cats.Nodup ∧ c ∉ cats ∧ (∀ d ∈ cats, ∃ n ∈ L, n.category = d) ∧ (∀ n ∈ L, n.category = c ∨ n.category ∈ cats) ∧
      cats.Pairwise (fun a b => strLe (catValue a) (catValue b) = true) ∧
      printLoop (some c) L = (L.filter fun n => decide (n.category = c)).flatMap noteLines ++ cats.flatMap (block L) := by
  induction L generalizing c with
  | nil => exact ⟨[], by simp, by simp, by simp, by simp, by simp, rfl⟩
  | cons n ns ih =>
    rw [List.pairwise_cons] at hs
    by_cases h : n.category = c
    · obtain ⟨cats, h1, h2, h3, h4, h6, h5⟩ := ih c hs.2 (fun m hm => hc m (List.mem_cons_of_mem _ hm))
      refine ⟨cats, h1, h2, fun d hd => ?_, fun m hm => ?_, h6, ?_⟩
      · obtain ⟨m, hm, e⟩ := h3 d hd
        exact ⟨m, List.mem_cons_of_mem _ hm, e⟩
      · rcases List.mem_cons.1 hm with rfl | hm
        · exact .inl h
        · exact h4 m hm
      · rw [printLoop, if_pos (by rw [h]), List.nil_append, h, h5, List.filter_cons_of_pos (by simpa using h), List.flatMap_cons,
          List.append_assoc]
        congr 2
        have : ∀ d ∈ cats, block (n :: ns) d = block ns d := by
          intro d hd
          unfold block
          rw [List.filter_cons_of_neg]
          simp only [decide_eq_true_eq, h]
          rintro rfl
          exact h2 hd
        clear h1 h2 h3 h4 h5 h6
        induction cats with
        | nil => rfl
        | cons d cats ihc =>
          rw [List.flatMap_cons, List.flatMap_cons, this d (List.mem_cons_self ..), ihc fun e he => this e (List.mem_cons_of_mem _ he)]
    · obtain ⟨cats, h1, h2, h3, h4, h6, h5⟩ := ih n.category hs.2 (fun m hm => hs.1 m hm)
      have hcn : ∀ m ∈ n :: ns, m.category ≠ c := by
        intro m hm e
        rcases List.mem_cons.1 hm with rfl | hm'
        · exact h e
        · have := strLe_antisymm (hc n (List.mem_cons_self ..)) (e ▸ hs.1 m hm')
          exact h (catValue_inj this).symm
      refine ⟨n.category :: cats, ?_, ?_, ?_, ?_, ?_, ?_⟩
      · exact List.nodup_cons.2 ⟨h2, h1⟩
      · rw [List.mem_cons, not_or]
        refine ⟨Ne.symm h, fun hm => ?_⟩
        obtain ⟨m, hm, e⟩ := h3 c hm
        exact hcn m (List.mem_cons_of_mem _ hm) e
      · intro d hd
        rcases List.mem_cons.1 hd with rfl | hd
        · exact ⟨n, List.mem_cons_self .., rfl⟩
        · obtain ⟨m, hm, e⟩ := h3 d hd
          exact ⟨m, List.mem_cons_of_mem _ hm, e⟩
      · intro m hm
        refine .inr ?_
        rcases List.mem_cons.1 hm with rfl | hm
        · exact List.mem_cons_self ..
        · rcases h4 m hm with e | e
          · rw [e]; exact List.mem_cons_self ..
          · exact List.mem_cons_of_mem _ e
      · rw [List.pairwise_cons]
        refine ⟨fun d hd => ?_, h6⟩
        obtain ⟨m, hm, e⟩ := h3 d hd
        rw [← e]; exact hs.1 m hm
      · rw [printLoop, if_neg (by simpa using Ne.symm h), h5]
        have hnil : (n :: ns).filter (fun m => decide (m.category = c)) = [] := by
          rw [List.filter_eq_nil_iff]
          intro m hm
          simpa using hcn m hm
        rw [hnil, List.flatMap_nil, List.nil_append, List.flatMap_cons]
        have e1 : block (n :: ns) n.category = .category n.category :: (noteLines n ++ (ns.filter fun m => decide (m.category = n.category)).flatMap noteLines) := by
          unfold block
          rw [List.filter_cons_of_pos (by simp), List.flatMap_cons]
        rw [e1]
        have : ∀ d ∈ cats, block (n :: ns) d = block ns d := by
          intro d hd
          unfold block
          rw [List.filter_cons_of_neg]
          simp only [decide_eq_true_eq]
          rintro rfl
          exact h2 hd
        have e2 : cats.flatMap (block (n :: ns)) = cats.flatMap (block ns) := by
          clear h1 h2 h3 h4 h5 h6 e1
          induction cats with
          | nil => rfl
          | cons d cats ihc =>
            rw [List.flatMap_cons, List.flatMap_cons, this d (List.mem_cons_self ..), ihc fun e he => this e (List.mem_cons_of_mem _ he)]
        rw [e2]
        simp [noteLines]

/-- **C66**: the output is one block per category that has notes, each category once; a block is the category's header
followed by the notes of that category, in the order they were found, each directly followed by its sub-notes. -/
theorem C66_output (notes : List Note) : ∃ cats : List Cat, cats.Nodup ∧ (∀ c, c ∈ cats ↔ ∃ n ∈ notes, n.category = c) ∧
    cats.Pairwise (fun a b => strLe (catValue a) (catValue b) = true) ∧ output notes = cats.flatMap (block notes) := by
  let le : Note → Note → Bool := fun a b => strLe (catValue a.category) (catValue b.category)
  have htot : ∀ a b, le a b = true ∨ le b a = true := fun a b => strLe_total _ _
  have htr : ∀ a b c, le a b = true → le b c = true → le a c = true := fun a b c => strLe_trans
  obtain ⟨hs, hm, hf⟩ := pySorted_spec htot htr notes [] List.Pairwise.nil
  have hfil : ∀ c, (sortedNotes notes).filter (fun n => decide (n.category = c)) = notes.filter (fun n => decide (n.category = c)) := by
    intro c
    refine hf _ ?_
    intro a b ha hb
    simp only [decide_eq_true_eq] at ha hb
    show strLe _ _ = true
    rw [ha, hb]; exact strLe_refl _
  have hblock : ∀ c, block (sortedNotes notes) c = block notes c := by
    intro c; unfold block; rw [hfil]
  have hmem : ∀ n, n ∈ sortedNotes notes ↔ n ∈ notes := by
    intro n
    rw [show sortedNotes notes = notes.foldl (fun acc x => insertSorted le x acc) [] from rfl, hm n]
    simp
  unfold output
  cases hL : sortedNotes notes with
  | nil =>
    refine ⟨[], by simp, ?_, by simp, rfl⟩
    intro c
    constructor
    · intro h; exact nomatch h
    · rintro ⟨n, hn, _⟩
      have := (hmem n).2 hn
      rw [hL] at this
      exact nomatch this
  | cons n ns =>
    have hs' : (n :: ns).Pairwise fun a b => strLe (catValue a.category) (catValue b.category) = true := hL ▸ hs
    rw [List.pairwise_cons] at hs'
    obtain ⟨cats, h1, h2, h3, h4, h6, h5⟩ := printLoop_spec n.category ns hs'.2 hs'.1
    refine ⟨n.category :: cats, List.nodup_cons.2 ⟨h2, h1⟩, ?_, ?_, ?_⟩
    · intro c
      constructor
      · intro hc
        rcases List.mem_cons.1 hc with rfl | hc
        · exact ⟨n, (hmem n).1 (by rw [hL]; exact List.mem_cons_self ..), rfl⟩
        · obtain ⟨m, hm, e⟩ := h3 c hc
          exact ⟨m, (hmem m).1 (by rw [hL]; exact List.mem_cons_of_mem _ hm), e⟩
      · rintro ⟨m, hm, rfl⟩
        have := (hmem m).2 hm
        rw [hL] at this
        rcases List.mem_cons.1 this with rfl | hm
        · exact List.mem_cons_self ..
        · rcases h4 m hm with e | e
          · rw [e]; exact List.mem_cons_self ..
          · exact List.mem_cons_of_mem _ e
    · rw [List.pairwise_cons]
      refine ⟨fun d hd => ?_, h6⟩
      obtain ⟨m, hm, e⟩ := h3 d hd
      rw [← e]; exact hs'.1 m hm
    · rw [printLoop, if_neg (by intro e; exact nomatch e), h5, List.flatMap_cons]
      have hb2 : ∀ d ∈ cats, block notes d = block ns d := by
        intro d hd
        rw [← hblock d, hL]
        unfold block
        rw [List.filter_cons_of_neg]
        simp only [decide_eq_true_eq]
        rintro rfl
        exact h2 hd
      have e1 : block notes n.category = .category n.category :: (noteLines n ++ (ns.filter fun m => decide (m.category = n.category)).flatMap noteLines) := by
        rw [← hblock, hL]
        unfold block
        rw [List.filter_cons_of_pos (by simp), List.flatMap_cons]
      have e2 : cats.flatMap (block notes) = cats.flatMap (block ns) := by
        clear h1 h2 h3 h4 h5 h6 e1
        induction cats with
        | nil => rfl
        | cons d cats ihc =>
          rw [List.flatMap_cons, List.flatMap_cons, hb2 d (List.mem_cons_self ..), ihc fun e he => hb2 e (List.mem_cons_of_mem _ he)]
      rw [e1, e2]
      simp [noteLines]

/-- three notes of two categories, one with a sub-note -/
example : (output [mkNote [] (str "s") .VARY_HOST none [], (mkNote [] (str "s") .CL_CORRECT none []).addChild .VARY_HOST [], mkNote [] (str "t") .VARY_HOST none []]).length = 6 := by
  decide +kernel

/-! ### C67 -/

/-- bytes of white space -/
def BSpaces (w : Str) : Prop := ∀ c ∈ w, isBSpace c = true
/-- no white space, not empty -/
def Word (w : Str) : Prop := w ≠ [] ∧ ∀ c ∈ w, isBSpace c = false
/-- not empty, the first byte is not white space -/
def Starts (b : Str) : Prop := ∃ c, b.head? = some c ∧ isBSpace c = false

theorem takeWhile_append_stop {α} {p : α → Bool} {a b : List α} (ha : ∀ c ∈ a, p c = true) (hb : ∀ c, b.head? = some c → p c = false) :
    (a ++ b).takeWhile p = a ∧ (a ++ b).dropWhile p = b := by
  induction a with
  | nil =>
    cases b with
    | nil => exact ⟨rfl, rfl⟩
    | cons x b =>
      have := hb x rfl
      have hn : ¬ p x = true := by rw [this]; decide
      exact ⟨List.takeWhile_cons_of_neg hn, List.dropWhile_cons_of_neg hn⟩
  | cons x a ih =>
    have hx := ha x (List.mem_cons_self ..)
    obtain ⟨h1, h2⟩ := ih fun c hc => ha c (List.mem_cons_of_mem _ hc)
    rw [List.cons_append, List.takeWhile_cons_of_pos hx, List.dropWhile_cons_of_pos hx, h1, h2]
    exact ⟨rfl, rfl⟩

theorem splitWS_iff (s a b : Str) : splitWS s = some (a, b) ↔
    ∃ w w', s = w ++ a ++ w' ++ b ∧ BSpaces w ∧ BSpaces w' ∧ w' ≠ [] ∧ Word a ∧ Starts b := by
  constructor
  · intro h
    unfold splitWS at h
    dsimp only at h
    split at h
    · exact nomatch h
    · rename_i hne
      simp only [Bool.or_eq_true, List.isEmpty_iff, not_or] at hne
      simp only [Option.some.injEq, Prod.mk.injEq] at h
      obtain ⟨rfl, rfl⟩ := h
      refine ⟨s.takeWhile isBSpace, ((s.dropWhile isBSpace).dropWhile fun c => !isBSpace c).takeWhile isBSpace, ?_, takeWhile_all s, takeWhile_all _, ?_, ?_, ?_⟩
      · rw [List.append_assoc, List.takeWhile_append_dropWhile, List.append_assoc, List.takeWhile_append_dropWhile,
          List.takeWhile_append_dropWhile]
      · intro he
        have h2 : ((s.dropWhile isBSpace).dropWhile fun c => !isBSpace c).head? ≠ none := by
          intro hn
          rw [List.head?_eq_none_iff] at hn
          exact hne.2 (by rw [hn]; rfl)
        obtain ⟨c, hc⟩ := Option.ne_none_iff_exists'.1 h2
        have hcs := dropWhile_head_neg hc
        have hcs' : isBSpace c = true := by simpa using hcs
        cases hd : ((s.dropWhile isBSpace).dropWhile fun c => !isBSpace c) with
        | nil => rw [hd] at hc; exact nomatch hc
        | cons x l =>
          rw [hd] at hc he
          simp only [List.head?_cons, Option.some.injEq] at hc
          subst hc
          rw [List.takeWhile_cons_of_pos hcs'] at he
          exact nomatch he
      · refine ⟨hne.1, fun c hc => ?_⟩
        have := takeWhile_all _ c hc
        simpa using this
      · obtain ⟨c, hc⟩ := Option.ne_none_iff_exists'.1 (show ((List.dropWhile (fun c => !isBSpace c) (s.dropWhile isBSpace)).dropWhile isBSpace).head? ≠ none from
          fun hn => hne.2 (List.head?_eq_none_iff.1 hn))
        exact ⟨c, hc, dropWhile_head_neg hc⟩
  · rintro ⟨w, w', rfl, hw, hw', hne, ⟨ha, ha'⟩, c, hc, hcs⟩
    have e1 : (w ++ a ++ w' ++ b).dropWhile isBSpace = a ++ (w' ++ b) := by
      rw [List.append_assoc, List.append_assoc, dropWhile_append_left hw]
      cases a with
      | nil => exact absurd rfl ha
      | cons x a =>
        refine dropWhile_head (c := x) ?_ (ha' x (List.mem_cons_self ..))
        rfl
    have hstop : ∀ c, (w' ++ b).head? = some c → (!isBSpace c) = false := by
      intro d hd
      cases w' with
      | nil => exact absurd rfl hne
      | cons x w' =>
        simp only [List.cons_append, List.head?_cons, Option.some.injEq] at hd
        subst hd
        rw [hw' x (List.mem_cons_self ..)]
        rfl
    obtain ⟨e2, e3⟩ := takeWhile_append_stop (p := fun c => !isBSpace c) (a := a) (b := w' ++ b)
      (fun c hc => by rw [ha' c hc]; rfl) hstop
    have e4 : (w' ++ b).dropWhile isBSpace = b := by
      rw [dropWhile_append_left hw']
      exact dropWhile_head hc hcs
    unfold splitWS
    dsimp only
    rw [e1, e2, e3, e4, if_neg]
    simp only [Bool.or_eq_true, List.isEmpty_iff, not_or]
    refine ⟨ha, ?_⟩
    rintro rfl
    exact nomatch hc

/-- the last byte is not white space -/
def Ends (b : Str) : Prop := ∃ c, b.getLast? = some c ∧ isBSpace c = false

theorem rsplitWS_iff (s a b : Str) : rsplitWS s = some (a, b) ↔
    ∃ w w', s = a ++ w' ++ b ++ w ∧ BSpaces w ∧ BSpaces w' ∧ w' ≠ [] ∧ Word b ∧ Ends a := by
  unfold rsplitWS
  constructor
  · intro h
    rw [Option.map_eq_some_iff] at h
    obtain ⟨⟨x, y⟩, hxy, e⟩ := h
    simp only [Prod.mk.injEq] at e
    obtain ⟨rfl, rfl⟩ := e
    obtain ⟨w, w', hs, hw, hw', hne, ⟨hx, hx'⟩, c, hc, hcs⟩ := (splitWS_iff _ _ _).1 hxy
    refine ⟨w.reverse, w'.reverse, ?_, fun c hc => hw c (List.mem_reverse.1 hc), fun c hc => hw' c (List.mem_reverse.1 hc), by simpa using hne,
      ⟨by simpa using hx, fun c hc => hx' c (List.mem_reverse.1 hc)⟩, c, ?_, hcs⟩
    · have := congrArg List.reverse hs
      rw [List.reverse_reverse] at this
      rw [this]
      simp
    · rw [List.getLast?_reverse]; exact hc
  · rintro ⟨w, w', rfl, hw, hw', hne, ⟨hb, hb'⟩, c, hc, hcs⟩
    rw [Option.map_eq_some_iff]
    refine ⟨(b.reverse, a.reverse), ?_, by simp⟩
    rw [splitWS_iff]
    refine ⟨w.reverse, w'.reverse, by simp, fun c hc => hw c (List.mem_reverse.1 hc), fun c hc => hw' c (List.mem_reverse.1 hc), by simpa using hne,
      ⟨by simpa using hb, fun c hc => hb' c (List.mem_reverse.1 hc)⟩, c, ?_, hcs⟩
    rw [List.head?_reverse]; exact hc

theorem split1_iff (c : Nat) (s a b : Str) : split1 c s = some (a, b) ↔ s = a ++ c :: b ∧ c ∉ a := by
  induction s generalizing a with
  | nil => simp [split1]
  | cons x s ih =>
    unfold split1
    by_cases h : x = c
    · subst h
      rw [if_pos rfl]
      constructor
      · intro e
        simp only [Option.some.injEq, Prod.mk.injEq] at e
        obtain ⟨rfl, rfl⟩ := e
        exact ⟨rfl, by simp⟩
      · rintro ⟨e, hm⟩
        cases a with
        | nil => simp only [List.nil_append, List.cons.injEq, true_and] at e; rw [e]
        | cons y a =>
          simp only [List.cons_append, List.cons.injEq] at e
          exact absurd (by rw [e.1]; exact List.mem_cons_self ..) hm
    · rw [if_neg h]
      constructor
      · intro e
        cases hs : split1 c s with
        | none => rw [hs] at e; exact nomatch e
        | some p =>
          obtain ⟨p, q⟩ := p
          rw [hs] at e
          simp only [Option.some.injEq, Prod.mk.injEq] at e
          obtain ⟨rfl, rfl⟩ := e
          obtain ⟨h1, h2⟩ := (ih p).1 hs
          rw [h1]
          refine ⟨rfl, ?_⟩
          simp only [List.mem_cons, not_or]
          exact ⟨Ne.symm h, h2⟩
      · rintro ⟨e, hm⟩
        cases a with
        | nil => simp only [List.nil_append, List.cons.injEq] at e; exact absurd e.1 h
        | cons y a =>
          simp only [List.cons_append, List.cons.injEq] at e
          simp only [List.mem_cons, not_or] at hm
          rw [(ih a).2 ⟨e.2, hm.2⟩, e.1]

theorem rsplit1_iff (c : Nat) (s a b : Str) : rsplit1 c s = some (a, b) ↔ s = a ++ c :: b ∧ c ∉ b := by
  unfold rsplit1
  rw [Option.map_eq_some_iff]
  constructor
  · rintro ⟨⟨x, y⟩, h, e⟩
    simp only [Prod.mk.injEq] at e
    obtain ⟨rfl, rfl⟩ := e
    obtain ⟨h1, h2⟩ := (split1_iff _ _ _ _).1 h
    have := congrArg List.reverse h1
    rw [List.reverse_reverse] at this
    rw [this]
    simp [h2]
  · rintro ⟨rfl, h⟩
    refine ⟨(b.reverse, a.reverse), ?_, by simp⟩
    rw [split1_iff]
    simp [h]

/-- a request line: method, request target and protocol/version, separated by white space; the target may contain
white space inside -/
def RequestLine (line method uri version : Str) : Prop :=
  ∃ w w1 w2 w3 proto, line = w ++ method ++ w1 ++ uri ++ w2 ++ (proto ++ [47] ++ version) ++ w3 ∧
    BSpaces w ∧ BSpaces w1 ∧ w1 ≠ [] ∧ BSpaces w2 ∧ w2 ≠ [] ∧ BSpaces w3 ∧
    Word method ∧ Starts uri ∧ Ends uri ∧ Word (proto ++ [47] ++ version) ∧ 47 ∉ version

/-- **C67**, requests: the line splits into its three parts exactly when it is a request line. -/
theorem C67_request (line method uri version : Str) :
    requestTopline line = .ok (method, uri, version) ↔ RequestLine line method uri version := by
  unfold requestTopline RequestLine
  constructor
  · intro h
    cases h1 : splitWS line with
    | none => rw [h1] at h; exact nomatch h
    | some p =>
      obtain ⟨m, rest⟩ := p
      rw [h1] at h
      dsimp only at h
      cases h2 : rsplitWS rest with
      | none => rw [h2] at h; exact nomatch h
      | some p =>
        obtain ⟨u, pv⟩ := p
        rw [h2] at h
        dsimp only at h
        cases h3 : rsplit1 47 pv with
        | none => rw [h3] at h; exact nomatch h
        | some p =>
          obtain ⟨proto, v⟩ := p
          rw [h3] at h
          simp only [Except.ok.injEq, Prod.mk.injEq] at h
          obtain ⟨rfl, rfl, rfl⟩ := h
          obtain ⟨w, w1, rfl, hw, hw1, hne1, hm, c, hc, hcs⟩ := (splitWS_iff _ _ _).1 h1
          obtain ⟨w3, w2, rfl, hw3, hw2, hne2, hpv, hu⟩ := (rsplitWS_iff _ _ _).1 h2
          obtain ⟨rfl, hv⟩ := (rsplit1_iff _ _ _ _).1 h3
          refine ⟨w, w1, w2, w3, proto, by simp, hw, hw1, hne1, hw2, hne2, hw3, hm, ⟨c, ?_, hcs⟩, hu, by simpa using hpv, hv⟩
          obtain ⟨d, hd, _⟩ := hu
          cases u with
          | nil => exact nomatch hd
          | cons x u => exact hc
  · rintro ⟨w, w1, w2, w3, proto, rfl, hw, hw1, hne1, hw2, hne2, hw3, hm, ⟨c, hc, hcs⟩, hu, hpv, hv⟩
    have h1 : splitWS (w ++ method ++ w1 ++ uri ++ w2 ++ (proto ++ [47] ++ version) ++ w3) = some (method, uri ++ w2 ++ (proto ++ [47] ++ version) ++ w3) := by
      rw [splitWS_iff]
      refine ⟨w, w1, by simp, hw, hw1, hne1, hm, c, ?_, hcs⟩
      cases uri with
      | nil => exact nomatch hc
      | cons x u => exact hc
    rw [h1]
    dsimp only
    rw [(rsplitWS_iff _ _ _).2 ⟨w3, w2, rfl, hw3, hw2, hne2, hpv, hu⟩]
    dsimp only
    rw [(rsplit1_iff _ _ proto version).2 ⟨by simp, hv⟩]

/-- **C67**, requests: every other line raises `ValueError`. -/
theorem C67_request_bad (line : Str) (h : ¬ ∃ m u v, RequestLine line m u v) : requestTopline line = .error .valueError := by
  cases hr : requestTopline line with
  | ok p => exact absurd ⟨_, _, _, (C67_request line p.1 p.2.1 p.2.2).1 hr⟩ h
  | error e =>
    unfold requestTopline at hr
    split at hr
    · exact hr.symm
    · split at hr
      · exact hr.symm
      · split at hr
        · exact hr.symm
        · exact nomatch hr

/-- a status line: `HTTP/` and a supported version, then the status code and perhaps a phrase -/
def StatusLine (line version code phrase : Str) : Prop :=
  (version = str "1.0" ∨ version = str "1.1" ∨ version = str "2") ∧
  ∃ w w1, BSpaces w ∧ BSpaces w1 ∧ w1 ≠ [] ∧ Word code ∧
    ((∃ w2, BSpaces w2 ∧ w2 ≠ [] ∧ Starts phrase ∧ line = w ++ (str "HTTP/" ++ version) ++ w1 ++ (code ++ w2 ++ phrase)) ∨
     (∃ w2, BSpaces w2 ∧ phrase = [] ∧ line = w ++ (str "HTTP/" ++ version) ++ w1 ++ (code ++ w2)))

theorem splitWS_none {s : Str} (hs : Starts s) (h : splitWS s = none) : ∃ a w, s = a ++ w ∧ Word a ∧ BSpaces w := by
  obtain ⟨c, hc, hcs⟩ := hs
  have e : s.dropWhile isBSpace = s := dropWhile_head hc hcs
  unfold splitWS at h
  dsimp only at h
  rw [e] at h
  refine ⟨s.takeWhile fun c => !isBSpace c, s.dropWhile fun c => !isBSpace c, (List.takeWhile_append_dropWhile).symm, ⟨?_, ?_⟩, ?_⟩
  · cases s with
    | nil => exact nomatch hc
    | cons x s =>
      simp only [List.head?_cons, Option.some.injEq] at hc
      subst hc
      rw [List.takeWhile_cons_of_pos (by rw [hcs]; rfl)]
      simp
  · intro d hd
    have := takeWhile_all _ d hd
    simpa using this
  · split at h
    · rename_i hb
      rw [Bool.or_eq_true] at hb
      rcases hb with hb | hb
      · exfalso
        cases s with
        | nil => exact nomatch hc
        | cons x s =>
          simp only [List.head?_cons, Option.some.injEq] at hc
          subst hc
          rw [List.takeWhile_cons_of_pos (by rw [hcs]; rfl)] at hb
          exact nomatch hb
      · rw [List.isEmpty_iff] at hb
        have := List.takeWhile_append_dropWhile (p := isBSpace) (l := s.dropWhile fun c => !isBSpace c)
        rw [hb, List.append_nil] at this
        intro d hd
        rw [← this] at hd
        exact takeWhile_all _ d hd
    · exact nomatch h

theorem splitWS_word {a w : Str} (ha : Word a) (hw : BSpaces w) : splitWS (a ++ w) = none := by
  cases h : splitWS (a ++ w) with
  | none => rfl
  | some p =>
    exfalso
    unfold splitWS at h
    dsimp only at h
    have e1 : (a ++ w).dropWhile isBSpace = a ++ w := by
      obtain ⟨hne, ha'⟩ := ha
      cases a with
      | nil => exact absurd rfl hne
      | cons x a => exact dropWhile_head (c := x) rfl (ha' x (List.mem_cons_self ..))
    have e2 : (a ++ w).dropWhile (fun c => !isBSpace c) = w := by
      refine (takeWhile_append_stop (p := fun c => !isBSpace c) (fun c hc => by rw [ha.2 c hc]; rfl) ?_).2
      intro c hc
      cases w with
      | nil => exact nomatch hc
      | cons x w =>
        simp only [List.head?_cons, Option.some.injEq] at hc
        subst hc
        rw [hw x (List.mem_cons_self ..)]
        rfl
    have e3 : w.dropWhile isBSpace = [] := by
      have := dropWhile_append_left (p := isBSpace) (x := []) hw
      rwa [List.append_nil] at this
    rw [e1, e2, e3] at h
    rw [if_pos (by simp)] at h
    exact nomatch h

theorem rstripP_word {a w : Str} (ha : Word a) (hw : BSpaces w) : rstripP isBSpace (a ++ w) = a := by
  unfold rstripP
  rw [List.reverse_append, dropWhile_append_left (fun c hc => hw c (List.mem_reverse.1 hc))]
  rw [dropWhile_eq_self, List.reverse_reverse]
  intro c hc
  exact ha.2 c (List.mem_reverse.1 hc)

/-- **C67**, responses: the line splits into version, code and phrase exactly when it is a status line. -/
theorem C67_response (line version code phrase : Str) :
    responseTopline line = .ok (version, code, phrase) ↔ StatusLine line version code phrase := by
  constructor
  · intro h
    unfold responseTopline at h
    cases h1 : splitWS line with
    | none => rw [h1] at h; exact nomatch h
    | some p =>
      obtain ⟨pv, status⟩ := p
      rw [h1] at h
      dsimp only at h
      obtain ⟨w, w1, rfl, hw, hw1, hne1, hpv, hst⟩ := (splitWS_iff _ _ _).1 h1
      cases h2 : rsplit1 47 pv with
      | none => rw [h2] at h; exact nomatch h
      | some p =>
        obtain ⟨proto, v⟩ := p
        rw [h2] at h
        dsimp only at h
        obtain ⟨rfl, _⟩ := (rsplit1_iff _ _ _ _).1 h2
        by_cases hb : proto ≠ str "HTTP" ∨ versions.contains v = false
        · rw [if_pos hb] at h; exact nomatch h
        · rw [if_neg hb] at h
          simp only [not_or, Bool.not_eq_false, ne_eq, Decidable.not_not] at hb
          obtain ⟨rfl, hv⟩ := hb
          have hv' : v = str "1.0" ∨ v = str "1.1" ∨ v = str "2" := by
            simpa [versions] using hv
          cases h3 : splitWS status with
          | some p =>
            obtain ⟨c, ph⟩ := p
            rw [h3] at h
            simp only [Except.ok.injEq, Prod.mk.injEq] at h
            obtain ⟨rfl, rfl, rfl⟩ := h
            obtain ⟨u, w2, rfl, hu, hw2, hne2, hc, hph⟩ := (splitWS_iff _ _ _).1 h3
            have hu0 : u = [] := by
              cases u with
              | nil => rfl
              | cons x u =>
                obtain ⟨d, hd, hds⟩ := hst
                simp only [List.cons_append, List.head?_cons, Option.some.injEq] at hd
                subst hd
                have := hu x (List.mem_cons_self ..)
                rw [this] at hds
                exact nomatch hds
            subst hu0
            refine ⟨hv', w, w1, hw, hw1, hne1, hc, .inl ⟨w2, hw2, hne2, hph, ?_⟩⟩
            simp
          | none =>
            rw [h3] at h
            simp only [Except.ok.injEq, Prod.mk.injEq] at h
            obtain ⟨rfl, rfl, rfl⟩ := h
            obtain ⟨a, w2, rfl, ha, hw2⟩ := splitWS_none hst h3
            rw [rstripP_word ha hw2]
            refine ⟨hv', w, w1, hw, hw1, hne1, ha, .inr ⟨w2, hw2, rfl, ?_⟩⟩
            simp
  · rintro ⟨hv, w, w1, hw, hw1, hne1, hc, h⟩
    have hvs : 47 ∉ version ∧ Word (str "HTTP/" ++ version) ∧ versions.contains version = true := by
      rcases hv with rfl | rfl | rfl <;> (refine ⟨by decide, ⟨by decide, by decide⟩, by decide⟩)
    have hsplit : rsplit1 47 (str "HTTP/" ++ version) = some (str "HTTP", version) :=
      (rsplit1_iff _ _ _ _).2 ⟨rfl, hvs.1⟩
    have hcs : ∀ r, Starts (code ++ r) := by
      intro r
      obtain ⟨hne, hc'⟩ := hc
      cases code with
      | nil => exact absurd rfl hne
      | cons x code => exact ⟨x, rfl, hc' x (List.mem_cons_self ..)⟩
    rcases h with ⟨w2, hw2, hne2, hph, rfl⟩ | ⟨w2, hw2, rfl, rfl⟩
    · unfold responseTopline
      rw [(splitWS_iff _ _ _).2 ⟨w, w1, rfl, hw, hw1, hne1, hvs.2.1, by rw [List.append_assoc]; exact hcs _⟩]
      dsimp only
      rw [hsplit]
      dsimp only
      rw [if_neg (by simp only [ne_eq, not_true, hvs.2.2, Bool.true_eq_false, or_self, not_false_eq_true]),
        (splitWS_iff _ code phrase).2 ⟨[], w2, by simp, (fun _ h => nomatch h), hw2, hne2, hc, hph⟩]
    · unfold responseTopline
      rw [(splitWS_iff _ _ _).2 ⟨w, w1, rfl, hw, hw1, hne1, hvs.2.1, hcs _⟩]
      dsimp only
      rw [hsplit]
      dsimp only
      rw [if_neg (by simp only [ne_eq, not_true, hvs.2.2, Bool.true_eq_false, or_self, not_false_eq_true]), splitWS_word hc hw2]
      dsimp only
      rw [rstripP_word hc hw2]

/-- **C67**, responses: every other line raises `ValueError`. -/
theorem C67_response_bad (line : Str) (h : ¬ ∃ v c p, StatusLine line v c p) : responseTopline line = .error .valueError := by
  cases hr : responseTopline line with
  | ok p => exact absurd ⟨_, _, _, (C67_response line p.1 p.2.1 p.2.2).1 hr⟩ h
  | error e =>
    unfold responseTopline at hr
    split at hr
    · exact hr.symm
    · split at hr
      · exact hr.symm
      · split at hr
        · exact hr.symm
        · split at hr <;> exact nomatch hr

example : requestTopline (str "GET /a b HTTP/1.1") = .ok (str "GET", str "/a b", str "1.1") ∧
    requestTopline (str "GET /a") = .error .valueError ∧
    responseTopline (str "HTTP/1.1 404 Not Found") = .ok (str "1.1", str "404", str "Not Found") ∧
    responseTopline (str "HTTP/1.1 200 ") = .ok (str "1.1", str "200", []) ∧
    responseTopline (str "HTTP/3 200 OK") = .error .valueError := by decide

/-! ### C68 -/

theorem responseTopline_kind (v st p) (m : Msg) : (m.responseTopline v st p).1.kind = m.kind := by
  unfold Msg.responseTopline
  split
  · rfl
  · dsimp only
    split <;> split <;> first | rfl | (split <;> rfl)

theorem processHeaders_kind (env related ls) (m : Msg) : (m.processHeaders env related ls).1.kind = m.kind := by
  have h := (processSection_ext env related false ls m).kind
  unfold Msg.processHeaders
  generalize processSection _ _ _ _ _ = r at h
  obtain ⟨m1, x⟩ := r
  cases x with
  | error e => exact h
  | ok u =>
    unfold Run.andThen
    dsimp only
    obtain ⟨ce, e⟩ := setCharset_same env m1
    rw [e]
    exact h

/-- **C68** without `-i`: the message is linted as a response. -/
theorem C68_default_partial (env : Env) (startTime : Option Rat) (topLine : Str) (hdrs : List (Str × Str)) (codes : List Str) (cl : Option Int) :
    ∃ mode, modeOf none = some mode ∧
      ∀ m a f, inputStart env mode startTime topLine hdrs codes cl = .ok (m, a, f) → m.kind = .response := by
  refine ⟨_, rfl, ?_⟩
  intro m a f h
  unfold inputStart at h
  dsimp only at h
  cases h1 : responseTopline topLine with
  | error e => rw [h1] at h; exact nomatch h
  | ok p =>
    obtain ⟨v, st, ph⟩ := p
    rw [h1] at h
    dsimp only [bind, Except.bind] at h
    have hk : (Run.andThen ((Msg.new env .response startTime).responseTopline v st (some ph)) fun m _ => m.processHeaders env none hdrs).1.kind = .response := by
      have h0 := responseTopline_kind v st (some ph) (Msg.new env .response startTime)
      generalize Msg.responseTopline _ _ _ _ = r at h0
      obtain ⟨m1, x⟩ := r
      cases x with
      | error e => exact h0
      | ok u => exact (processHeaders_kind env none hdrs m1).trans h0
    generalize (Run.andThen ((Msg.new env .response startTime).responseTopline v st (some ph)) fun m _ => m.processHeaders env none hdrs) = r at *
    obtain ⟨m1, x⟩ := r
    cases x with
    | error e => exact nomatch h
    | ok u =>
      have h' : (Except.ok (m1, _, _) : Except Exn _) = Except.ok (m, a, f) := h
      simp only [Except.ok.injEq, Prod.mk.injEq] at h'
      rw [← h'.1]
      exact hk

/-- a run that succeeds -/
example : ∃ r, inputStart toyEnv (.enum .response) none (str "HTTP/1.1 200 OK") [(str "Age", str "1")] [] none = .ok r := by
  have h : (match inputStart toyEnv (.enum .response) none (str "HTTP/1.1 200 OK") [(str "Age", str "1")] [] none with
    | .ok _ => true | .error _ => false) = true := by decide +kernel
  revert h
  cases inputStart toyEnv (.enum .response) none (str "HTTP/1.1 200 OK") [(str "Age", str "1")] [] none with
  | ok r => exact fun _ => ⟨r, rfl⟩
  | error e => intro h; exact nomatch h

/-- **C68** is false of the code: with `-i request` (or `-i response`) no message is ever linted; the parser raises
`UnboundLocalError` on every input. -/
theorem C68_violated (s : Str) (hs : s = str "request" ∨ s = str "response") (env : Env) (startTime : Option Rat) (topLine : Str)
    (hdrs : List (Str × Str)) (codes : List Str) (cl : Option Int) :
    ∃ mode, modeOf (some s) = some mode ∧ inputStart env mode startTime topLine hdrs codes cl = .error .unboundLocalError := by
  refine ⟨.text s, ?_, rfl⟩
  unfold modeOf
  dsimp only
  rw [if_pos hs]

end HL.Props
