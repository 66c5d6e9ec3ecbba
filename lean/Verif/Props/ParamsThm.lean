import Verif.Props.GrammarThm
import Verif.Props.CookieThm

/-!
# Parameters (C50)
-/

namespace HL.Props
open HL.RE HL.Syntax

/-! ### specification -/

/-- RFC 9110: a token -/
def IsTok (s : Str) : Prop := s ≠ [] ∧ ∀ c ∈ s, isTchar c = true
/-- RFC 9110: a quoted string -/
def IsQuoted (s : Str) : Prop := ∃ b, s = [34] ++ b ++ [34] ∧ QuotedBody b

/-- a parameter as it is written, with what precedes it: separator, name and value -/
abbrev Piece := Str × Str × Str

/-- white space and semicolons -/
def IsSep (s : Str) : Prop := ∀ c ∈ s, isSpace c = true ∨ c = 59

/-- `sep name=value sep name=value ... trailing` -/
def paramsText : List Piece → Str → Str
  | [], tr => tr
  | p :: ps, tr => p.1 ++ (p.2.1 ++ [61] ++ p.2.2 ++ paramsText ps tr)

/-- parameters with names that are tokens and values that are tokens or quoted strings -/
structure GoodPieces (ps : List Piece) (tr : Str) : Prop where
  names : ∀ p ∈ ps, IsTok p.2.1
  values : ∀ p ∈ ps, IsTok p.2.2 ∨ IsQuoted p.2.2
  seps : ∀ p ∈ ps, IsSep p.1
  /-- all but the first are preceded by a semicolon -/
  divided : ∀ p ∈ ps.drop 1, 59 ∈ p.1
  trailing : IsSep tr

/-! ### the matcher on a parameter -/

theorem ws_star_sens (s : Str) : (RE.star RE.ws).L false s ↔ AllSpace s := by
  unfold RE.star
  rw [rep_one_L (p := csetHas false false [(9,13), (28,32), (133,133), (160,160), (5760,5760), (8192,8202), (8232,8233),
  (8239,8239), (8287,8287), (12288,12288)]) rfl]
  have e : ∀ c, csetHas false false [(9,13), (28,32), (133,133), (160,160), (5760,5760), (8192,8202), (8232,8233),
      (8239,8239), (8287,8287), (12288,12288)] c = isSpace c := by
    intro c
    rw [Bool.eq_iff_iff]
    unfold csetHas isSpace inRanges
    simp only [Bool.false_eq_true, if_false, bne_iff_ne, ne_eq, Bool.not_eq_false, List.any_cons, List.any_nil, Bool.or_false, Bool.or_eq_true, Bool.and_eq_true, decide_eq_true_eq, beq_iff_eq]
    omega
  simp only [Nat.zero_le, true_and, e, AllSpace]

theorem semi_L (s : Str) : (ch 59).L false s ↔ s = [59] := ch_L 59 (by decide) (variants_plain (by decide)) false s
theorem eq_L (s : Str) : (ch 61).L false s ↔ s = [61] := ch_L 61 (by decide) (variants_plain (by decide)) false s

/-- where a parameter may end -/
theorem look_iff (t : Str) : lookSplit false (delimRE 59) t = true ↔ AllSpace t ∨ ∃ w r, AllSpace w ∧ t = w ++ 59 :: r := by
  unfold lookSplit
  rw [Bool.or_eq_true, fullEnd_iff, ws_star_sens]
  have h1 : (!((delimRE 59).run false t).isEmpty) = true ↔ ∃ w r, AllSpace w ∧ t = w ++ 59 :: r := by
    have : (!((delimRE 59).run false t).isEmpty) = true ↔ ∃ x, x ∈ (delimRE 59).run false t := by
      cases (delimRE 59).run false t <;> simp
    rw [this]
    simp only [mem_run_iff]
    unfold delimRE
    simp only [RE.L, ws_star_sens, semi_L]
    constructor
    · rintro ⟨x, p, rfl, w, _, rfl, hw, _, v, rfl, rfl, _⟩
      exact ⟨w, v ++ x, hw, by simp⟩
    · rintro ⟨w, r, hw, rfl⟩
      exact ⟨r, w ++ [59], by simp, w, [59], rfl, hw, [59], [], rfl, rfl, by intro c hc; cases hc⟩
  rw [h1]
  constructor
  · rintro (h | h | ⟨p, rfl, h⟩)
    · exact .inr h
    · exact .inl h
    · left
      rw [ws_star_sens] at h
      intro c hc
      rcases List.mem_append.1 hc with hc | hc
      · exact h c hc
      · rw [List.mem_singleton.1 hc]; decide
  · rintro (h | h)
    · exact .inr (.inl h)
    · exact .inl h

theorem parameter_L (s : Str) : rfc9110.parameter.L false s ↔ ∃ k v, s = k ++ [61] ++ v ∧ IsTok k ∧ (IsTok v ∨ IsQuoted v) := by
  unfold rfc9110.parameter
  show (∃ s₁ s₂, s = s₁ ++ s₂ ∧ rfc9110.token.L false s₁ ∧ ∃ s₃ s₄, s₂ = s₃ ++ s₄ ∧ (ch 61).L false s₃ ∧ (rfc9110.token.L false s₄ ∨ rfc9110.quoted_string.L false s₄)) ↔ _
  simp only [token_L_sens, eq_L, quotedString_L]
  constructor
  · rintro ⟨k, _, rfl, hk, _, v, rfl, rfl, hv⟩; exact ⟨k, v, by simp, hk, hv⟩
  · rintro ⟨k, v, rfl, hk, hv⟩; exact ⟨k, [61] ++ v, by simp, hk, [61], v, rfl, rfl, hv⟩

/-- of two strings that agree, the first parts made of characters `q` and followed by others are the same -/
theorem span_unique {q : Nat → Bool} : ∀ {a b : Str} {x y : Nat} {r s : Str}, (∀ c ∈ a, q c = true) → (∀ c ∈ b, q c = true) → q x = false → q y = false →
    a ++ x :: r = b ++ y :: s → a = b ∧ x = y ∧ r = s := by
  intro a
  induction a with
  | nil =>
    intro b x y r s _ hb hx _ e
    cases b with
    | nil => simp at e; exact ⟨rfl, e.1, e.2⟩
    | cons c b =>
      simp at e
      have := hb c (by simp)
      rw [← e.1, hx] at this; exact nomatch this
  | cons c a ih =>
    intro b x y r s ha hb hx hy e
    cases b with
    | nil =>
      simp at e
      have := ha c (by simp)
      rw [e.1, hy] at this; exact nomatch this
    | cons d b =>
      simp at e
      obtain ⟨h1, h2, h3⟩ := ih (fun z hz => ha z (by simp [hz])) (fun z hz => hb z (by simp [hz])) hx hy e.2
      exact ⟨by rw [e.1, h1], h2, h3⟩

/-- a quoted body ends at the first quote -/
theorem body_unique : ∀ {a b : Str} {r s : Str}, QuotedBody a → QuotedBody b → a ++ 34 :: r = b ++ 34 :: s → a = b ∧ r = s := by
  intro a b r s ha
  induction ha generalizing b with
  | nil =>
    intro hb e
    cases hb with
    | nil => simp at e; exact ⟨rfl, e⟩
    | text hc _ => simp at e; rw [← e.1] at hc; exact absurd hc (by decide)
    | pair _ _ => simp at e
  | text hc _ ih =>
    intro hb e
    cases hb with
    | nil => simp at e; rw [e.1] at hc; exact absurd hc (by decide)
    | text hd hb' =>
      simp at e
      obtain ⟨h1, h2⟩ := ih hb' e.2
      exact ⟨by rw [e.1, h1], h2⟩
    | pair _ _ => simp at e; rw [e.1] at hc; exact absurd hc (by decide)
  | pair hc _ ih =>
    intro hb e
    cases hb with
    | nil => simp at e
    | text hd _ => simp at e; rw [← e.1] at hd; exact absurd hd (by decide)
    | pair hd hb' =>
      simp at e
      obtain ⟨h1, h2⟩ := ih hb' e.2
      exact ⟨by rw [e.1, h1], h2⟩

theorem space_not_tchar : ∀ c, isTchar c = true → isSpace c = false ∧ c ≠ 59 ∧ c ≠ 34 ∧ c ≠ 61 := by
  intro c h
  by_cases hc : c < 256
  · have : ∀ c < 256, isTchar c = true → isSpace c = false ∧ c ≠ 59 ∧ c ≠ 34 ∧ c ≠ 61 := by decide +kernel
    exact this c hc h
  · exfalso
    unfold isTchar at h
    have : (str "!#$%&'*+-.^_`|~").contains c = false := by
      rw [← Bool.not_eq_true, List.contains_iff_mem]
      intro hm
      have : ∀ x ∈ str "!#$%&'*+-.^_`|~", x < 256 := by decide
      exact hc (this c hm)
    rw [this] at h
    simp at h; omega

/-- what may follow a parameter -/
def ParamEnds (t : Str) : Prop := AllSpace t ∨ ∃ w r, AllSpace w ∧ t = w ++ 59 :: r

/-- its first character isn't one of a token, nor a quote -/
theorem ParamEnds.first {t : Str} (h : ParamEnds t) : ∀ c r, t = c :: r → isTchar c = false ∧ c ≠ 34 := by
  intro c r e
  have key : isSpace c = true ∨ c = 59 := by
    rcases h with h | ⟨w, r', hw, h⟩
    · exact .inl (h c (by rw [e]; simp))
    · cases w with
      | nil => rw [e] at h; simp at h; exact .inr h.1
      | cons d w => rw [e] at h; simp at h; exact .inl (by rw [h.1]; exact hw d (by simp))
  constructor
  · cases ht : isTchar c with
    | false => rfl
    | true =>
      obtain ⟨h1, h2, _⟩ := space_not_tchar c ht
      rcases key with k | k
      · rw [h1] at k; exact nomatch k
      · exact absurd k h2
  · rcases key with k | k
    · intro h; rw [h] at k; exact absurd k (by decide)
    · intro h; rw [h] at k; exact absurd k (by decide)

/-- only one way to read a parameter at the start of a text -/
theorem parameter_unique {k v k' v' t t' : Str} (hk : IsTok k) (hv : IsTok v ∨ IsQuoted v) (hk' : IsTok k') (hv' : IsTok v' ∨ IsQuoted v')
    (ht : ParamEnds t) (ht' : ParamEnds t') (e : k ++ [61] ++ v ++ t = k' ++ [61] ++ v' ++ t') : t = t' := by
  simp only [List.append_assoc, List.cons_append, List.nil_append] at e
  obtain ⟨_, _, e⟩ := span_unique (q := isTchar) hk.2 hk'.2 (by decide) (by decide) e
  have tokQuoted : ∀ {a b : Str} {x y}, IsTok a → IsQuoted b → a ++ x = b ++ y → False := by
    rintro a b x y ⟨ha, ha2⟩ ⟨q, rfl, _⟩ e
    cases a with
    | nil => exact ha rfl
    | cons c a =>
      simp at e
      have := ha2 c (by simp)
      rw [e.1] at this
      exact absurd this (by decide)
  have tokTok : ∀ {a b : Str} {x y : Str}, IsTok a → IsTok b → ParamEnds x → ParamEnds y → a ++ x = b ++ y → x = y := by
    intro a b x y ha hb hx hy e
    cases x with
    | nil =>
      cases y with
      | nil => rfl
      | cons d y =>
        exfalso
        have : d ∈ a := by rw [List.append_nil] at e; rw [e]; simp
        have h1 := ha.2 d this
        rw [(hy.first d y rfl).1] at h1; exact nomatch h1
    | cons c x =>
      cases y with
      | nil =>
        exfalso
        have : c ∈ b := by rw [List.append_nil] at e; rw [← e]; simp
        have h1 := hb.2 c this
        rw [(hx.first c x rfl).1] at h1; exact nomatch h1
      | cons d y =>
        obtain ⟨_, h1, h2⟩ := span_unique ha.2 hb.2 (hx.first c x rfl).1 (hy.first d y rfl).1 e
        rw [h1, h2]
  rcases hv with hv | hv <;> rcases hv' with hv' | hv'
  · exact tokTok hv hv' ht ht' e
  · exact (tokQuoted hv hv' e).elim
  · exact (tokQuoted hv' hv e.symm).elim
  · obtain ⟨a, rfl, ha⟩ := hv
    obtain ⟨b, rfl, hb⟩ := hv'
    simp only [List.append_assoc, List.cons_append, List.nil_append, List.cons.injEq, true_and] at e
    exact (body_unique ha hb e).2

theorem find?_unique {α} {l : List α} {p : α → Bool} {t : α} (hm : t ∈ l) (hp : p t = true) (hu : ∀ x ∈ l, p x = true → x = t) : l.find? p = some t := by
  cases h : l.find? p with
  | none => exact absurd hp (by have := List.find?_eq_none.1 h t hm; simpa using this)
  | some x => rw [hu x (List.mem_of_find?_eq_some h) (List.find?_some h)]

theorem run_take {k v t : Str} (hk : IsTok k) (hv : IsTok v ∨ IsQuoted v) (ht : ParamEnds t) :
    (rfc9110.parameter.run false (k ++ [61] ++ v ++ t)).find? (lookSplit false (delimRE 59)) = some t := by
  apply find?_unique
  · exact (mem_run_iff ..).2 ⟨_, rfl, (parameter_L _).2 ⟨k, v, rfl, hk, hv⟩⟩
  · exact (look_iff t).2 ht
  · intro x hx hl
    obtain ⟨p, e, hp⟩ := (mem_run_iff ..).1 hx
    obtain ⟨k', v', rfl, hk', hv'⟩ := (parameter_L _).1 hp
    exact (parameter_unique hk hv hk' hv' ht ((look_iff x).1 hl) e).symm

theorem run_skip {c : Nat} {r : Str} (hc : isTchar c = false) : rfc9110.parameter.run false (c :: r) = [] := by
  cases h : rfc9110.parameter.run false (c :: r) with
  | nil => rfl
  | cons x xs =>
    exfalso
    obtain ⟨p, e, hp⟩ := (mem_run_iff ..).1 (show x ∈ rfc9110.parameter.run false (c :: r) by rw [h]; simp)
    obtain ⟨k, v, rfl, hk, _⟩ := (parameter_L _).1 hp
    cases k with
    | nil => exact hk.1 rfl
    | cons d k =>
      simp at e
      have := hk.2 d (by simp)
      rw [← e.1, hc] at this; exact nomatch this

theorem run_nil : rfc9110.parameter.run false [] = [] := by decide +kernel

/-! ### the pieces of a text -/

/-- the matches found -/
abbrev found (fuel : Nat) (s : Str) : List Str := findall false rfc9110.parameter (lookSplit false (delimRE 59)) fuel s

theorem found_nil (fuel : Nat) : found fuel [] = [] := by
  unfold found
  cases fuel with
  | zero => rfl
  | succ n => unfold findall; rw [run_nil]; rfl

theorem found_skip {c : Nat} (hc : isTchar c = false) (fuel : Nat) (r : Str) : found (fuel + 1) (c :: r) = found fuel r := by
  unfold found
  conv => lhs; unfold findall
  rw [run_skip hc]
  rfl

theorem found_sep (w : Str) (hw : ∀ c ∈ w, isTchar c = false) (fuel : Nat) (r : Str) : found (fuel + w.length) (w ++ r) = found fuel r := by
  induction w with
  | nil => rfl
  | cons c w ih =>
    rw [List.length_cons, ← Nat.add_assoc, List.cons_append, found_skip (hw c (by simp))]
    exact ih fun d hd => hw d (by simp [hd])

theorem found_take {k v t : Str} (hk : IsTok k) (hv : IsTok v ∨ IsQuoted v) (ht : ParamEnds t) (fuel : Nat) :
    found (fuel + 1) (k ++ [61] ++ v ++ t) = (k ++ [61] ++ v) :: found fuel t := by
  unfold found
  conv => lhs; unfold findall
  rw [run_take hk hv ht]
  have hl : t.length < (k ++ [61] ++ v ++ t).length := by simp; omega
  dsimp only
  rw [if_pos hl]
  congr 1
  have : (k ++ [61] ++ v ++ t).length - t.length = (k ++ [61] ++ v).length := by simp; omega
  rw [this, List.take_left']
  rfl

theorem IsSep.noTok {s : Str} (h : IsSep s) : ∀ c ∈ s, isTchar c = false := by
  intro c hc
  cases ht : isTchar c with
  | false => rfl
  | true =>
    obtain ⟨h1, h2, _⟩ := space_not_tchar c ht
    rcases h c hc with k | k
    · rw [h1] at k; exact nomatch k
    · exact absurd k h2

/-- a separator ends a parameter -/
theorem IsSep.ends {s r : Str} (h : IsSep s) (h2 : 59 ∈ s ∨ r = []) : ParamEnds (s ++ r) := by
  induction s with
  | nil =>
    rcases h2 with h2 | h2
    · exact absurd h2 (by simp)
    · rw [h2]; exact .inl (by intro c hc; cases hc)
  | cons c s ih =>
    rcases h c (by simp) with hc | hc
    · have h2' : 59 ∈ s ∨ r = [] := by
        rcases h2 with h2 | h2
        · rcases List.mem_cons.1 h2 with e | e
          · rw [← e] at hc; exact absurd hc (by decide)
          · exact .inl e
        · exact .inr h2
      rcases ih (fun d hd => h d (by simp [hd])) h2' with k | ⟨w, r', hw, k⟩
      · left
        intro d hd
        rcases List.mem_cons.1 hd with rfl | hd
        · exact hc
        · exact k d hd
      · right
        refine ⟨c :: w, r', ?_, by rw [List.cons_append, k]; rfl⟩
        intro d hd
        rcases List.mem_cons.1 hd with rfl | hd
        · exact hc
        · exact hw d hd
    · exact .inr ⟨[], s ++ r, (by intro d hd; cases hd), by rw [hc]; rfl⟩

theorem GoodPieces.tail {p ps tr} (h : GoodPieces (p :: ps) tr) : GoodPieces ps tr := by
  refine ⟨fun q hq => h.names q (by simp [hq]), fun q hq => h.values q (by simp [hq]), fun q hq => h.seps q (by simp [hq]), ?_, h.trailing⟩
  intro q hq
  exact h.divided q (by simpa using List.mem_of_mem_drop hq)

theorem GoodPieces.ends {p ps tr} (h : GoodPieces (p :: ps) tr) : ParamEnds (paramsText ps tr) := by
  cases ps with
  | nil => have := h.trailing.ends (r := []) (.inr rfl); rwa [List.append_nil] at this
  | cons q qs => exact (h.seps q (by simp)).ends (.inl (h.divided q (by simp)))

theorem found_params : ∀ (ps : List Piece) (tr : Str) (fuel : Nat), GoodPieces ps tr → (paramsText ps tr).length < fuel →
    found fuel (paramsText ps tr) = ps.map fun p => p.2.1 ++ [61] ++ p.2.2 := by
  intro ps
  induction ps with
  | nil =>
    intro tr fuel h hf
    unfold paramsText at *
    obtain ⟨n, rfl⟩ := Nat.exists_eq_add_of_lt hf
    have := found_sep tr h.trailing.noTok (n + 1) []
    rw [List.append_nil] at this
    rw [show tr.length + n + 1 = n + 1 + tr.length by omega, this, found_nil]
    rfl
  | cons p ps ih =>
    intro tr fuel h hf
    unfold paramsText at hf ⊢
    have hlen : (p.1 ++ (p.2.1 ++ [61] ++ p.2.2 ++ paramsText ps tr)).length = p.1.length + (p.2.1.length + 1 + p.2.2.length + (paramsText ps tr).length) := by simp; omega
    rw [hlen] at hf
    obtain ⟨n, rfl⟩ : ∃ n, fuel = (n + 1) + p.1.length := ⟨fuel - p.1.length - 1, by omega⟩
    rw [found_sep _ (h.seps p (by simp)).noTok, found_take (h.names p (by simp)) (h.values p (by simp)) h.ends, ih tr n h.tail (by omega)]
    rfl

theorem tok_ends {s : Str} (h : IsTok s) : (∃ c r, s = c :: r ∧ isSpace c = false) ∧ ∃ p c, s = p ++ [c] ∧ isSpace c = false := by
  constructor
  · cases s with
    | nil => exact absurd rfl h.1
    | cons c r => exact ⟨c, r, rfl, (space_not_tchar c (h.2 c (by simp))).1⟩
  · have e := List.dropLast_concat_getLast h.1
    exact ⟨_, _, e.symm, (space_not_tchar _ (h.2 _ (List.getLast_mem h.1))).1⟩

theorem strip_id {s : Str} (h1 : ∃ c r, s = c :: r ∧ isSpace c = false) (h2 : ∃ p c, s = p ++ [c] ∧ isSpace c = false) : strip s = s := by
  obtain ⟨c, r, e, hc⟩ := h1
  obtain ⟨p, d, e2, hd⟩ := h2
  unfold strip rstrip lstrip
  rw [e, List.dropWhile_cons, if_neg (by simp [hc]), ← e, e2]
  simp [hd]

theorem piece_strip {k v : Str} (hk : IsTok k) (hv : IsTok v ∨ IsQuoted v) : strip (k ++ [61] ++ v) = k ++ [61] ++ v := by
  obtain ⟨c, r, e, hc⟩ := (tok_ends hk).1
  apply strip_id
  · exact ⟨c, r ++ [61] ++ v, by rw [e]; simp, hc⟩
  · rcases hv with hv | ⟨b, rfl, _⟩
    · obtain ⟨p, d, e, hd⟩ := (tok_ends hv).2
      exact ⟨k ++ [61] ++ p, d, by rw [e]; simp, hd⟩
    · exact ⟨k ++ [61] ++ ([34] ++ b), 34, by simp, by decide⟩

/-- **C50** (splitting) the parameters of a text are found -/
theorem split_params (ps : List Piece) (tr : Str) (h : GoodPieces ps tr) :
    splitString (paramsText ps tr) rfc9110.parameter (delimRE 59) = ps.map fun p => p.2.1 ++ [61] ++ p.2.2 := by
  unfold splitString
  split
  · rename_i he
    rw [List.isEmpty_iff] at he
    have := found_params ps tr 1 h (by rw [he]; simp)
    rw [he, found_nil] at this
    exact this
  · have := found_params ps tr _ h (Nat.lt_succ_self _)
    unfold found at this
    rw [this, List.map_map]
    apply List.map_congr_left
    intro p hp
    exact piece_strip (h.names p hp) (h.values p hp)

/-! ### what is found, in any text -/

theorem found_are (look : Str → Bool) : ∀ (fuel : Nat) (s : Str), ∀ x ∈ findall false rfc9110.parameter look fuel s, ∃ k v, x = k ++ [61] ++ v ∧ IsTok k ∧ (IsTok v ∨ IsQuoted v) := by
  intro fuel
  induction fuel with
  | zero => intro s x hx; exact absurd hx (by simp [findall])
  | succ n ih =>
    intro s x hx
    unfold findall at hx
    cases h : (rfc9110.parameter.run false s).find? look with
    | none =>
      rw [h] at hx
      cases s with
      | nil => exact absurd hx (by simp)
      | cons c r => exact ih r x hx
    | some t =>
      rw [h] at hx
      obtain ⟨p, e, hp⟩ := (mem_run_iff ..).1 (List.mem_of_find?_eq_some h)
      obtain ⟨k, v, rfl, hk, hv⟩ := (parameter_L _).1 hp
      have hl : t.length < s.length := by rw [e]; simp; omega
      dsimp only at hx
      rw [if_pos hl] at hx
      rcases List.mem_cons.1 hx with hx | hx
      · refine ⟨k, v, ?_, hk, hv⟩
        rw [hx, e]
        have : (k ++ [61] ++ v ++ t).length - t.length = (k ++ [61] ++ v).length := by simp; omega
        rw [this, List.take_left']
        rfl
      · exact ih t x hx

theorem pieces_are (s : Str) (delim : RE) : ∀ x ∈ splitString s rfc9110.parameter delim, ∃ k v, x = k ++ [61] ++ v ∧ IsTok k ∧ (IsTok v ∨ IsQuoted v) := by
  intro x hx
  unfold splitString at hx
  split at hx
  · exact absurd hx (by simp)
  · obtain ⟨y, hy, rfl⟩ := List.mem_map.1 hx
    obtain ⟨k, v, rfl, hk, hv⟩ := found_are _ _ _ y hy
    exact ⟨k, v, piece_strip hk hv, hk, hv⟩

/-! ### one parameter -/

/-- is a parameter with an extended value (`name*=`) one that shouldn't have one? -/
def starForbidden (ns : NoStar) (name : Str) : Bool :=
  match ns with
  | .all => true
  | .none => false
  | .names l => l.contains name.dropLast

/-- an extended value, `charset'language'value`: what is wrong with it, or the value -/
def extendedValue (env : Env) (v : Str) : Except NoteId Str :=
  match splitOn 39 v with
  | [enc, _, x] => if enc = [] then .error .PARAM_STAR_NOCHARSET else if lower enc = str "utf-8" then .ok (env.urlunquote x) else .error .PARAM_STAR_CHARSET
  | _ => .error .PARAM_STAR_ERROR

/-- between the quotes, if it is quoted -/
def unwrapped (v : Str) : Str := if v.head? = some 34 ∧ v.getLast? = some 34 then (v.drop 1).dropLast else v

/-- the notes about a parameter, and its value if it has one -/
def paramOutcome (env : Env) (ns : NoStar) (k v : Str) : List NoteId × Option Str :=
  let single : List NoteId := if v.head? = some 39 ∧ v.getLast? = some 39 then [.PARAM_SINGLE_QUOTED] else []
  if k.getLast? ≠ some 42 then (single, some (unquoteString v))
  else if starForbidden ns (lower k) then (single ++ [.PARAM_STAR_BAD], none)
  else
    let quoted : List NoteId := if v.head? = some 34 ∧ v.getLast? = some 34 then [.PARAM_STAR_QUOTED] else []
    match extendedValue env (unwrapped v) with
    | .ok x => (single ++ quoted, some x)
    | .error n => (single ++ quoted ++ [n], none)

/-- record a value, if there is one -/
def record (d : Dict Val) (k : Str) (v : Option Str) : Dict Val := match v with | some x => dset d k (.str x) | none => d

theorem split1_tok {k v : Str} (hk : IsTok k) : split1 61 (k ++ [61] ++ v) = some (k, v) := by
  have hn : 61 ∉ k := fun h => (space_not_tchar 61 (hk.2 61 h)).2.2.2 rfl
  rw [split1_eq, if_pos (by simp)]
  have e1 : (k ++ [61] ++ v).takeWhile (· != 61) = k := by
    rw [List.append_assoc]
    have : ∀ a : Str, 61 ∉ a → ∀ r, (a ++ ([61] ++ r)).takeWhile (· != 61) = a := by
      intro a
      induction a with
      | nil => intro _ r; rfl
      | cons c a ih =>
        intro h r
        rw [List.cons_append, List.takeWhile_cons, if_pos (by simp; intro e; exact h (by simp [e])), ih (fun h' => h (by simp [h']))]
    exact this k hn v
  have e2 : (k ++ [61] ++ v).dropWhile (· != 61) = 61 :: v := by
    have := List.takeWhile_append_dropWhile (p := (· != 61)) (l := k ++ [61] ++ v)
    rw [e1] at this
    have h2 : k ++ (k ++ [61] ++ v).dropWhile (· != 61) = k ++ (61 :: v) := by rw [this]; simp
    exact List.append_cancel_left h2
  rw [e1, e2]
  rfl

theorem value_ne_nil {v : Str} (hv : IsTok v ∨ IsQuoted v) : v ≠ [] := by
  rcases hv with hv | ⟨b, rfl, _⟩
  · exact hv.1
  · simp

theorem if_congr' {α} {c d : Prop} [Decidable c] [Decidable d] {a b : α} (h : c ↔ d) : (if c then a else b) = if d then a else b := by
  by_cases hc : c
  · rw [if_pos hc, if_pos (h.1 hc)]
  · rw [if_neg hc, if_neg (fun hd => hc (h.2 hd))]

/-- the outcome of an extended value -/
def starOutcome (env : Env) (v : Str) : List NoteId × Option Str :=
  match extendedValue env (unwrapped v) with
  | .ok x => ([], some x)
  | .error n => ([n], none)

theorem Does.seqApp {β} {x : W Unit} {k : W β} {s cs ds b} (hx : Does x s cs ()) (hf : ∃ es, ds = cs ++ es ∧ Does k s es b) : Does (do x; k) s ds b := by
  obtain ⟨es, rfl, h⟩ := hf
  exact Does.seq hx h

theorem param_step (env : Env) (add : AddNote) (ns : NoStar) (d : Dict Val) {k v : Str} (hk : IsTok k) (hv : IsTok v ∨ IsQuoted v) :
    Does (parseParam env add ns d (k ++ [61] ++ v)) add.subject
      ((if dhas d (lower k) then [.PARAM_REPEATS] else []) ++ (paramOutcome env ns k v).1) (record d (lower k) (paramOutcome env ns k v).2) := by
  unfold parseParam
  rw [split1_tok hk]
  dsimp only
  refine Does.seq (Does.when (Does.add1 _ _ _)) ?_
  obtain ⟨c, r, rfl⟩ : ∃ c r, v = c :: r := by
    cases v with
    | nil => exact absurd rfl (value_ne_nil hv)
    | cons c r => exact ⟨c, r, rfl⟩
  obtain ⟨p, l, hkl, _⟩ := (tok_ends hk).2
  have hlast : k.getLast? = some l := by rw [hkl]; simp
  rw [hlast]
  dsimp only
  have single : Does (W.when (decide (c = 39) && decide ((c :: r).getLast? = some 39)) (add.add .PARAM_SINGLE_QUOTED [(str "param", .str (lower k)), (str "param_val", .str (c :: r)),
      (str "param_val_unquoted", .str (((c :: r).drop 1).dropLast))])) add.subject
      (if (c :: r).head? = some 39 ∧ (c :: r).getLast? = some 39 then [.PARAM_SINGLE_QUOTED] else []) () := by
    refine (Does.when (Does.add1 _ _ _)).congr ?_
    simp
  unfold paramOutcome
  rw [hlast]
  dsimp only
  generalize (if (c :: r).head? = some 39 ∧ (c :: r).getLast? = some 39 then [NoteId.PARAM_SINGLE_QUOTED] else []) = sg at *
  refine Does.seqApp single ?_
  by_cases hl : l = 42
  · rw [if_pos hl, if_neg (c := some l ≠ some 42) (by simp [hl])]
    have e : ∀ q : List NoteId, (match extendedValue env (unwrapped (c :: r)) with
        | .ok x => (sg ++ q, some x)
        | .error n => (sg ++ q ++ [n], none)) = (sg ++ (q ++ (starOutcome env (c :: r)).1), (starOutcome env (c :: r)).2) := by
      intro q
      unfold starOutcome
      cases extendedValue env (unwrapped (c :: r)) <;> simp
    rw [e]
    show ∃ es, _ = sg ++ es ∧ Does (if starForbidden ns (lower k) = true then _ else _) _ es _
    cases hb : starForbidden ns (lower k) with
    | true =>
      rw [if_pos rfl, if_pos rfl]
      exact ⟨[.PARAM_STAR_BAD], rfl, Does.add (Does.pure _ _)⟩
    | false =>
      rw [if_neg (c := false = true) (by decide), if_neg (c := false = true) (by decide)]
      refine ⟨_, rfl, ?_⟩
      have hq : (decide (c = 34) && decide ((c :: r).getLast? = some 34)) = true ↔ (c :: r).head? = some 34 ∧ (c :: r).getLast? = some 34 := by simp
      refine Does.seq ((Does.when (Does.add1 _ _ _)).congr (if_congr' hq)) ?_
      have hu : (if (decide (c = 34) && decide ((c :: r).getLast? = some 34)) = true then ((c :: r).drop 1).dropLast else (c :: r)) = unwrapped (c :: r) := if_congr' hq
      dsimp only
      rw [hu]
      unfold starOutcome extendedValue split3
      generalize splitOn 39 (unwrapped (c :: r)) = xs
      match xs with
      | [] => exact Does.add (Does.pure _ _)
      | [_] => exact Does.add (Does.pure _ _)
      | [_, _] => exact Does.add (Does.pure _ _)
      | _ :: _ :: _ :: _ :: _ => exact Does.add (Does.pure _ _)
      | [enc, _, x] =>
        dsimp only
        by_cases he : enc = []
        · rw [if_pos (show lower enc = [] by rw [he]; rfl), if_pos he]
          exact Does.add (Does.pure _ _)
        · rw [if_neg (show ¬ lower enc = [] from fun h => he (lower_ne_nil.1 h)), if_neg he]
          by_cases hu : lower enc = str "utf-8"
          · rw [if_neg (by simp [hu]), if_pos hu]
            exact Does.pure _ _
          · rw [if_pos hu, if_neg hu]
            exact Does.add (Does.pure _ _)
  · rw [if_neg hl, if_pos (c := some l ≠ some 42) (by simp [hl])]
    exact ⟨[], by simp, Does.pure _ _⟩

/-! ### all of them -/

/-- the parameters that count: lower-case name and value -/
def valued (env : Env) (ns : NoStar) (ps : List (Str × Str)) : Dict Str :=
  ps.filterMap fun p => (paramOutcome env ns p.1 p.2).2.map fun x => (lower p.1, x)

/-- the notes about a list of parameters: `PARAM_REPEATS` where an earlier one with the same name has a value -/
def pieceNotes (env : Env) (ns : NoStar) (before : List (Str × Str)) (p : Str × Str) : List NoteId :=
  (if lower p.1 ∈ (valued env ns before).map (·.1) then [.PARAM_REPEATS] else []) ++ (paramOutcome env ns p.1 p.2).1

theorem valued_snoc (env ns) (pre : List (Str × Str)) (k v : Str) (d : Dict Val) (h : d = (valued env ns pre).foldl (fun d p => dset d p.1 (.str p.2)) []) :
    record d (lower k) (paramOutcome env ns k v).2 = (valued env ns (pre ++ [(k, v)])).foldl (fun d p => dset d p.1 (.str p.2)) [] := by
  unfold valued at h ⊢
  rw [List.filterMap_append, List.foldl_append, ← h]
  simp only [List.filterMap_cons, List.filterMap_nil]
  cases (paramOutcome env ns k v).2 <;> rfl

theorem dhas_fold (l : Dict Str) (n : Str) : dhas (l.foldl (fun d p => dset d p.1 (Val.str p.2)) []) n = true ↔ n ∈ l.map (·.1) := by
  have e : l.foldl (fun d p => dset d p.1 (Val.str p.2)) [] = (l.map fun p => (p.1, Val.str p.2)).foldl (fun d p => dset d p.1 p.2) [] := by
    rw [List.foldl_map]
  rw [e, ← dget_isSome, dget_last]
  have : ∀ x : List Val, x.getLast?.isSome = true ↔ x ≠ [] := by intro x; cases x <;> simp
  rw [this]
  simp only [ne_eq, List.filterMap_eq_nil_iff, List.mem_map]
  constructor
  · intro h
    refine Classical.byContradiction fun hn => h ?_
    rintro a ⟨b, hb, rfl⟩
    rw [if_neg]
    intro e
    exact hn ⟨b, hb, e⟩
  · rintro ⟨b, hb, rfl⟩ h
    have := h (b.1, .str b.2) ⟨b, hb, rfl⟩
    simp at this

theorem loop_does (env : Env) (add : AddNote) (ns : NoStar) : ∀ (ps pre : List (Str × Str)) (d : Dict Val),
    (∀ p ∈ ps, IsTok p.1 ∧ (IsTok p.2 ∨ IsQuoted p.2)) → d = (valued env ns pre).foldl (fun d p => dset d p.1 (.str p.2)) [] →
    Does (parseParamsLoop env add ns d (ps.map fun p => p.1 ++ [61] ++ p.2)) add.subject
      (ps.zipIdx.flatMap fun p => pieceNotes env ns (pre ++ ps.take p.2) p.1)
      ((valued env ns (pre ++ ps)).foldl (fun d p => dset d p.1 (.str p.2)) []) := by
  intro ps
  induction ps with
  | nil => intro pre d _ hd; rw [List.append_nil, ← hd]; exact Does.pure _ _
  | cons p ps ih =>
    intro pre d hp hd
    rw [List.map_cons, parseParamsLoop, zipIdx_flatMap_cons (pieceNotes env ns) pre p ps]
    refine Does.bind ((param_step env add ns d (hp p (by simp)).1 (hp p (by simp)).2).congr ?_) ?_
    · unfold pieceNotes
      congr 1
      apply if_congr'
      rw [hd]
      exact dhas_fold _ _
    · have := ih (pre ++ [p]) _ (fun q hq => hp q (by simp [hq])) (valued_snoc env ns pre p.1 p.2 d hd)
      rw [List.append_assoc] at this
      exact this

/-- **C50** (no exceptions) whatever the text, the delimiter and the names that may not have a `*`, `parse_params` returns
normally. -/
theorem C50_total (env : Env) (add : AddNote) (s : Str) (ns : NoStar) (delim : Nat) : ∃ d, (parseParams env add s ns delim).res = .ok d := by
  have h : ∀ xs : List Str, (∀ x ∈ xs, ∃ k v, x = k ++ [61] ++ v ∧ IsTok k ∧ (IsTok v ∨ IsQuoted v)) →
      ∃ ps : List (Str × Str), xs = ps.map (fun p => p.1 ++ [61] ++ p.2) ∧ ∀ p ∈ ps, IsTok p.1 ∧ (IsTok p.2 ∨ IsQuoted p.2) := by
    intro xs
    induction xs with
    | nil => intro _; exact ⟨[], rfl, by intro p hp; cases hp⟩
    | cons x xs ih =>
      intro h
      obtain ⟨ps, rfl, hps⟩ := ih fun y hy => h y (by simp [hy])
      obtain ⟨k, v, rfl, hk, hv⟩ := h x (by simp)
      refine ⟨(k, v) :: ps, rfl, ?_⟩
      intro p hp
      rcases List.mem_cons.1 hp with rfl | hp
      · exact ⟨hk, hv⟩
      · exact hps p hp
  obtain ⟨ps, e, hps⟩ := h _ (pieces_are s (delimRE delim))
  unfold parseParams
  rw [e]
  exact ⟨_, (loop_does env add ns ps [] [] hps rfl).res⟩

/-- **C50** parameters separated by semicolons, white space and empty parameters, in order: the notes about each (all on the
subject passed), and the dictionary. -/
theorem C50_params (env : Env) (add : AddNote) (ns : NoStar) (ps : List Piece) (tr : Str) (h : GoodPieces ps tr) :
    ∃ d, Does (parseParams env add (paramsText ps tr) ns) add.subject
        ((ps.map (·.2)).zipIdx.flatMap fun p => pieceNotes env ns ((ps.map (·.2)).take p.2) p.1) d ∧
      ∀ n, dget d n = (((valued env ns (ps.map (·.2))).filterMap fun p => if p.1 = n then some p.2 else none).getLast?).map Val.str := by
  refine ⟨(valued env ns ([] ++ ps.map (·.2))).foldl (fun d p => dset d p.1 (.str p.2)) [], ?_, ?_⟩
  · unfold parseParams
    rw [split_params ps tr h]
    have := loop_does env add ns (ps.map (·.2)) [] [] (by
      intro p hp
      obtain ⟨q, hq, rfl⟩ := List.mem_map.1 hp
      exact ⟨h.names q hq, h.values q hq⟩) rfl
    rw [List.map_map] at this
    exact this
  · intro n
    rw [List.nil_append]
    generalize valued env ns (ps.map (·.2)) = l
    have e : l.foldl (fun d p => dset d p.1 (Val.str p.2)) [] = (l.map fun p => (p.1, Val.str p.2)).foldl (fun d p => dset d p.1 p.2) [] := by
      rw [List.foldl_map]
    rw [e, dget_last, ← List.getLast?_map, List.filterMap_map, List.map_filterMap]
    congr 2
    funext p
    simp only [Function.comp]
    split <;> rfl

/-! ### ordinary parameters -/

/-- what a value stands for: itself, or what is quoted -/
def Means (v x : Str) : Prop := (IsTok v ∧ x = v) ∨ ∃ q, v = [34] ++ q ++ [34] ∧ QuotedBody q ∧ Quoted q x

theorem quotable_ne_nl : ∀ c, isQuotable c = true → c ≠ 10 := by
  intro c h e
  rw [e] at h
  exact absurd h (by decide)

theorem body_means {q : Str} (h : QuotedBody q) : ∃ x, Quoted q x := by
  induction h with
  | nil => exact ⟨[], .nil⟩
  | @text c q hc _ ih =>
    obtain ⟨x, hx⟩ := ih
    refine ⟨c :: x, .plain c q x ?_ ?_ hx⟩
    · intro e; rw [e] at hc; exact absurd hc (by decide)
    · intro e; rw [e] at hc; exact absurd hc (by decide)
  | @pair c q hc _ ih =>
    obtain ⟨x, hx⟩ := ih
    exact ⟨c :: x, .pair c q x (quotable_ne_nl c hc) hx⟩

theorem unquote_means {v x : Str} (h : Means v x) : unquoteString v = x := by
  rcases h with ⟨h, rfl⟩ | ⟨q, rfl, _, hq⟩
  · have hs : strip x = x := strip_id (tok_ends h).1 (tok_ends h).2
    rw [C49_unquoted, hs]
    rw [hs]
    rintro ⟨h1, _⟩
    cases x with
    | nil => exact nomatch h1
    | cons c r =>
      simp at h1
      have := h.2 c (by simp)
      rw [h1] at this
      exact absurd this (by decide)
  · have := C49_unquote q x [] [] hq (fun _ h => nomatch h) (fun _ h => nomatch h)
    simpa using this

/-- **C50** when no name ends in an asterisk and no value is in apostrophes: the dictionary has the last value of each
name, whatever the case of the name, and `PARAM_REPEATS` is noted exactly once for each parameter whose name was used
before; nothing else is noted. `m p` is what the value of `p` stands for. -/
theorem C50_plain (env : Env) (add : AddNote) (ns : NoStar) (ps : List Piece) (tr : Str) (h : GoodPieces ps tr) (m : Piece → Str)
    (hm : ∀ p ∈ ps, Means p.2.2 (m p)) (hstar : ∀ p ∈ ps, p.2.1.getLast? ≠ some 42) (hsingle : ∀ p ∈ ps, p.2.2.head? ≠ some 39) :
    ∃ d, Does (parseParams env add (paramsText ps tr) ns) add.subject
        (ps.zipIdx.flatMap fun p => if lower p.1.2.1 ∈ (ps.take p.2).map (fun q => lower q.2.1) then [.PARAM_REPEATS] else []) d ∧
      ∀ n, dget d n = ((ps.filter fun p => lower p.2.1 = n).getLast?).map fun p => .str (m p) := by
  obtain ⟨d, h1, h2⟩ := C50_params env add ns ps tr h
  have ho : ∀ p ∈ ps, paramOutcome env ns p.2.1 p.2.2 = ([], some (m p)) := by
    intro p hp
    unfold paramOutcome
    dsimp only
    rw [if_pos (hstar p hp), if_neg (fun e => hsingle p hp e.1), unquote_means (hm p hp)]
  have hr : ∀ l : List Piece, (∀ p ∈ l, p ∈ ps) → valued env ns (l.map (·.2)) = l.map fun p => (lower p.2.1, m p) := by
    intro l hl
    unfold valued
    induction l with
    | nil => rfl
    | cons p l ih =>
      rw [List.map_cons, List.filterMap_cons, ho p (hl p (by simp)), ih fun q hq => hl q (by simp [hq])]
      rfl
  refine ⟨d, h1.congr ?_, ?_⟩
  · rw [List.zipIdx_map, List.flatMap_map]
    apply flatMap_congr_mem
    rintro ⟨p, i⟩ hp
    have hpm : p ∈ ps := by
      have := List.mem_map_of_mem (f := Prod.fst) hp
      rwa [List.zipIdx_map_fst] at this
    show pieceNotes env ns ((ps.map (·.2)).take i) p.2 = _
    unfold pieceNotes
    rw [← List.map_take, hr _ (fun q hq => List.mem_of_mem_take hq), ho p hpm, List.append_nil, List.map_map]
    apply if_congr'
    rfl
  · intro n
    rw [h2, hr ps fun p hp => hp, ← List.getLast?_map, ← List.getLast?_map, List.filterMap_map]
    congr 1
    clear h h1 h2 hm hstar hsingle ho hr
    induction ps with
    | nil => rfl
    | cons p ps ih =>
      by_cases hn : lower p.2.1 = n
      · rw [List.filter_cons_of_pos (by simp [hn]), List.map_cons, ← ih]
        simp [hn]
      · rw [List.filter_cons_of_neg (by simp [hn]), ← ih]
        simp [hn]

/-- `a=1 ; A="x\"y";;b=2 `, as an instance of `C50_plain` -/
example : let ps : List Piece := [([], str "a", str "1"), (str " ; ", str "A", str "\"x\\\"y\""), (str ";;", str "b", str "2")]
    GoodPieces ps (str " ") ∧ paramsText ps (str " ") = str "a=1 ; A=\"x\\\"y\";;b=2 " ∧ Means (str "\"x\\\"y\"") (str "x\"y") := by
  have t : ∀ s : Str, (s ≠ [] ∧ s.all isTchar = true) → IsTok s := fun s h => ⟨h.1, fun c hc => List.all_eq_true.1 h.2 c hc⟩
  have q : IsQuoted (str "\"x\\\"y\"") := ⟨str "x\\\"y", rfl, .text (by decide) (.pair (by decide) (.text (by decide) .nil))⟩
  refine ⟨⟨?_, ?_, ?_, ?_, ?_⟩, rfl, .inr ⟨str "x\\\"y", rfl, .text (by decide) (.pair (by decide) (.text (by decide) .nil)), ?_⟩⟩
  · intro p hp
    apply t
    revert p; decide
  · intro p hp
    simp only [List.mem_cons, List.not_mem_nil, or_false] at hp
    rcases hp with rfl | rfl | rfl
    · exact .inl (t _ (by decide))
    · exact .inr q
    · exact .inl (t _ (by decide))
  · unfold IsSep; decide
  · decide
  · unfold IsSep; decide
  · exact .plain _ _ _ (by decide) (by decide) (.pair _ _ _ (by decide) (.plain _ _ _ (by decide) (by decide) .nil))

/-- extended values, forbidden ones and apostrophes -/
example : (paramOutcome toyEnv .none (str "f*") (str "UTF-8''a")).1 = [] ∧ (paramOutcome toyEnv .none (str "f*") (str "UTF-8'a")).1 = [NoteId.PARAM_STAR_ERROR] ∧
    (paramOutcome toyEnv .none (str "f*") (str "''a")).1 = [NoteId.PARAM_STAR_NOCHARSET] ∧
    (paramOutcome toyEnv .none (str "f*") (str "\"latin-1''a\"")).1 = [NoteId.PARAM_STAR_QUOTED, NoteId.PARAM_STAR_CHARSET] ∧
    (paramOutcome toyEnv (.names [str "q"]) (str "Q*") (str "''a'")).1 = [NoteId.PARAM_SINGLE_QUOTED, NoteId.PARAM_STAR_BAD] := by decide +kernel

end HL.Props
