import Verif.Props.Grammar
import Verif.Props.Toy

/-!
# Grammars compared with their RFCs (C69, C70, C71)
-/

namespace HL.Props
open HL.RE HL.Syntax

/-! ### C71: token and quoted-string -/

/-- **C71** a `token` is one or more of RFC 9110's `tchar` -/
theorem C71_token (s : Str) : rfc9110.token.L true s ↔ s ≠ [] ∧ ∀ c ∈ s, isTchar c = true := token_L s

/-- RFC 9110 5.6.4: `qdtext = HTAB / SP / %x21 / %x23-5B / %x5D-7E / obs-text` -/
def isQdtext (c : Nat) : Bool := c == 9 || c == 32 || c == 33 || (35 ≤ c && c ≤ 91) || (93 ≤ c && c ≤ 126) || (128 ≤ c && c ≤ 255)

/-- RFC 9110 5.6.4: what may follow `\`: `HTAB / SP / VCHAR / obs-text` -/
def isQuotable (c : Nat) : Bool := c == 9 || c == 32 || (33 ≤ c && c ≤ 126) || (128 ≤ c && c ≤ 255)

/-- what may be between the quotes: `*( qdtext / quoted-pair )` -/
inductive QuotedBody : Str → Prop
  | nil : QuotedBody []
  | text {c s} : isQdtext c = true → QuotedBody s → QuotedBody (c :: s)
  | pair {c s} : isQuotable c = true → QuotedBody s → QuotedBody (92 :: c :: s)

theorem big_variants {c : Nat} (h : ¬ c < 256) : caseVariants c = [c] := by
  unfold caseVariants
  rw [if_neg, if_neg] <;> simp <;> omega

theorem qdtext_one (ic : Bool) : ∃ p, RE.one ic rfc9110.qdtext = some p ∧ ∀ c, p c = isQdtext c := by
  refine ⟨_, rfl, ?_⟩
  intro c
  by_cases h : c < 256
  · revert c; cases ic <;> decide +kernel
  · have e : ∀ a b : Nat, b < 256 → (decide (a ≤ c) && decide (c ≤ b)) = false := by intro a b hb; simp; omega
    have e2 : ∀ a : Nat, a < 256 → (c == a) = false := by intro a ha; simp; omega
    cases ic <;> simp [csetHas, big_variants h, inRanges, isQdtext, e, e2]

theorem quotable_one (ic : Bool) : ∃ p, RE.one ic (alts [rfc5234.HTAB, rfc5234.SP, rfc5234.VCHAR, rfc9110.obs_text]) = some p ∧ ∀ c, p c = isQuotable c := by
  refine ⟨_, rfl, ?_⟩
  intro c
  by_cases h : c < 256
  · revert c; cases ic <;> decide +kernel
  · have e : ∀ a b : Nat, b < 256 → (decide (a ≤ c) && decide (c ≤ b)) = false := by intro a b hb; simp; omega
    have e2 : ∀ a : Nat, a < 256 → (c == a) = false := by intro a ha; simp; omega
    cases ic <;> simp [csetHas, big_variants h, inRanges, isQuotable, e, e2]

theorem ch_L (n : Nat) (hn : caseVariants n = [n]) (hn2 : ∀ c, n ∈ caseVariants c → c = n) (ic : Bool) (s : Str) : (ch n).L ic s ↔ s = [n] := by
  cases ic
  · unfold ch cls
    simp only [RE.L, csetHas, inRanges]
    constructor
    · rintro ⟨c, rfl, h⟩
      simp at h
      have : c = n := by omega
      rw [this]
    · rintro rfl
      exact ⟨n, rfl, by simp⟩
  unfold ch cls
  simp only [RE.L, csetHas, inRanges]
  constructor
  · rintro ⟨c, rfl, h⟩
    have : c = n := by
      apply hn2
      rw [if_pos trivial, Bool.bne_false, List.any_eq_true] at h
      obtain ⟨x, hx, hx2⟩ := h
      unfold inRanges at hx2
      simp at hx2
      have : x = n := by omega
      exact this ▸ hx
    rw [this]
  · rintro rfl
    exact ⟨n, rfl, by simp [hn, inRanges]⟩

theorem variants_plain {n : Nat} (h : n < 65) (c : Nat) (hc : n ∈ caseVariants c) : c = n := by
  unfold caseVariants at hc
  split at hc
  · rename_i h1
    simp at hc h1
    omega
  · split at hc
    · rename_i h1
      simp at hc h1
      omega
    · exact (List.mem_singleton.1 hc).symm

theorem quotedPair_L (ic : Bool) (s : Str) : rfc9110.quoted_pair.L ic s ↔ ∃ c, s = [92, c] ∧ isQuotable c = true := by
  obtain ⟨p, hp, he⟩ := quotable_one ic
  have hb : ∀ s, (ch 92).L ic s ↔ s = [92] := ch_L 92 (by decide) (by
    intro c hc
    unfold caseVariants at hc
    split at hc
    · rename_i h1; simp at hc h1; omega
    · split at hc
      · rename_i h1; simp at hc h1; omega
      · exact (List.mem_singleton.1 hc).symm) ic
  unfold rfc9110.quoted_pair
  show (∃ s₁ s₂, s = s₁ ++ s₂ ∧ (ch 92).L ic s₁ ∧ (alts [rfc5234.HTAB, rfc5234.SP, rfc5234.VCHAR, rfc9110.obs_text]).L ic s₂) ↔ _
  simp only [hb, one_L hp, he]
  constructor
  · rintro ⟨_, _, rfl, rfl, c, rfl, hc⟩; exact ⟨c, rfl, hc⟩
  · rintro ⟨c, rfl, hc⟩; exact ⟨[92], [c], rfl, rfl, c, rfl, hc⟩

theorem quotedBody_L (ic : Bool) (s : Str) : (star (alts [rfc9110.qdtext, rfc9110.quoted_pair])).L ic s ↔ QuotedBody s := by
  obtain ⟨p, hp, he⟩ := qdtext_one ic
  have e : ∀ q, (alts [rfc9110.qdtext, rfc9110.quoted_pair]).L ic q ↔ (∃ c, q = [c] ∧ isQdtext c = true) ∨ ∃ c, q = [92, c] ∧ isQuotable c = true := by
    intro q
    show rfc9110.qdtext.L ic q ∨ rfc9110.quoted_pair.L ic q ↔ _
    rw [one_L hp, quotedPair_L]
    simp only [he]
  unfold star
  simp only [RE.L, e]
  constructor
  · rintro ⟨ps, rfl, -, -, hps⟩
    induction ps with
    | nil => exact .nil
    | cons q qs ih =>
      have := ih fun x hx => hps x (by simp [hx])
      rcases hps q (by simp) with ⟨c, rfl, hc⟩ | ⟨c, rfl, hc⟩
      · exact .text hc this
      · exact .pair hc this
  · intro h
    induction h with
    | nil => exact ⟨[], rfl, by simp, by simp, by simp⟩
    | @text c s hc _ ih =>
      obtain ⟨ps, rfl, _, _, hps⟩ := ih
      refine ⟨[c] :: ps, rfl, by simp, by simp, ?_⟩
      intro q hq
      rcases List.mem_cons.1 hq with rfl | hq
      · exact .inl ⟨c, rfl, hc⟩
      · exact hps q hq
    | @pair c s hc _ ih =>
      obtain ⟨ps, rfl, _, _, hps⟩ := ih
      refine ⟨[92, c] :: ps, rfl, by simp, by simp, ?_⟩
      intro q hq
      rcases List.mem_cons.1 hq with rfl | hq
      · exact .inr ⟨c, rfl, hc⟩
      · exact hps q hq

theorem quotedString_L (ic : Bool) (s : Str) : rfc9110.quoted_string.L ic s ↔ ∃ b, s = [34] ++ b ++ [34] ∧ QuotedBody b := by
  have hq : ∀ s, (ch 34).L ic s ↔ s = [34] := ch_L 34 (by decide) (variants_plain (by decide)) ic
  unfold rfc9110.quoted_string
  show (∃ s₁ s₂, s = s₁ ++ s₂ ∧ (ch 34).L ic s₁ ∧ ∃ s₃ s₄, s₂ = s₃ ++ s₄ ∧ (star (alts [rfc9110.qdtext, rfc9110.quoted_pair])).L ic s₃ ∧ (ch 34).L ic s₄) ↔ _
  simp only [hq, quotedBody_L]
  constructor
  · rintro ⟨_, _, rfl, rfl, b, _, rfl, hb, rfl⟩; exact ⟨b, by simp, hb⟩
  · rintro ⟨b, rfl, hb⟩; exact ⟨[34], b ++ [34], by simp, rfl, b, [34], rfl, hb, rfl⟩

/-- **C71** a `quoted-string` is a quoted body between double quotes -/
theorem C71_quoted_string (s : Str) : rfc9110.quoted_string.L true s ↔ ∃ b, s = [34] ++ b ++ [34] ∧ QuotedBody b := quotedString_L true s

/-- the same, where case isn't ignored -/
theorem token_L_sens (s : Str) : rfc9110.token.L false s ↔ s ≠ [] ∧ ∀ c ∈ s, isTchar c = true := by
  have h : ∃ p, RE.one false rfc9110.tchar = some p ∧ ∀ c, p c = isTchar c := by
    refine ⟨_, rfl, ?_⟩
    intro c
    by_cases h : c < 256
    · revert c; decide +kernel
    · have e : ∀ a b : Nat, b < 256 → (decide (a ≤ c) && decide (c ≤ b)) = false := by intro a b hb; simp; omega
      have : isTchar c = false := by
        unfold isTchar
        have : (str "!#$%&'*+-.^_`|~").contains c = false := by
          rw [← Bool.not_eq_true, List.contains_iff_mem]
          intro hm
          have : ∀ x ∈ str "!#$%&'*+-.^_`|~", x < 256 := by decide
          exact h (this c hm)
        rw [this]
        simp; omega
      rw [this]
      simp [csetHas, inRanges, e]
  obtain ⟨p, hp, he⟩ := h
  unfold rfc9110.token RE.plus
  rw [rep_one_L hp]
  simp only [he, Nat.succ_le_iff, Nat.zero_add, List.length_pos_iff]

/-- non-vacuity: a quote inside has to be escaped -/
example : QuotedBody (str "a \\\" b") ∧ ¬ rfc9110.quoted_string.L true (str "\"a\"b\"") := by
  refine ⟨.text rfl (.text rfl (.pair rfl (.text rfl (.text rfl .nil)))), fun h => ?_⟩
  have h2 := (mem_run_iff true rfc9110.quoted_string (str "\"a\"b\"") []).2 ⟨_, by simp, h⟩
  revert h2; decide +kernel

/-! ### languages of expressions -/

/-- everything in the one is in the other -/
def Sub (r r' : RE) : Prop := ∀ s, r.L true s → r'.L true s

theorem Sub.refl (r : RE) : Sub r r := fun _ h => h
theorem Sub.seq {a b a' b'} (ha : Sub a a') (hb : Sub b b') : Sub (.seq a b) (.seq a' b') := by
  rintro s ⟨s₁, s₂, e, h1, h2⟩; exact ⟨s₁, s₂, e, ha _ h1, hb _ h2⟩
theorem Sub.alt {a b a' b'} (ha : Sub a a') (hb : Sub b b') : Sub (.alt a b) (.alt a' b') := by
  rintro s (h | h)
  · exact .inl (ha _ h)
  · exact .inr (hb _ h)
theorem Sub.rep {lo hi l l' r r'} (h : Sub r r') : Sub (.rep lo hi l r) (.rep lo hi l' r') := by
  rintro s ⟨ps, e, h1, h2, h3⟩; exact ⟨ps, e, h1, h2, fun p hp => h _ (h3 p hp)⟩

/-- an expression that matches nothing -/
def nothing : RE := .cset false []
theorem nothing_L (s : Str) : ¬ nothing.L true s := by
  rintro ⟨c, _, h⟩
  simp [csetHas, inRanges] at h
theorem Sub.nothing (r : RE) : Sub nothing r := fun s h => absurd h (nothing_L s)

/-- whether a string is in a language, by the matcher -/
theorem L_iff_run (r : RE) (s : Str) : r.L true s ↔ [] ∈ r.run true s := by
  rw [mem_run_iff]; simp

/-! ### C70: URI references -/

section
open rfc3986

/-- RFC 3986 appendix A, except that `userinfo`, `IPv6address` and `path-empty` are left open -/
def uriHost (ipv6 : RE) : RE := alts [seqs [ch 91, alts [ipv6, IPvFuture], ch 93], IPv4address, reg_name]
/-- `hier-part` -/
def hierPart (userinfo ipv6 pathEmpty : RE) : RE :=
  alts [seqs [lit (str "//"), opt (seqs [userinfo, ch 64]), uriHost ipv6, opt (seqs [ch 58, port]), path_abempty], path_absolute, path_rootless, pathEmpty]
/-- `relative-part` -/
def relativePart (userinfo ipv6 pathEmpty : RE) : RE :=
  alts [seqs [lit (str "//"), opt (seqs [userinfo, ch 64]), uriHost ipv6, opt (seqs [ch 58, port]), path_abempty], path_absolute, path_noscheme, pathEmpty]
/-- `URI-reference` -/
def uriReference (userinfo ipv6 pathEmpty : RE) : RE :=
  alt (seqs [rfc5234.ALPHA, star (alts [rfc5234.ALPHA, rfc5234.DIGIT, ch 43, ch 45, ch 46]), ch 58, hierPart userinfo ipv6 pathEmpty,
      opt (seqs [ch 63, query]), opt (seqs [ch 35, query])])
    (seqs [relativePart userinfo ipv6 pathEmpty, opt (seqs [ch 63, query]), opt (seqs [ch 35, query])])

/-- a character of `userinfo` -/
def userinfoChar : RE := alts [unreserved, pct_encoded, sub_delims, ch 58]
/-- `h16 ":"` -/
def h16c : RE := seqs [h16, ch 58]
/-- `[ *n( h16 ":" ) h16 ]` -/
def upTo (n : Nat) : RE := opt (seqs [RE.rep 0 (some n) false h16c, h16])
/-- RFC 3986: `IPv6address` -/
def rfcIPv6 : RE := alts [
  seqs [RE.rep 6 (some 6) false h16c, ls32],
  seqs [lit (str "::"), RE.rep 5 (some 5) false h16c, ls32],
  seqs [opt h16, lit (str "::"), RE.rep 4 (some 4) false h16c, ls32],
  seqs [upTo 1, lit (str "::"), RE.rep 3 (some 3) false h16c, ls32],
  seqs [upTo 2, lit (str "::"), RE.rep 2 (some 2) false h16c, ls32],
  seqs [upTo 3, lit (str "::"), h16, ch 58, ls32],
  seqs [upTo 4, lit (str "::"), ls32],
  seqs [upTo 5, lit (str "::"), h16],
  seqs [upTo 6, lit (str "::")]]
/-- RFC 3986: `userinfo = *( unreserved / pct-encoded / sub-delims / ":" )`, `path-empty = 0<pchar>` -/
def rfcUriReference : RE := uriReference (star userinfoChar) rfcIPv6 eps

theorem uriReference_mono {u u' i i' p p'} (hu : Sub u u') (hi : Sub i i') (hp : Sub p p') : Sub (uriReference u i p) (uriReference u' i' p') := by
  have hh : Sub (uriHost i) (uriHost i') := Sub.alt (Sub.seq (Sub.refl _) (Sub.seq (Sub.alt hi (Sub.refl _)) (Sub.refl _))) (Sub.refl _)
  have ha : Sub (seqs [lit (str "//"), opt (seqs [u, ch 64]), uriHost i, opt (seqs [ch 58, port]), path_abempty])
      (seqs [lit (str "//"), opt (seqs [u', ch 64]), uriHost i', opt (seqs [ch 58, port]), path_abempty]) :=
    Sub.seq (Sub.refl _) (Sub.seq (Sub.rep (Sub.seq hu (Sub.refl _))) (Sub.seq hh (Sub.refl _)))
  have hh : Sub (hierPart u i p) (hierPart u' i' p') := Sub.alt ha (Sub.alt (Sub.refl _) (Sub.alt (Sub.refl _) hp))
  have hr : Sub (relativePart u i p) (relativePart u' i' p') := Sub.alt ha (Sub.alt (Sub.refl _) (Sub.alt (Sub.refl _) hp))
  exact Sub.alt (Sub.seq (Sub.refl _) (Sub.seq (Sub.refl _) (Sub.seq (Sub.refl _) (Sub.seq hh (Sub.refl _))))) (Sub.seq hr (Sub.refl _))

/-- the grammar the linter uses differs from RFC 3986's in these three rules only -/
theorem C70_differences : URI_reference = uriReference userinfoChar IPv6address (seqs [pchar, ch 48]) ∧
    rfcUriReference = uriReference (star userinfoChar) rfcIPv6 eps := ⟨rfl, rfl⟩

theorem group_upTo {n : Nat} {k : RE} : Sub (.seq (RE.rep n (some n) false h16c) (.seq h16 k)) (.seq (upTo n) k) := by
  rintro s ⟨a, _, rfl, ⟨ps, hps, h1, h2, h3⟩, b, c, rfl, hb, hc⟩
  refine ⟨a ++ b, c, by simp, ?_, hc⟩
  refine ⟨[a ++ b], by simp, by simp, by simp, ?_⟩
  intro q hq
  rw [List.mem_singleton.1 hq]
  exact ⟨a, b, rfl, ⟨ps, hps, by simp, h2, h3⟩, hb⟩

theorem group_one {k : RE} : Sub (.seq h16c (.seq h16 k)) (.seq (upTo 1) k) := by
  rintro s ⟨a, _, rfl, ha, b, c, rfl, hb, hc⟩
  refine ⟨a ++ b, c, by simp, ?_, hc⟩
  refine ⟨[a ++ b], by simp, by simp, by simp, ?_⟩
  intro q hq
  rw [List.mem_singleton.1 hq]
  exact ⟨a, b, rfl, ⟨[a], by simp, by simp, by simp, by simpa using ha⟩, hb⟩

/-- the addresses the linter knows are IPv6 addresses -/
theorem ipv6_sub : Sub IPv6address rfcIPv6 := by
  refine Sub.alt (Sub.refl _) (Sub.alt (Sub.refl _) (Sub.alt (Sub.seq ?_ (Sub.refl _)) (Sub.alt group_one (Sub.alt group_upTo (Sub.alt group_upTo
    (Sub.alt group_upTo (Sub.alt group_upTo group_upTo)))))))
  intro s h
  exact ⟨[s], by simp, by simp, by simp, by simpa using h⟩

/-- **C70** every RFC 3986 URI-reference is accepted, if its path isn't empty (or it has an authority), its `userinfo`, if there is
one, is one character (or one pct-encoded one), and its host isn't an IPv6 address or one of those the linter knows.

Partial: the full statement, `rfcUriReference.L true s → URI_reference.L true s`, is false: see `C70_fails`. -/
theorem C70_accepted_partial (s : Str) (h : (uriReference userinfoChar IPv6address nothing).L true s) : URI_reference.L true s ∧ rfcUriReference.L true s := by
  refine ⟨uriReference_mono (Sub.refl _) (Sub.refl _) (Sub.nothing _) s h, uriReference_mono ?_ ipv6_sub (Sub.nothing _) s h⟩
  intro s h
  exact ⟨[s], by simp, by simp, by simp, by simpa using h⟩

/-- **C70** (the failure, in general) no reference that starts with `?` or `#` is accepted; nor is the empty one -/
theorem C70_empty_path_fails (s : Str) : ¬ URI_reference.L true (63 :: s) ∧ ¬ URI_reference.L true (35 :: s) ∧ ¬ URI_reference.L true [] := by
  refine ⟨?_, ?_, ?_⟩
  · rw [L_iff_run]
    have : URI_reference.run true (63 :: s) = [] := rfl
    rw [this]; simp
  · rw [L_iff_run]
    have : URI_reference.run true (35 :: s) = [] := rfl
    rw [this]; simp
  · rw [L_iff_run]
    have : URI_reference.run true [] = [] := rfl
    rw [this]; simp

/-- **C70** witnesses: RFC 3986 references that aren't accepted, and one that is accepted but isn't a reference -/
theorem C70_fails :
    (∀ s ∈ [str "?q", str "#f", [], str "http:", str "http://me:pw@example.com/", str "http://[::1]/"], rfcUriReference.L true s ∧ ¬ URI_reference.L true s) ∧
    URI_reference.L true (str ":0") ∧ ¬ rfcUriReference.L true (str ":0") := by
  simp only [L_iff_run]
  decide +kernel

/-- non-vacuity -/
example : ∀ s ∈ [str "http://example.com/a?b#c", str "/x/../y", str "a/b", str "//u@[1:2:3:4:5:6:7:8]:80/", str "mailto:x@y"],
    (uriReference userinfoChar IPv6address nothing).L true s := by
  simp only [L_iff_run]
  decide +kernel

end

/-! ### C69: language tags -/

section
open rfc5646

/-- RFC 5646 2.1, except that `alphanum` is left open -/
def languageTag (alphanum : RE) : RE :=
  alts [
    seqs [language, opt (seqs [ch 45, script]), opt (seqs [ch 45, region]),
      star (seqs [ch 45, alts [RE.rep 5 (some 8) false alphanum, seqs [rfc5234.DIGIT, RE.rep 3 (some 3) false alphanum]]]),
      star (seqs [ch 45, singleton, plus (seqs [ch 45, RE.rep 2 (some 8) false alphanum])]),
      opt (seqs [lit (str "-x"), plus (seqs [ch 45, RE.rep 1 (some 8) false alphanum])])],
    seqs [ch 120, plus (seqs [ch 45, RE.rep 1 (some 8) false alphanum])],
    grandfathered]

/-- RFC 5646: `alphanum = (ALPHA / DIGIT)` -/
def rfcLanguageTag : RE := languageTag (alts [rfc5234.ALPHA, rfc5234.DIGIT])

/-- the tags without variants, extensions and private use -/
def basicTag : RE := alts [seqs [language, opt (seqs [ch 45, script]), opt (seqs [ch 45, region])], grandfathered]

/-- the grammar the linter uses differs from RFC 5646's in one rule only: `alphanum` is the text `{ALPHA}` or `{DIGIT}` -/
theorem C69_difference : Language_Tag = languageTag (alts [lit (str "{ALPHA}"), lit (str "{DIGIT}")]) ∧
    rfcLanguageTag = languageTag (alts [rfc5234.ALPHA, rfc5234.DIGIT]) := ⟨rfl, rfl⟩

theorem rep_brace {lo hi} (hlo : 0 < lo) {s : Str} (h : (RE.rep lo hi false alphanum).L true s) : 123 ∈ s := by
  obtain ⟨ps, rfl, h1, _, h3⟩ := h
  cases ps with
  | nil => simp at h1; omega
  | cons p ps =>
    have := h3 p (by simp)
    have key : ∀ p, alphanum.L true p → 123 ∈ p := by
      intro p hp
      rw [L_iff_run] at hp
      cases p with
      | nil => exact absurd hp (by decide +kernel)
      | cons c p =>
        by_cases hc : c = 123
        · simp [hc]
        · exfalso
          have e : (ch 123).L true [c] → False := by
            intro h
            have := (ch_L 123 (by decide) (by
              intro c hc
              unfold caseVariants at hc
              split at hc
              · rename_i h1; simp at hc h1; omega
              · split at hc
                · rename_i h1; simp at hc h1; omega
                · exact (List.mem_singleton.1 hc).symm) true [c]).1 h
            exact hc (by simpa using this)
          rw [← L_iff_run] at hp
          rcases hp with ⟨a, b, e1, ⟨d, rfl, hd⟩, _⟩ | ⟨a, b, e1, ⟨d, rfl, hd⟩, _⟩
          all_goals
            have : c = d := by simpa using (List.cons.inj e1).1
            subst this
            exact e ⟨c, rfl, hd⟩
    simp [key p this]

theorem plus_brace {lo hi} (hlo : 0 < lo) {s : Str} (h : (plus (seqs [ch 45, RE.rep lo hi false alphanum])).L true s) : 123 ∈ s := by
  obtain ⟨ps, rfl, h1, _, h3⟩ := h
  cases ps with
  | nil => simp at h1
  | cons p ps =>
    obtain ⟨a, b, e, _, hb⟩ := h3 p (by simp)
    have := rep_brace hlo hb
    simp [e, this]

theorem star_none {r : RE} {s : Str} (h : (star r).L true s) (hn : 123 ∉ s) (hr : ∀ p, r.L true p → 123 ∈ p) : s = [] := by
  obtain ⟨ps, rfl, _, _, h3⟩ := h
  cases ps with
  | nil => rfl
  | cons p ps => exact absurd (hr p (h3 p (by simp))) (by intro h; apply hn; simp [h])

theorem opt_none {r : RE} {s : Str} (h : (opt r).L true s) (hn : 123 ∉ s) (hr : ∀ p, r.L true p → 123 ∈ p) : s = [] := by
  obtain ⟨ps, rfl, _, _, h3⟩ := h
  cases ps with
  | nil => rfl
  | cons p ps => exact absurd (hr p (h3 p (by simp))) (by intro h; apply hn; simp [h])

/-- **C69** of the strings without a brace - in particular, of what RFC 5646 allows - exactly the tags that have no variant, extension
or private use are accepted.

Partial: the full statement, `rfcLanguageTag.L true s → Language_Tag.L true s`, is false: see `C69_fails`. -/
theorem C69_accepted_partial (s : Str) (hs : 123 ∉ s) : Language_Tag.L true s ↔ basicTag.L true s := by
  constructor
  · rintro (h | h | h)
    · left
      obtain ⟨a, b, rfl, ha, c, d, rfl, hc, e, f, rfl, he, g, i, rfl, hg, j, k, rfl, hj, hk⟩ := h
      simp only [List.mem_append, not_or] at hs
      have h1 := star_none hg hs.2.2.2.1 (by
        rintro p ⟨x, y, rfl, _, hy⟩
        rcases hy with hy | ⟨z, w, rfl, _, hw⟩
        · simp [rep_brace (by decide) hy]
        · simp [rep_brace (by decide) hw])
      have h2 := star_none hj hs.2.2.2.2.1 (by
        rintro p ⟨x, y, rfl, _, z, w, rfl, _, hw⟩
        simp [plus_brace (by decide) hw])
      have h3 := opt_none hk hs.2.2.2.2.2 (by
        rintro p ⟨x, y, rfl, _, hy⟩
        simp [plus_brace (by decide) hy])
      subst h1; subst h2; subst h3
      exact ⟨a, c ++ e, by simp, ha, c, e, rfl, hc, he⟩
    · obtain ⟨a, b, rfl, _, hb⟩ := h
      exact absurd (plus_brace (by decide) hb) (by intro h; apply hs; simp [h])
    · exact .inr h
  · rintro (⟨a, b, rfl, ha, c, e, rfl, hc, he⟩ | h)
    · left
      have hstar : ∀ r : RE, (star r).L true [] := fun r => ⟨[], rfl, by simp, by simp, by simp⟩
      have hopt : ∀ r : RE, (opt r).L true [] := fun r => ⟨[], rfl, by simp, by simp, by simp⟩
      exact ⟨a, c ++ e, rfl, ha, c, e, rfl, hc, e, [], by simp, he, [], [], rfl, hstar _, [], [], rfl, hstar _, hopt _⟩
    · exact .inr (.inr h)

/-- **C69** tags RFC 5646 allows that aren't accepted: with a variant, an extension, private use -/
theorem C69_fails : ∀ s ∈ [str "sl-rozaj", str "de-CH-1996", str "en-u-ca-buddhist", str "en-x-foo", str "x-whatever"],
    rfcLanguageTag.L true s ∧ ¬ Language_Tag.L true s := by
  simp only [L_iff_run]
  decide +kernel

/-- non-vacuity -/
example : ∀ s ∈ [str "en", str "zh-Hant-TW", str "es-419", str "i-klingon"], basicTag.L true s := by
  simp only [L_iff_run]
  decide +kernel

end

end HL.Props
