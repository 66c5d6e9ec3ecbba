import Verif.Props.Abnf
import Verif.Props.SyntaxThm

/-!
# C123: the syntax of field values: proofs
-/

set_option maxRecDepth 4000

namespace HL.Props
open HL.RE HL.Syntax

/-! ### an algebra of sets of strings -/

namespace Lng
/-- `A B` -/
def sq (A B : Abnf.Lang) : Abnf.Lang := fun s => ∃ a b, s = a ++ b ∧ A a ∧ B b
/-- `A / B` -/
def or2 (A B : Abnf.Lang) : Abnf.Lang := fun s => A s ∨ B s
def emp : Abnf.Lang := fun s => s = []

theorem cat_nil : Abnf.cat [] = emp := rfl
theorem cat_cons (A : Abnf.Lang) (As : List Abnf.Lang) : Abnf.cat (A :: As) = sq A (Abnf.cat As) := rfl
theorem alt_cons (A B : Abnf.Lang) (As : List Abnf.Lang) : Abnf.alt (A :: B :: As) = or2 A (Abnf.alt (B :: As)) := by
  funext s; simp [Abnf.alt, or2]
theorem alt_one (A : Abnf.Lang) : Abnf.alt [A] = A := by
  funext s; simp [Abnf.alt]
theorem sq_emp (A : Abnf.Lang) : sq A emp = A := by
  funext s; simp only [sq, emp, eq_iff_iff]
  constructor
  · rintro ⟨a, _, rfl, h, rfl⟩; simpa using h
  · intro h; exact ⟨s, [], by simp, h, rfl⟩
theorem emp_sq (A : Abnf.Lang) : sq emp A = A := by
  funext s; simp only [sq, emp, eq_iff_iff]
  constructor
  · rintro ⟨_, a, rfl, rfl, h⟩; simpa using h
  · intro h; exact ⟨[], s, by simp, rfl, h⟩
theorem sq_assoc (A B C : Abnf.Lang) : sq (sq A B) C = sq A (sq B C) := by
  funext s; simp only [sq, eq_iff_iff]
  constructor
  · rintro ⟨_, c, rfl, ⟨a, b, rfl, ha, hb⟩, hc⟩; exact ⟨a, b ++ c, by simp, ha, b, c, rfl, hb, hc⟩
  · rintro ⟨a, _, rfl, ha, b, c, rfl, hb, hc⟩; exact ⟨a ++ b, c, by simp, ⟨a, b, rfl, ha, hb⟩, hc⟩
theorem or2_assoc (A B C : Abnf.Lang) : or2 (or2 A B) C = or2 A (or2 B C) := by
  funext s; simp only [or2, or_assoc]
theorem word_nil : Abnf.word [] = emp := by
  funext s; simp [Abnf.word, emp, lower]
end Lng

open Lng

theorem lang_eps : RE.L true .eps = emp := rfl
theorem lang_seqs (r s : RE) (rs : List RE) : (seqs (r :: s :: rs)).L true = sq (r.L true) ((seqs (s :: rs)).L true) := rfl
theorem seqs_one (r : RE) : seqs [r] = r := rfl
theorem lang_alts (r s : RE) (rs : List RE) : (alts (r :: s :: rs)).L true = or2 (r.L true) ((alts (s :: rs)).L true) := rfl
theorem alts_one (r : RE) : alts [r] = r := rfl
theorem lang_star (r : RE) : (star r).L true = Abnf.many (r.L true) := rfl
theorem lang_plus (r : RE) : (plus r).L true = Abnf.many1 (r.L true) := rfl
theorem lang_opt (r : RE) : (opt r).L true = Abnf.opt (r.L true) := rfl
theorem lang_rep (lo : Nat) (hi : Option Nat) (l : Bool) (r : RE) : (RE.rep lo hi l r).L true = Abnf.rep lo hi (r.L true) := rfl

theorem variants_same (c d : Nat) : (caseVariants d).any (inRanges [(c, c)]) = true ↔ lowerC d = lowerC c := by
  unfold caseVariants lowerC inRanges
  repeat' split
  all_goals
    simp only [List.any_cons, List.any_nil, Bool.or_false, Bool.or_eq_true, Bool.and_eq_true, decide_eq_true_eq, bne_iff_ne, ne_eq] at *
    omega

theorem ch_word (c : Nat) (s : Str) : (ch c).L true s ↔ Abnf.word [c] s := by
  unfold ch cls Abnf.word lower
  simp only [RE.L, csetHas, if_true, Bool.bne_false, variants_same]
  constructor
  · rintro ⟨d, rfl, h⟩; simp [h]
  · intro h
    rcases s with _ | ⟨d, _ | ⟨e, s⟩⟩
    · simp at h
    · exact ⟨d, rfl, by simpa using h⟩
    · simp at h

theorem lang_ch (c : Nat) : (ch c).L true = Abnf.word [c] := by funext s; exact propext (ch_word c s)
theorem lang_cls1 (c : Nat) : (cls [(c, c)]).L true = Abnf.word [c] := lang_ch c

theorem word_cons (c : Nat) (w : Str) : Abnf.word (c :: w) = sq (Abnf.word [c]) (Abnf.word w) := by
  funext s
  simp only [Abnf.word, sq, lower, eq_iff_iff]
  constructor
  · intro h
    match s, h with
    | d :: s, h =>
      simp only [List.map_cons, List.cons.injEq] at h
      exact ⟨[d], s, rfl, by simp [h.1], h.2⟩
  · rintro ⟨a, b, rfl, ha, hb⟩
    simp only [List.map_append, ha, hb, List.map_cons, List.map_nil, List.cons_append, List.nil_append]

theorem lang_lit (w : Str) : (lit w).L true = Abnf.word w := by
  unfold lit
  induction w with
  | nil => rw [word_nil]; rfl
  | cons c w ih =>
    rw [word_cons]
    cases w with
    | nil => show (ch c).L true = _; rw [lang_ch, word_nil, sq_emp]
    | cons d w => rw [← ih]; simp only [List.map_cons]; rw [lang_seqs, lang_ch]

/-- a class of characters below 256 -/
theorem lang_class {r : RE} {p q : Nat → Bool} (hq : RE.one true r = some q) (h : (List.range 256).all (fun c => q c == p c) = true)
    (hb : ∀ c, ¬ c < 256 → q c = false) (hp : ∀ c, ¬ c < 256 → p c = false) : r.L true = Abnf.char p := by
  funext s
  rw [eq_iff_iff, one_L hq]
  have : ∀ c, q c = p c := by
    intro c
    by_cases hc : c < 256
    · rw [List.all_eq_true] at h
      simpa using h c (by simpa using hc)
    · rw [hb c hc, hp c hc]
  simp only [this]
  rfl

theorem cls_big {rs : List (Nat × Nat)} (h : rs.all (fun r => decide (r.2 < 256)) = true) (c : Nat) (hc : ¬ c < 256) : csetHas true false rs c = false := by
  simp only [csetHas, big_variants hc, inRanges, if_true, Bool.bne_false, List.any_cons, List.any_nil, Bool.or_false]
  rw [List.any_eq_false]
  intro r hr
  rw [List.all_eq_true] at h
  have := h r hr
  simp at this ⊢
  omega

theorem lang_cls {rs : List (Nat × Nat)} {p : Nat → Bool} (h : (List.range 256).all (fun c => csetHas true false rs c == p c) = true)
    (hr : rs.all (fun r => decide (r.2 < 256)) = true) (hp : ∀ c, ¬ c < 256 → p c = false) : (cls rs).L true = Abnf.char p :=
  lang_class (r := cls rs) rfl h (cls_big hr) hp

theorem contains_big {w : Str} (h : w.all (fun c => decide (c < 256)) = true) {c : Nat} (hc : ¬ c < 256) : w.contains c = false := by
  rw [← Bool.not_eq_true, List.contains_iff_mem]
  intro hm
  rw [List.all_eq_true] at h
  have := h c hm
  simp at this
  omega

theorem ALPHA_lang : rfc5234.ALPHA.L true = Abnf.ALPHA :=
  lang_cls (by decide +kernel) (by decide) (by intro c h; simp; omega)
theorem DIGIT_lang : rfc5234.DIGIT.L true = Abnf.DIGIT :=
  lang_cls (by decide +kernel) (by decide) (by intro c h; simp; omega)
theorem HEXDIG_lang : rfc5234.HEXDIG.L true = Abnf.HEXDIG :=
  lang_cls (by decide +kernel) (by decide) (by intro c h; simp; omega)
theorem VCHAR_lang : rfc5234.VCHAR.L true = Abnf.VCHAR :=
  lang_cls (by decide +kernel) (by decide) (by intro c h; simp; omega)
theorem obs_text_lang : rfc9110.obs_text.L true = Abnf.obsText :=
  lang_cls (by decide +kernel) (by decide) (by intro c h; simp; omega)
theorem SP_lang : rfc5234.SP.L true = Abnf.SP := lang_ch 32
theorem HTAB_lang : rfc5234.HTAB.L true = Abnf.HTAB := lang_ch 9
theorem DQUOTE_lang : rfc5234.DQUOTE.L true = Abnf.DQUOTE := lang_ch 34
theorem CR_lang : rfc5234.CR.L true = Abnf.word [13] := lang_ch 13
theorem LF_lang : rfc5234.LF.L true = Abnf.word [10] := lang_ch 10


/-- both sides in terms of sequences and alternatives -/
macro "lng" "[" ts:Lean.Parser.Tactic.simpLemma,* "]" : tactic =>
  `(tactic| simp only [lang_eps, lang_seqs, seqs_one, lang_alts, alts_one, lang_star, lang_plus, lang_opt, lang_rep, lang_ch, lang_lit,
      cat_nil, cat_cons, alt_cons, alt_one, sq_emp, emp_sq, sq_assoc, or2_assoc, ALPHA_lang, DIGIT_lang, HEXDIG_lang, VCHAR_lang, obs_text_lang,
      SP_lang, HTAB_lang, DQUOTE_lang, $ts,*])

/-! ### RFC 9110's common rules -/

theorem WSP_lang : rfc5234.WSP.L true = Abnf.WSP := by lng [rfc5234.WSP, Abnf.WSP]
theorem CRLF_lang : rfc5234.CRLF.L true = Abnf.CRLF := by lng [rfc5234.CRLF, Abnf.CRLF, CR_lang, LF_lang]
theorem OWS_lang : rfc9110.OWS.L true = Abnf.OWS := by lng [rfc9110.OWS, Abnf.OWS, WSP_lang]
theorem RWS_lang : rfc9110.RWS.L true = Abnf.RWS := by lng [rfc9110.RWS, Abnf.RWS, WSP_lang]
theorem tchar_lang : rfc9110.tchar.L true = Abnf.tchar := by
  obtain ⟨p, hp, he⟩ := tchar_one
  funext s
  rw [eq_iff_iff, one_L hp]
  simp only [he]
  rfl
theorem token_lang : rfc9110.token.L true = Abnf.token := by lng [rfc9110.token, Abnf.token, tchar_lang]
theorem qdtext_lang : rfc9110.qdtext.L true = Abnf.qdtext := by
  obtain ⟨p, hp, he⟩ := qdtext_one true
  funext s
  rw [eq_iff_iff, one_L hp]
  simp only [he]
  rfl
theorem quotable_lang : (alts [rfc5234.HTAB, rfc5234.SP, rfc5234.VCHAR, rfc9110.obs_text]).L true = Abnf.char isQuotable := by
  obtain ⟨p, hp, he⟩ := quotable_one true
  funext s
  rw [eq_iff_iff, one_L hp]
  simp only [he]
  rfl
theorem quoted_pair_lang : rfc9110.quoted_pair.L true = Abnf.quotedPair := by
  have := quotable_lang
  unfold rfc9110.quoted_pair Abnf.quotedPair
  rw [lang_seqs, seqs_one, this, lang_ch]
  lng []
theorem quoted_string_lang : rfc9110.quoted_string.L true = Abnf.quotedString := by
  lng [rfc9110.quoted_string, Abnf.quotedString, qdtext_lang, quoted_pair_lang]
theorem parameter_value_lang : rfc9110.parameter_value.L true = Abnf.tokenOrQuoted := by
  lng [rfc9110.parameter_value, Abnf.tokenOrQuoted, token_lang, quoted_string_lang]
theorem parameter_lang : rfc9110.parameter.L true = Abnf.parameter := by
  lng [rfc9110.parameter, Abnf.parameter, token_lang, parameter_value_lang]
theorem parameters_lang : rfc9110.parameters.L true = Abnf.parameters := by
  lng [rfc9110.parameters, Abnf.parameters, OWS_lang, parameter_lang]
theorem qvalue_lang : rfc9110.qvalue.L true = Abnf.qvalue := by
  lng [rfc9110.qvalue, Abnf.qvalue, lang_cls1]
theorem weight_lang : rfc9110.weight.L true = Abnf.weight := by
  lng [rfc9110.weight, Abnf.weight, OWS_lang, qvalue_lang]
theorem media_type_lang : rfc9110.media_type.L true = Abnf.mediaType := by
  lng [rfc9110.media_type, Abnf.mediaType, token_lang, parameters_lang]
theorem media_range_lang : rfc9110.media_range.L true = Abnf.mediaRange := by
  lng [rfc9110.media_range, Abnf.mediaRange, token_lang, parameters_lang]
theorem digits_lang : rfc9110.Content_Length.L true = Abnf.digits := by lng [rfc9110.Content_Length, Abnf.digits]
theorem auth_param_lang : rfc9110.auth_param.L true = Abnf.authParam := by
  lng [rfc9110.auth_param, Abnf.authParam, Abnf.BWS, token_lang, OWS_lang, parameter_value_lang]
theorem directive_lang : rfc8288.link_param.L true = Abnf.directive := by
  lng [rfc8288.link_param, Abnf.directive, token_lang, parameter_value_lang]
theorem language_range_lang : rfc9110.language_range.L true = Abnf.languageRange := by
  lng [rfc9110.language_range, Abnf.languageRange, rfc6838.restricted_name_first]
theorem transfer_coding_lang : rfc9110.transfer_coding.L true = Abnf.transferCoding := by
  lng [rfc9110.transfer_coding, Abnf.transferCoding, token_lang, OWS_lang, auth_param_lang]
theorem product_lang : rfc9110.product.L true = Abnf.product := by
  lng [rfc9110.product, Abnf.product, token_lang]
theorem range_lang {a b : Nat} (h : (List.range 256).all (fun c => csetHas true false [(a, b)] c == (decide (a ≤ c) && decide (c ≤ b))) = true)
    (hb : b < 256) : (cls [(a, b)]).L true = Abnf.range a b :=
  lang_cls h (by simpa using hb) (by intro c h; simp; omega)
theorem char_or (p q : Nat → Bool) : or2 (Abnf.char p) (Abnf.char q) = Abnf.char fun c => p c || q c := by
  funext s
  simp only [or2, Abnf.char, Bool.or_eq_true, eq_iff_iff]
  constructor
  · rintro (⟨c, h, hc⟩ | ⟨c, h, hc⟩)
    · exact ⟨c, h, .inl hc⟩
    · exact ⟨c, h, .inr hc⟩
  · rintro ⟨c, h, hc | hc⟩
    · exact .inl ⟨c, h, hc⟩
    · exact .inr ⟨c, h, hc⟩
theorem ctext_lang : rfc9110.ctext.L true = Abnf.ctext := by
  have h1 : (cls [(33,39)]).L true = Abnf.range 33 39 := range_lang (by decide +kernel) (by decide)
  have h2 : or2 ((cls [(42,91)]).L true) ((cls [(93,126)]).L true) = or2 (Abnf.range 42 91) (Abnf.range 93 126) := by
    unfold Abnf.range
    rw [char_or]
    exact lang_class (r := .alt (cls [(42,91)]) (cls [(93,126)])) rfl (by decide +kernel)
      (by intro c hc; simp only [cls_big (rs := [(42, 91)]) (by decide) c hc, cls_big (rs := [(93, 126)]) (by decide) c hc]; rfl)
      (by intro c h; simp; omega)
  unfold rfc9110.ctext Abnf.ctext
  simp only [lang_alts, alts_one, h1, SP_lang, HTAB_lang, obs_text_lang, alt_cons, alt_one]
  rw [← or2_assoc ((cls [(42,91)]).L true), h2, or2_assoc]
theorem etagc_lang : rfc9110.etagc.L true = Abnf.etagc := by
  have h1 : (cls [(35,126)]).L true = Abnf.range 35 126 := range_lang (by decide +kernel) (by decide)
  have h2 : (ch 33).L true = Abnf.range 33 33 := range_lang (by decide +kernel) (by decide)
  unfold rfc9110.etagc Abnf.etagc
  simp only [lang_alts, alts_one, h1, h2, obs_text_lang, alt_cons, alt_one]
theorem opaque_tag_lang : rfc9110.opaque_tag.L true = Abnf.opaqueTag := by lng [rfc9110.opaque_tag, Abnf.opaqueTag, etagc_lang]

theorem other_range_lang : rfc9110.other_range.L true = Abnf.otherRange := by
  have h1 : (cls [(33,43)]).L true = Abnf.range 33 43 := range_lang (by decide +kernel) (by decide)
  have h2 : (cls [(45,126)]).L true = Abnf.range 45 126 := range_lang (by decide +kernel) (by decide)
  unfold rfc9110.other_range Abnf.otherRange
  simp only [lang_plus, lang_alts, alts_one, h1, h2, alt_cons, alt_one]

/-- a digit is in `other-range` -/
theorem many1_char (p : Nat → Bool) (s : Str) : Abnf.many1 (Abnf.char p) s ↔ s ≠ [] ∧ ∀ c ∈ s, p c = true := by
  constructor
  · rintro ⟨ps, rfl, hl, -, hp⟩
    have key : ∀ ps : List Str, (∀ q ∈ ps, Abnf.char p q) → ps.flatten.length = ps.length ∧ ∀ c ∈ ps.flatten, p c = true := by
      intro ps
      induction ps with
      | nil => intro _; simp
      | cons q qs ih =>
        intro h
        obtain ⟨c, rfl, hc⟩ := h q (by simp)
        have := ih fun x hx => h x (by simp [hx])
        refine ⟨by simp [this.1], ?_⟩
        intro d hd
        simp only [List.flatten_cons, List.cons_append, List.nil_append, List.mem_cons] at hd
        rcases hd with rfl | hd
        · exact hc
        · exact this.2 d hd
    have := key ps hp
    refine ⟨?_, this.2⟩
    intro h
    rw [h] at this
    simp at this
    omega
  · rintro ⟨hne, hp⟩
    refine ⟨s.map fun c => [c], ?_, by simpa using Nat.succ_le_of_lt (List.length_pos_iff.2 hne), by simp, ?_⟩
    · clear hne hp
      induction s with
      | nil => rfl
      | cons c s ih => simpa using ih
    · intro q hq
      obtain ⟨c, hc, rfl⟩ := List.mem_map.1 hq
      exact ⟨c, rfl, hp c hc⟩

theorem other_char (s : Str) : Abnf.otherRange s ↔ s ≠ [] ∧ ∀ c ∈ s, (33 ≤ c ∧ c ≤ 43) ∨ (45 ≤ c ∧ c ≤ 126) := by
  unfold Abnf.otherRange Abnf.range
  rw [alt_cons, alt_one, char_or, many1_char]
  simp

theorem digits_char (s : Str) : Abnf.digits s ↔ s ≠ [] ∧ ∀ c ∈ s, 48 ≤ c ∧ c ≤ 57 := by
  unfold Abnf.digits Abnf.DIGIT Abnf.range
  rw [many1_char]
  simp

/-- httplint's `int-range` needs the last position; without it, a range is an `other-range` -/
theorem range_spec_lang : rfc9110.range_spec.L true = Abnf.rangeSpec := by
  have e : rfc9110.range_spec.L true = or2 (sq Abnf.digits (sq (Abnf.word [45]) Abnf.digits)) (or2 (sq (Abnf.word [45]) Abnf.digits) Abnf.otherRange) := by
    lng [rfc9110.range_spec, rfc9110.int_range, rfc9110.suffix_range, digits_lang, other_range_lang]
    rfl
  rw [e]
  unfold Abnf.rangeSpec
  lng []
  funext s
  simp only [or2, eq_iff_iff]
  constructor
  · rintro (⟨a, _, rfl, ha, b, c, rfl, hb, hc⟩ | h)
    · exact .inl ⟨a, b ++ c, rfl, ha, b, c, rfl, hb, [c], by simp, by simp, by simp, by simpa using hc⟩
    · exact .inr h
  · rintro (⟨a, _, rfl, ha, b, _, rfl, hb, ps, rfl, _, hps, hp⟩ | h)
    · match ps, hps 1 rfl, hp with
      | [], _, _ =>
        refine .inr (.inr ((other_char _).2 ?_))
        rw [digits_char] at ha
        have : b = [45] := by
          rcases b with _ | ⟨d, _ | ⟨e, b⟩⟩ <;> simp [Abnf.word, lower, lowerC] at hb
          split at hb
          · omega
          · simp [hb]
        subst this
        refine ⟨by simp, ?_⟩
        intro c hc
        simp only [List.flatten_nil, List.append_nil, List.mem_append, List.mem_cons, List.not_mem_nil, or_false] at hc
        rcases hc with hc | rfl
        · have := ha.2 c hc; omega
        · omega
      | [c], _, hp =>
        exact .inl ⟨a, b ++ c, by simp, ha, b, c, rfl, hb, hp c (by simp)⟩
      | _ :: _ :: _, h, _ => simp at h
    · exact .inr h

/-! ### RFC 3986 -/

abbrev hl : Abnf.Reading := Abnf.httplint

theorem pct_lang : rfc3986.pct_encoded.L true = Abnf.pctEncoded := by
  have : Abnf.word (str "%") = Abnf.word [37] := rfl
  lng [rfc3986.pct_encoded, Abnf.pctEncoded, this]
theorem unreserved_lang : rfc3986.unreserved.L true = Abnf.unreserved := by
  lng [rfc3986.unreserved, Abnf.unreserved]
theorem sub_delims_lang : rfc3986.sub_delims.L true = Abnf.subDelims := by
  lng [rfc3986.sub_delims, Abnf.subDelims]
theorem pchar_lang : rfc3986.pchar.L true = Abnf.pchar := by
  lng [rfc3986.pchar, Abnf.pchar, unreserved_lang, pct_lang, sub_delims_lang]
theorem scheme_lang : rfc3986.scheme.L true = Abnf.scheme := by
  lng [rfc3986.scheme, Abnf.scheme]
theorem dec_octet_lang : rfc3986.dec_octet.L true = Abnf.decOctet := by
  have h1 : (cls [(49,57)]).L true = Abnf.range 49 57 := range_lang (by decide +kernel) (by decide)
  have h2 : (cls [(48,52)]).L true = Abnf.range 48 52 := range_lang (by decide +kernel) (by decide)
  have h3 : (cls [(48,53)]).L true = Abnf.range 48 53 := range_lang (by decide +kernel) (by decide)
  lng [rfc3986.dec_octet, Abnf.decOctet, h1, h2, h3, Abnf.times]
theorem ipv4_lang : rfc3986.IPv4address.L true = Abnf.IPv4address := by
  lng [rfc3986.IPv4address, Abnf.IPv4address, dec_octet_lang]
theorem h16_lang : rfc3986.h16.L true = Abnf.h16 := by lng [rfc3986.h16, Abnf.h16]
theorem ls32_lang : rfc3986.ls32.L true = Abnf.ls32 := by lng [rfc3986.ls32, Abnf.ls32, h16_lang, ipv4_lang]
theorem groups_eq : hl.groups 0 = Abnf.h16 ∧ hl.groups 1 = Abnf.cat [Abnf.h16c, Abnf.h16] ∧ hl.groups 2 = Abnf.cat [Abnf.times 2 Abnf.h16c, Abnf.h16] ∧
    hl.groups 3 = Abnf.cat [Abnf.times 3 Abnf.h16c, Abnf.h16] ∧ hl.groups 4 = Abnf.cat [Abnf.times 4 Abnf.h16c, Abnf.h16] ∧
    hl.groups 5 = Abnf.cat [Abnf.times 5 Abnf.h16c, Abnf.h16] ∧ hl.groups 6 = Abnf.cat [Abnf.times 6 Abnf.h16c, Abnf.h16] :=
  ⟨rfl, rfl, rfl, rfl, rfl, rfl, rfl⟩
theorem ipv6_lang : rfc3986.IPv6address.L true = Abnf.IPv6address hl := by
  obtain ⟨g0, g1, g2, g3, g4, g5, g6⟩ := groups_eq
  lng [rfc3986.IPv6address, Abnf.IPv6address, h16_lang, ls32_lang, g0, g1, g2, g3, g4, g5, g6, Abnf.h16c, Abnf.times]
theorem ipvfuture_lang : rfc3986.IPvFuture.L true = Abnf.IPvFuture hl := by
  have : hl.v = Abnf.word [118] := rfl
  lng [this, rfc3986.IPvFuture, Abnf.IPvFuture, unreserved_lang, sub_delims_lang]
theorem ip_literal_lang : rfc3986.IP_literal.L true = Abnf.IPliteral hl := by
  lng [rfc3986.IP_literal, Abnf.IPliteral, ipv6_lang, ipvfuture_lang]
theorem reg_name_lang : rfc3986.reg_name.L true = Abnf.regName := by
  lng [rfc3986.reg_name, Abnf.regName, unreserved_lang, pct_lang, sub_delims_lang]
theorem userinfo_lang : rfc3986.userinfo.L true = hl.userinfo := by
  have : hl.userinfo = Abnf.userinfoChar := rfl
  lng [rfc3986.userinfo, this, Abnf.userinfoChar, unreserved_lang, pct_lang, sub_delims_lang]
theorem host_lang : rfc3986.host.L true = Abnf.host hl := by
  lng [rfc3986.host, Abnf.host, ip_literal_lang, ipv4_lang, reg_name_lang]
theorem port_lang : rfc3986.port.L true = Abnf.port := by lng [rfc3986.port, Abnf.port]
theorem hostPort_lang : rfc9110.Host.L true = Abnf.hostPort hl := by
  lng [rfc9110.Host, Abnf.hostPort, host_lang, port_lang]
theorem segment_lang : rfc3986.segment.L true = Abnf.segment := by lng [rfc3986.segment, Abnf.segment, pchar_lang]
theorem path_abempty_lang : rfc3986.path_abempty.L true = Abnf.pathAbempty := by
  lng [rfc3986.path_abempty, Abnf.pathAbempty, segment_lang]
theorem path_absolute_lang : rfc3986.path_absolute.L true = Abnf.pathAbsolute := by
  lng [rfc3986.path_absolute, rfc3986.segment_nz, Abnf.pathAbsolute, pchar_lang, path_abempty_lang]
theorem path_noscheme_lang : rfc3986.path_noscheme.L true = Abnf.pathNoscheme := by
  lng [rfc3986.path_noscheme, rfc3986.segment_nz_nc, Abnf.pathNoscheme, unreserved_lang, pct_lang, sub_delims_lang, path_abempty_lang]
theorem path_rootless_lang : rfc3986.path_rootless.L true = Abnf.pathRootless := by
  lng [rfc3986.path_rootless, rfc3986.segment_nz, Abnf.pathRootless, pchar_lang, path_abempty_lang]
theorem path_empty_lang : rfc3986.path_empty.L true = hl.pathEmpty := by
  have : hl.pathEmpty = Abnf.cat [Abnf.pchar, Abnf.word (str "0")] := rfl
  lng [rfc3986.path_empty, this, pchar_lang]
theorem query_lang : rfc3986.query.L true = Abnf.query := by
  lng [rfc3986.query, Abnf.query, pchar_lang]
theorem hier_part_lang : rfc3986.hier_part.L true = Abnf.hierPart hl := by
  lng [rfc3986.hier_part, Abnf.hierPart, Abnf.authority, Abnf.hostPort, userinfo_lang, host_lang, port_lang, path_abempty_lang, path_absolute_lang,
    path_rootless_lang, path_empty_lang]
theorem relative_part_lang : rfc3986.relative_part.L true = Abnf.relativePart hl := by
  lng [rfc3986.relative_part, Abnf.relativePart, Abnf.authority, Abnf.hostPort, userinfo_lang, host_lang, port_lang, path_abempty_lang, path_absolute_lang,
    path_noscheme_lang, path_empty_lang]
theorem absolute_URI_lang : rfc3986.absolute_URI.L true = Abnf.absoluteURI hl := by
  lng [rfc3986.absolute_URI, Abnf.absoluteURI, Abnf.scheme, hier_part_lang, query_lang]
theorem URI_lang : rfc3986.URI.L true = Abnf.URI hl := by
  lng [rfc3986.URI, Abnf.URI, Abnf.absoluteURI, Abnf.scheme, hier_part_lang, query_lang]
theorem relative_ref_lang : rfc3986.relative_ref.L true = Abnf.relativeRef hl := by
  lng [rfc3986.relative_ref, Abnf.relativeRef, relative_part_lang, query_lang]
theorem URI_reference_lang : rfc3986.URI_reference.L true = Abnf.URIreference hl := by
  lng [rfc3986.URI_reference, Abnf.URIreference, URI_lang, relative_ref_lang]
theorem content_location_lang : rfc9110.Content_Location.L true = Abnf.contentLocation hl := by
  have : hl.partialQuery = Abnf.query := rfl
  lng [rfc9110.Content_Location, rfc9110.partial_URI, Abnf.contentLocation, absolute_URI_lang, relative_part_lang, this, query_lang]

/-! ### dates, entity tags, languages -/

theorem cased_eq : hl.cased = Abnf.word := rfl
theorem day_name_lang : rfc9110.day_name.L true = Abnf.dayName hl := by
  lng [rfc9110.day_name, Abnf.dayName, List.map_cons, List.map_nil, cased_eq]
theorem day_name_l_lang : rfc9110.day_name_l.L true = Abnf.dayNameL hl := by
  lng [rfc9110.day_name_l, Abnf.dayNameL, List.map_cons, List.map_nil, cased_eq]
theorem month_lang : rfc9110.month.L true = Abnf.month hl := by
  lng [rfc9110.month, Abnf.month, List.map_cons, List.map_nil, cased_eq]
theorem day_lang : rfc9110.day.L true = Abnf.day := by lng [rfc9110.day, Abnf.day]
theorem time_lang : rfc9110.time_of_day.L true = Abnf.timeOfDay := by lng [rfc9110.time_of_day, Abnf.timeOfDay, day_lang]
theorem year_lang : rfc9110.year.L true = Abnf.year := by lng [rfc9110.year, Abnf.year, Abnf.times]
theorem imf_lang : rfc9110.IMF_fixdate.L true = Abnf.imfFixdate hl := by
  lng [rfc9110.IMF_fixdate, rfc9110.date1, rfc9110.GMT, Abnf.imfFixdate, day_name_lang, day_lang, month_lang, year_lang, time_lang, cased_eq]
theorem rfc850_lang : rfc9110.rfc850_date.L true = Abnf.rfc850Date hl := by
  lng [rfc9110.rfc850_date, rfc9110.date2, rfc9110.GMT, Abnf.rfc850Date, day_name_l_lang, day_lang, month_lang, time_lang, cased_eq, Abnf.times]
theorem asctime_lang : rfc9110.asctime_date.L true = Abnf.asctimeDate hl := by
  lng [rfc9110.asctime_date, rfc9110.date3, Abnf.asctimeDate, day_name_lang, month_lang, year_lang, time_lang, Abnf.times]
theorem http_date_lang : rfc9110.HTTP_date.L true = Abnf.httpDate hl := by
  lng [rfc9110.HTTP_date, rfc9110.obs_date, Abnf.httpDate, imf_lang, rfc850_lang, asctime_lang]
theorem entity_tag_lang : rfc9110.entity_tag.L true = Abnf.entityTag hl := by
  lng [rfc9110.entity_tag, rfc9110.weak, Abnf.entityTag, opaque_tag_lang, cased_eq]

theorem alphanum_lang : rfc5646.alphanum.L true = hl.alphanum := by
  have : hl.alphanum = Abnf.alt [Abnf.word (str "{ALPHA}"), Abnf.word (str "{DIGIT}")] := rfl
  lng [rfc5646.alphanum, this]
theorem singleton_lang : (cls [(65,87), (89,90), (97,119), (121,122)]).L true =
    Abnf.char fun c => (65 ≤ c && c ≤ 87) || (89 ≤ c && c ≤ 90) || (97 ≤ c && c ≤ 119) || (121 ≤ c && c ≤ 122) :=
  lang_cls (by decide +kernel) (by decide) (by intro c h; simp; omega)
theorem langtag_lang : rfc5646.langtag.L true = Abnf.langtag hl := by
  lng [rfc5646.langtag, rfc5646.language, rfc5646.extlang, rfc5646.script, rfc5646.region, rfc5646.variant, rfc5646.singleton, Abnf.langtag, Abnf.times,
    alphanum_lang, singleton_lang]
theorem language_tag_lang : rfc5646.Language_Tag.L true = Abnf.languageTag hl := by
  lng [rfc5646.Language_Tag, rfc5646.privateuse, rfc5646.grandfathered, Abnf.languageTag, Abnf.oneOf, Abnf.grandfathered, List.map_cons, List.map_nil,
    langtag_lang, alphanum_lang]

/-! ### credentials, comments -/

theorem credentials_lang : rfc9110.credentials.L true = Abnf.credentials hl := by
  have : hl.authParams = Abnf.cat [Abnf.alt [Abnf.word (str ","), Abnf.authParam], Abnf.many (Abnf.cat [Abnf.OWS, Abnf.word (str ","), Abnf.opt (Abnf.cat [Abnf.OWS, Abnf.authParam])])] := rfl
  lng [rfc9110.credentials, rfc9110.token68, Abnf.credentials, this, token_lang, OWS_lang, auth_param_lang]
theorem comment_lang : rfc9110.comment.L true = hl.comment := by
  have : hl.comment = Abnf.cat [Abnf.word (str "("), Abnf.many (Abnf.alt [Abnf.ctext, Abnf.quotedPair]), Abnf.word (str ")")] := rfl
  lng [rfc9110.comment, this, ctext_lang, quoted_pair_lang]
theorem server_lang : rfc9110.Server.L true = Abnf.server hl := by
  lng [rfc9110.Server, Abnf.server, Abnf.comment, product_lang, RWS_lang, comment_lang]

/-! ### RFC 5322 -/

theorem FWS_lang : rfc5322.FWS.L true = Abnf.FWS := by lng [rfc5322.FWS, Abnf.FWS, WSP_lang, CRLF_lang]
theorem mail_quoted_pair_lang : rfc5322.quoted_pair.L true = Abnf.mailQuotedPair := by
  lng [rfc5322.quoted_pair, Abnf.mailQuotedPair, WSP_lang]
theorem mail_ctext_lang : rfc5322.ctext.L true =
    Abnf.char fun c => (33 ≤ c && c ≤ 39) || (42 ≤ c && c ≤ 91) || c == 93 || (97 ≤ c && c ≤ 122) || c == 126 :=
  lang_cls (by decide +kernel) (by decide) (by intro c h; simp; omega)
theorem mail_comment_lang : rfc5322.comment.L true = hl.mailComment := by
  have : hl.mailComment = Abnf.shortMailComment := rfl
  lng [rfc5322.comment, rfc5322.ccontent, this, Abnf.shortMailComment, mail_ctext_lang, mail_quoted_pair_lang, FWS_lang, word_nil]
theorem CFWS_lang : rfc5322.CFWS.L true = Abnf.CFWS hl := by
  lng [rfc5322.CFWS, Abnf.CFWS, FWS_lang, mail_comment_lang]
theorem qtext_lang : rfc5322.qtext.L true = Abnf.char fun c => c == 33 || (35 ≤ c && c ≤ 91) || (93 ≤ c && c ≤ 126) :=
  lang_cls (by decide +kernel) (by decide) (by intro c h; simp; omega)
theorem mail_quoted_lang : rfc5322.quoted_string.L true = Abnf.mailQuoted hl := by
  have : hl.mailQuotedEnd = Abnf.word [] := rfl
  lng [rfc5322.quoted_string, rfc5322.qcontent, Abnf.mailQuoted, Abnf.qcontent, this, word_nil, qtext_lang, CFWS_lang, FWS_lang, mail_quoted_pair_lang]
theorem atext_lang : rfc5322.atext.L true = Abnf.atext := by
  refine lang_class rfl (by decide +kernel) ?_ ?_
  · intro c hc
    simp only [cls_big (rs := [(65, 90), (97, 122)]) (by decide) c hc, cls_big (rs := [(48, 57)]) (by decide) c hc, Bool.false_or]
    exact cls_big (by decide) c hc
  · intro c hc
    rw [contains_big (by decide) hc]
    simp; omega
theorem atom_lang : rfc5322.atom.L true = Abnf.atom hl := by
  lng [rfc5322.atom, Abnf.atom, CFWS_lang, atext_lang]
theorem phrase_lang : rfc5322.phrase.L true = Abnf.phrase hl := by
  have : hl.obsPhrase = Abnf.word (str "obs_phrase") := rfl
  lng [rfc5322.phrase, rfc5322.word, Abnf.phrase, this, atom_lang, mail_quoted_lang]
theorem dot_atom_lang : rfc5322.dot_atom.L true = Abnf.dotAtom hl := by
  lng [rfc5322.dot_atom, rfc5322.dot_atom_text, Abnf.dotAtom, CFWS_lang, atext_lang]
theorem dtext_lang : rfc5322.dtext.L true = Abnf.char fun c => (33 ≤ c && c ≤ 90) || (94 ≤ c && c ≤ 126) :=
  lang_cls (by decide +kernel) (by decide) (by intro c h; simp; omega)
theorem domain_literal_lang : rfc5322.domain_literal.L true = Abnf.domainLiteral hl := by
  lng [rfc5322.domain_literal, Abnf.domainLiteral, CFWS_lang, FWS_lang, dtext_lang]
theorem addr_spec_lang : rfc5322.addr_spec.L true = Abnf.addrSpec hl := by
  lng [rfc5322.addr_spec, rfc5322.local_part, rfc5322.domain, Abnf.addrSpec, dot_atom_lang, mail_quoted_lang, domain_literal_lang]
theorem mailbox_lang : rfc5322.mailbox.L true = Abnf.mailbox hl := by
  lng [rfc5322.mailbox, rfc5322.name_addr, rfc5322.display_name, rfc5322.angle_addr, Abnf.mailbox, phrase_lang, CFWS_lang, addr_spec_lang]

/-! ### the fields -/

theorem received_by_lang : rfc9110.received_by.L true = hl.receivedBy (Abnf.hostPort hl) := by
  have : hl.receivedBy (Abnf.hostPort hl) = Abnf.alt [Abnf.hostPort hl, Abnf.token] := rfl
  rw [this]
  lng [rfc9110.received_by, hostPort_lang, token_lang]
theorem warn_code_lang : rfc9111.warn_code.L true = Abnf.times 3 Abnf.DIGIT := by lng [rfc9111.warn_code, Abnf.times]
theorem entity_tags_lang : rfc9110.If_Match.L true = Abnf.alt [Abnf.word (str "*"), Abnf.opt (Abnf.list1 (Abnf.entityTag hl))] := by
  lng [rfc9110.If_Match, Abnf.list1, entity_tag_lang, OWS_lang]
theorem csp_name_lang : (cls [(97,122), (65,90), (48,57), (45,45)]).L true =
    Abnf.char fun c => (97 ≤ c && c ≤ 122) || (65 ≤ c && c ≤ 90) || (48 ≤ c && c ≤ 57) || c == 45 :=
  lang_cls (by decide +kernel) (by decide) (by intro c h; simp; omega)
theorem csp_value_lang : (cls [(32,32), (9,9), (33,43), (45,58), (60,126)]).L true =
    Abnf.char fun c => c == 32 || c == 9 || (33 ≤ c && c ≤ 43) || (45 ≤ c && c ≤ 58) || (60 ≤ c && c ≤ 126) :=
  lang_cls (by decide +kernel) (by decide) (by intro c h; simp; omega)
theorem b64_lang : (cls [(65,90), (97,122), (48,57), (43,43), (47,47)]).L true =
    Abnf.char fun c => (65 ≤ c && c ≤ 90) || (97 ≤ c && c ≤ 122) || (48 ≤ c && c ≤ 57) || c == 43 || c == 47 :=
  lang_cls (by decide +kernel) (by decide) (by intro c h; simp; omega)
theorem ws_lang : RE.ws.L true = Abnf.char isSpace := by
  funext s
  rw [eq_iff_iff, one_L ws_one]
  simp only [ws_isSpace]
  rfl
theorem two_eq : Abnf.rep 2 (some 2) (Abnf.word [61]) = Abnf.word (str "==") := by
  have e : Abnf.word (str "==") = sq (Abnf.word [61]) (Abnf.word [61]) := word_cons 61 [61]
  rw [e]
  funext s
  simp only [Abnf.rep, sq, eq_iff_iff]
  constructor
  · rintro ⟨ps, rfl, h1, h2, hp⟩
    match ps, h1, h2 2 rfl, hp with
    | [a, b], _, _, hp => exact ⟨a, b, by simp, hp a (by simp), hp b (by simp)⟩
    | [], h1, _, _ => simp at h1
    | [_], h1, _, _ => simp at h1
    | _ :: _ :: _ :: _, _, h, _ => simp at h
  · rintro ⟨a, b, rfl, ha, hb⟩
    refine ⟨[a, b], by simp, by simp, by simp, ?_⟩
    intro p hp
    simp at hp
    rcases hp with rfl | rfl
    · exact ha
    · exact hb

theorem range_field_lang : rfc9110.ranges_specifier.L true = Abnf.cat [Abnf.token, Abnf.word (str "="), Abnf.list1 Abnf.rangeSpec] := by
  lng [rfc9110.ranges_specifier, rfc9110.range_set, Abnf.list1, token_lang, OWS_lang, range_spec_lang]

theorem exactly_lang (w : Str) : (RE.sens (lit w)).L true = Abnf.exactly w := by
  have key : ∀ (w : Str) (s : Str), (lit w).L false s ↔ s = w := by
    intro w
    induction w with
    | nil => intro s; rfl
    | cons c w ih =>
      intro s
      have hc : ∀ s, (ch c).L false s ↔ s = [c] := by
        intro s
        unfold ch cls
        simp only [RE.L, csetHas, inRanges]
        constructor
        · rintro ⟨d, rfl, h⟩
          simp at h
          have : d = c := by omega
          rw [this]
        · rintro rfl
          exact ⟨c, rfl, by simp⟩
      cases w with
      | nil => exact hc s
      | cons d w =>
        show (∃ a b, s = a ++ b ∧ (ch c).L false a ∧ (lit (d :: w)).L false b) ↔ _
        simp only [hc, ih]
        constructor
        · rintro ⟨_, _, rfl, rfl, rfl⟩; rfl
        · rintro rfl; exact ⟨[c], d :: w, rfl, rfl, rfl⟩
  funext s
  rw [eq_iff_iff]
  exact key w s

theorem media_field_lang : rfc9110.Accept_element.L true = Abnf.cat [Abnf.mediaRange, Abnf.opt Abnf.weight] := by
  lng [rfc9110.Accept_element, media_range_lang, weight_lang]

/-- **C123** the grammar that httplint checks a field against is the one its RFC gives, read in `httplint`'s way -/
theorem C123_grammar (f : FieldId) : (f.info.syn.map fun r => r.L true) = Abnf.field Abnf.httplint f := by
  show _ = Abnf.field hl f
  have disp : hl.dispositionSpace = Abnf.many (Abnf.char isSpace) := rfl
  have sts : ∀ d, hl.stsDirectives d = Abnf.cat [d, Abnf.many (Abnf.cat [Abnf.OWS, Abnf.word (str ";"), Abnf.OWS, d]), Abnf.opt (Abnf.cat [Abnf.OWS, Abnf.word (str ";")])] :=
    fun _ => rfl
  have rb : ∀ h, hl.receivedBy h = Abnf.alt [h, Abnf.token] := fun _ => rfl
  cases f
  all_goals first
    | rfl
    | (simp only [FieldId.info, Abnf.field, Option.map_some, Option.some.injEq]
       first
        | exact token_lang | exact digits_lang | exact parameter_lang | exact media_type_lang | exact media_range_lang | exact auth_param_lang
        | exact credentials_lang | exact entity_tag_lang | exact http_date_lang | exact URI_reference_lang | exact content_location_lang
        | exact mailbox_lang | exact hostPort_lang | exact server_lang | exact product_lang | exact directive_lang | exact entity_tags_lang
        | exact language_tag_lang | exact quoted_string_lang | exact range_field_lang | exact exactly_lang _ | exact lang_lit _
        | exact media_field_lang
        | (lng [rfc9110.Accept_Encoding_element, rfc9110.codings, rfc9110.Accept_Language_element, rfc9110.Content_Range, rfc9110.range_resp,
            rfc9110.incl_range, rfc9110.unsatisfied_range, rfc9110.expectation, rfc9110.If_Range, rfc9110.Retry_After, rfc9110.t_codings, rfc9110.Vary_element,
            rfc9110.Via_element, rfc9110.received_protocol, rfc9111.pragma_directive, rfc9111.warning_value, rfc9111.warn_date, rfc9112.transfer_coding,
            rfc8288.link_value, disp, sts, rb, Abnf.hostPort, cased_eq, Abnf.comment, Abnf.scheme, Abnf.list1, Abnf.cspDirective,
            token_lang, digits_lang, OWS_lang, RWS_lang, weight_lang, language_range_lang, URI_reference_lang, parameter_value_lang, parameter_lang,
            parameters_lang, entity_tag_lang, http_date_lang, transfer_coding_lang, received_by_lang, comment_lang, quoted_string_lang, directive_lang,
            hostPort_lang, host_lang, port_lang, warn_code_lang, csp_name_lang, csp_value_lang, b64_lang, ws_lang, two_eq, Abnf.times]))

/-- **C123** a value (or an element of a list) is taken iff it is in the grammar but for white space around it -/
theorem C123_in_grammar (f : FieldId) (v : Str) :
    inGrammar f v = true ↔ ∀ A, Abnf.field Abnf.httplint f = some A → ∃ a b z, v = a ++ b ++ z ∧ AllSpace a ∧ A b ∧ AllSpace z := by
  rw [C20_inGrammar, ← C123_grammar]
  cases f.info.syn with
  | none => simp
  | some r => simp

/-- every field that has a grammar is in one of the three lists, and in one only -/
theorem C123_lists (f : FieldId) : (Abnf.field Abnf.rfc f).isSome = ((Abnf.same ++ Abnf.wider ++ Abnf.narrower).contains f) ∧
    (Abnf.same ++ Abnf.wider ++ Abnf.narrower).Nodup := by
  constructor
  · cases f <;> rfl
  · decide

/-- **C123** for these fields httplint's grammar is the RFC's -/
theorem C123_same (f : FieldId) (h : f ∈ Abnf.same) : Abnf.field Abnf.httplint f = Abnf.field Abnf.rfc f := by
  revert h
  cases f <;> first | (intro _; rfl) | (intro h; exact absurd h (by decide))

theorem sq_mono {A B A' B' : Abnf.Lang} (hA : ∀ s, A s → A' s) (hB : ∀ s, B s → B' s) : ∀ s, sq A B s → sq A' B' s := by
  rintro s ⟨a, b, h, ha, hb⟩; exact ⟨a, b, h, hA a ha, hB b hb⟩
theorem or2_mono {A B A' B' : Abnf.Lang} (hA : ∀ s, A s → A' s) (hB : ∀ s, B s → B' s) : ∀ s, or2 A B s → or2 A' B' s := by
  rintro s (h | h)
  · exact .inl (hA s h)
  · exact .inr (hB s h)
theorem rep_mono {lo : Nat} {hi : Option Nat} {A A' : Abnf.Lang} (hA : ∀ s, A s → A' s) : ∀ s, Abnf.rep lo hi A s → Abnf.rep lo hi A' s := by
  rintro s ⟨ps, h, h1, h2, h3⟩; exact ⟨ps, h, h1, h2, fun p hp => hA p (h3 p hp)⟩
theorem exactly_mono (w : Str) : ∀ s, Abnf.exactly w s → Abnf.word w s := by rintro s rfl; rfl

theorem wsp_space {s : Str} (h : Abnf.WSP s) : ∃ c, s = [c] ∧ isSpace c = true := by
  unfold Abnf.WSP at h
  rw [alt_cons, alt_one] at h
  rcases h with h | h
  · refine ⟨32, ?_, rfl⟩
    rcases s with _ | ⟨d, _ | ⟨e, b⟩⟩ <;> simp [Abnf.SP, Abnf.word, lower, lowerC] at h
    split at h
    · omega
    · simp [h]
  · refine ⟨9, ?_, rfl⟩
    rcases s with _ | ⟨d, _ | ⟨e, b⟩⟩ <;> simp [Abnf.HTAB, Abnf.word, lower, lowerC] at h
    split at h
    · omega
    · simp [h]

theorem ows_mono : ∀ s, Abnf.OWS s → Abnf.many (Abnf.char isSpace) s :=
  rep_mono fun _ h => wsp_space h

theorem cased_rfc : Abnf.rfc.cased = Abnf.exactly := rfl

theorem httpDate_mono : ∀ s, Abnf.httpDate Abnf.rfc s → Abnf.httpDate hl s := by
  lng [Abnf.httpDate, Abnf.imfFixdate, Abnf.rfc850Date, Abnf.asctimeDate, Abnf.dayName, Abnf.dayNameL, Abnf.month, List.map_cons, List.map_nil, cased_eq, cased_rfc]
  repeat' first | exact exactly_mono _ | exact fun _ h => h | apply or2_mono | apply sq_mono
theorem entityTag_mono : ∀ s, Abnf.entityTag Abnf.rfc s → Abnf.entityTag hl s := by
  lng [Abnf.entityTag, cased_eq, cased_rfc]
  exact sq_mono (rep_mono (exactly_mono _)) fun _ h => h
theorem credentials_mono : ∀ s, Abnf.credentials Abnf.rfc s → Abnf.credentials hl s := by
  have h1 : hl.authParams = sq (or2 (Abnf.word (str ",")) Abnf.authParam) (Abnf.many (sq Abnf.OWS (sq (Abnf.word (str ",")) (Abnf.opt (sq Abnf.OWS Abnf.authParam))))) := by
    show Abnf.cat _ = _
    lng []
  have h2 : Abnf.rfc.authParams = sq Abnf.authParam (Abnf.many (sq Abnf.OWS (sq (Abnf.word (str ",")) (sq Abnf.OWS Abnf.authParam)))) := by
    show Abnf.list1 _ = _
    lng [Abnf.list1]
  lng [Abnf.credentials, h1, h2]
  refine sq_mono (fun _ h => h) (rep_mono (sq_mono (fun _ h => h) (or2_mono (fun _ h => h) (rep_mono (sq_mono (fun _ h => .inr h)
    (rep_mono (sq_mono (fun _ h => h) (sq_mono (fun _ h => h) ?_))))))))
  intro s h
  exact ⟨[s], by simp, by simp, by simp, by simpa using h⟩

/-- **C123** for these fields httplint takes everything that the RFC allows -/
theorem C123_wider (f : FieldId) (h : f ∈ Abnf.wider) {A B : Abnf.Lang} (hA : Abnf.field Abnf.rfc f = some A) (hB : Abnf.field Abnf.httplint f = some B) :
    ∀ s, A s → B s := by
  have d1 : hl.dispositionSpace = Abnf.many (Abnf.char isSpace) := rfl
  have d2 : Abnf.rfc.dispositionSpace = Abnf.OWS := rfl
  change Abnf.field hl f = some B at hB
  revert h hA hB
  cases f
  all_goals first
    | (intro h; exact absurd h (by decide))
    | (intro _ hA hB
       simp only [Abnf.field, Option.some.injEq] at hA hB
       subst hA
       subst hB
       try lng [cased_eq, cased_rfc, Abnf.list1, d1, d2]
       repeat' first | exact httpDate_mono | exact entityTag_mono | exact credentials_mono | exact exactly_mono _ | exact ows_mono | exact fun _ h => h
                     | apply or2_mono | apply sq_mono | apply rep_mono)

/-! ### where they differ -/

namespace Mem
theorem cat {A : Abnf.Lang} {As : List Abnf.Lang} (n : Nat) {s : Str} (ha : A (s.take n)) (hb : Abnf.cat As (s.drop n)) : Abnf.cat (A :: As) s :=
  ⟨s.take n, s.drop n, by simp, ha, hb⟩
theorem last {A : Abnf.Lang} {a : Str} (ha : A a) : Abnf.cat [A] a := ⟨a, [], by simp, ha, rfl⟩
/-- the `n`th of some sets -/
def at' : List Abnf.Lang → Nat → Abnf.Lang
  | [], _ => fun _ => False
  | A :: _, 0 => A
  | _ :: As, n + 1 => at' As n
theorem nth {As : List Abnf.Lang} (n : Nat) {s : Str} (hs : at' As n s) : Abnf.alt As s := by
  induction As generalizing n with
  | nil => exact absurd hs (by simp [at'])
  | cons A As ih =>
    cases n with
    | zero => exact ⟨A, by simp, hs⟩
    | succ n =>
      obtain ⟨B, hB, h⟩ := ih n hs
      exact ⟨B, by simp [hB], h⟩
theorem no {hi : Option Nat} {A : Abnf.Lang} : Abnf.rep 0 hi A [] := ⟨[], rfl, by simp, by simp, by simp⟩
theorem some {A : Abnf.Lang} {s : Str} (h : A s) : Abnf.opt A s := ⟨[s], by simp, by simp, by simp, by simpa using h⟩
theorem many {lo : Nat} {A : Abnf.Lang} {s : Str} (h : A s) (hl : lo ≤ 1 := by decide) : Abnf.rep lo none A s := ⟨[s], by simp, by simpa using hl, by simp, by simpa using h⟩
theorem one {lo hi : Nat} {A : Abnf.Lang} {s : Str} (h : A s) (hl : lo ≤ 1 := by decide) (hh : 1 ≤ hi := by decide) : Abnf.rep lo (Option.some hi) A s :=
  ⟨[s], by simp, by simpa using hl, by simpa using hh, by simpa using h⟩
theorem chr {p : Nat → Bool} {c : Nat} (h : p c = true := by rfl) : Abnf.char p [c] := ⟨c, rfl, h⟩
end Mem

theorem loopback : Abnf.hostPort Abnf.rfc (str "[::1]") :=
  Mem.cat 5 (Mem.nth 0 (Mem.cat 1 rfl (Mem.cat 3 (Mem.nth 0 (Mem.nth 7
    (Mem.cat 0 Mem.no (Mem.cat 2 rfl (Mem.last (Mem.one Mem.chr)))))) (Mem.last rfl)))) (Mem.last Mem.no)

theorem empty_ref : Abnf.URIreference Abnf.rfc [] :=
  Mem.nth 1 (Mem.cat 0 (Mem.nth 3 rfl) (Mem.cat 0 Mem.no (Mem.last Mem.no)))

theorem sp_rws : Abnf.RWS [32] := Mem.many (Mem.nth 0 rfl)

theorem nested : Abnf.rfc.comment (str "(b(c))") :=
  Mem.cat 1 rfl (Mem.cat 4
    (.text (a := str "b") (b := str "(c)") (Mem.nth 4 Mem.chr)
      (.comment (a := str "c") (b := []) (.text (a := str "c") (b := []) (Mem.nth 4 Mem.chr) .nil) .nil))
    (Mem.last rfl))

theorem serverNested : Abnf.server Abnf.rfc (str "a (b(c))") :=
  Mem.cat 1 (Mem.cat 1 (Mem.many Mem.chr) (Mem.last Mem.no)) (Mem.last (Mem.many (Mem.cat 1 sp_rws (Mem.last (Mem.nth 1 nested)))))

/-- what the RFC allows and httplint does not -/
def refusedText : FieldId → Str
  | .access_control_allow_origin_ => []
  | .content_language_ => str "x-a"
  | .content_location_ => []
  | .from_field_ => str "\"a \"@b"
  | .host_ => str "[::1]"
  | .link_ => str "<>"
  | .location_ => []
  | .referer_ => []
  | .server_ => str "a (b(c))"
  | .strict_transport_security_ => str ";"
  | .user_agent_ => str "a (b(c))"
  | .via_ => str "1 a (b(c))"
  | .warning_ => str "199 [::1] \"\""
  | .x_frame_options_ => str "ALLOW-FROM a://[::1]"
  | _ => []

/-- **C123** for these fields httplint refuses some text that the RFC allows -/
theorem C123_narrower (f : FieldId) (h : f ∈ Abnf.narrower) : ∃ A, Abnf.field Abnf.rfc f = some A ∧ A (refusedText f) ∧ inGrammar f (refusedText f) = false := by
  revert h
  cases f
  all_goals first
    | (intro h; exact absurd h (by decide))
    | (intro _; refine ⟨_, rfl, ?_, by decide +kernel⟩)
  case access_control_allow_origin_ => exact Mem.nth 2 empty_ref
  case content_language_ => exact Mem.nth 1 (Mem.cat 1 rfl (Mem.last (Mem.many (Mem.cat 1 rfl (Mem.last (Mem.one (Mem.nth 0 Mem.chr)))))))
  case content_location_ => exact Mem.nth 1 (Mem.cat 0 (Mem.nth 3 rfl) (Mem.last Mem.no))
  case from_field_ =>
    refine Mem.nth 1 (Mem.cat 4 (Mem.nth 1 ?_) (Mem.cat 1 rfl (Mem.last (Mem.nth 0 ?_))))
    · exact Mem.cat 0 Mem.no (Mem.cat 1 rfl (Mem.cat 1 (Mem.many (Mem.cat 0 Mem.no (Mem.last (Mem.nth 0 Mem.chr))))
        (Mem.cat 1 (Mem.some (Mem.cat 0 Mem.no (Mem.last (Mem.many (Mem.nth 0 rfl))))) (Mem.cat 1 rfl (Mem.last Mem.no)))))
    · exact Mem.cat 0 Mem.no (Mem.cat 1 (Mem.cat 1 (Mem.many Mem.chr) (Mem.last Mem.no)) (Mem.last Mem.no))
  case host_ => exact loopback
  case link_ => exact Mem.cat 1 rfl (Mem.cat 0 empty_ref (Mem.cat 1 rfl (Mem.last Mem.no)))
  case location_ => exact empty_ref
  case referer_ => exact Mem.nth 1 (Mem.cat 0 (Mem.nth 3 rfl) (Mem.last Mem.no))
  case server_ => exact serverNested
  case strict_transport_security_ => exact Mem.cat 0 Mem.no (Mem.last (Mem.many (Mem.cat 0 Mem.no (Mem.cat 1 rfl (Mem.cat 0 Mem.no (Mem.last Mem.no))))))
  case user_agent_ => exact serverNested
  case via_ =>
    exact Mem.cat 1 (Mem.cat 0 Mem.no (Mem.last (Mem.many Mem.chr))) (Mem.cat 1 sp_rws
      (Mem.cat 1 (Mem.cat 1 (Mem.many Mem.chr) (Mem.last Mem.no)) (Mem.last (Mem.some (Mem.cat 1 sp_rws (Mem.last nested))))))
  case warning_ =>
    refine Mem.cat 3 ⟨[str "1", str "9", str "9"], rfl, by decide, by decide, ?_⟩ (Mem.cat 1 rfl (Mem.cat 5 (Mem.nth 0 loopback) (Mem.cat 1 rfl
      (Mem.cat 2 (Mem.cat 1 rfl (Mem.cat 0 Mem.no (Mem.last rfl))) (Mem.last Mem.no)))))
    intro p hp
    rcases List.mem_cons.1 hp with rfl | hp
    · exact Mem.chr
    · rcases List.mem_cons.1 hp with rfl | hp
      · exact Mem.chr
      · rw [List.mem_singleton.1 hp]; exact Mem.chr
  case x_frame_options_ =>
    exact Mem.nth 2 (Mem.cat 10 rfl (Mem.cat 1 sp_rws (Mem.last (Mem.cat 1 (Mem.cat 1 Mem.chr (Mem.last Mem.no)) (Mem.cat 3 rfl (Mem.last loopback))))))

/-! the RFCs' rules as expressions, to decide that some text isn't in them -/

def sensAlts (ws : List Str) : RE := alts (ws.map fun w => .sens (lit w))
def rfcDayName : RE := sensAlts [str "Mon", str "Tue", str "Wed", str "Thu", str "Fri", str "Sat", str "Sun"]
def rfcDayNameL : RE := sensAlts [str "Monday", str "Tuesday", str "Wednesday", str "Thursday", str "Friday", str "Saturday", str "Sunday"]
def rfcMonth : RE := sensAlts [str "Jan", str "Feb", str "Mar", str "Apr", str "May", str "Jun", str "Jul", str "Aug", str "Sep", str "Oct", str "Nov", str "Dec"]
def rfcDate : RE := alts [
  seqs [rfcDayName, ch 44, rfc5234.SP, seqs [rfc9110.day, rfc5234.SP, rfcMonth, rfc5234.SP, rfc9110.year], rfc5234.SP, rfc9110.time_of_day, rfc5234.SP, .sens (lit (str "GMT"))],
  seqs [rfcDayNameL, ch 44, rfc5234.SP, seqs [rfc9110.day, ch 45, rfcMonth, ch 45, RE.rep 2 (some 2) false rfc5234.DIGIT], rfc5234.SP, rfc9110.time_of_day, rfc5234.SP, .sens (lit (str "GMT"))],
  seqs [rfcDayName, rfc5234.SP, seqs [rfcMonth, rfc5234.SP, alts [RE.rep 2 (some 2) false rfc5234.DIGIT, seqs [rfc5234.SP, rfc5234.DIGIT]]], rfc5234.SP, rfc9110.time_of_day,
    rfc5234.SP, rfc9110.year]]
def rfcEntityTag : RE := seqs [opt (.sens (lit (str "W/"))), rfc9110.opaque_tag]
def rfcCredentials : RE := seqs [rfc9110.token, opt (seqs [plus rfc5234.SP, alts [rfc9110.token68,
  opt (seqs [rfc9110.auth_param, star (seqs [rfc9110.OWS, ch 44, rfc9110.OWS, rfc9110.auth_param])])]])]

theorem rfcDate_lang : rfcDate.L true = Abnf.httpDate Abnf.rfc := by
  lng [rfcDate, rfcDayName, rfcDayNameL, rfcMonth, sensAlts, Abnf.httpDate, Abnf.imfFixdate, Abnf.rfc850Date, Abnf.asctimeDate, Abnf.dayName, Abnf.dayNameL, Abnf.month,
    List.map_cons, List.map_nil, cased_rfc, exactly_lang, day_lang, time_lang, year_lang, Abnf.times]
theorem rfcEntityTag_lang : rfcEntityTag.L true = Abnf.entityTag Abnf.rfc := by
  lng [rfcEntityTag, Abnf.entityTag, cased_rfc, exactly_lang, opaque_tag_lang]
theorem rfcCredentials_lang : rfcCredentials.L true = Abnf.credentials Abnf.rfc := by
  have h2 : Abnf.rfc.authParams = sq Abnf.authParam (Abnf.many (sq Abnf.OWS (sq (Abnf.word (str ",")) (sq Abnf.OWS Abnf.authParam)))) := by
    show Abnf.list1 _ = _
    lng [Abnf.list1]
  lng [rfcCredentials, rfc9110.token68, Abnf.credentials, h2, token_lang, auth_param_lang, OWS_lang]

/-- the grammar of the RFC, as an expression -/
def rfcExpr : FieldId → RE
  | .alt_svc_ => alts [.sens (lit (str "clear")), seqs [rfc9110.token, ch 61, rfc9110.quoted_string, star (seqs [rfc9110.OWS, ch 59, rfc9110.OWS, rfc9110.parameter])]]
  | .content_disposition_ => seqs [rfc9110.token, star (seqs [rfc9110.OWS, ch 59, rfc9110.OWS, rfc9110.parameter])]
  | .authorization_ => rfcCredentials
  | .proxy_authenticate_ => rfcCredentials
  | .proxy_authorization_ => rfcCredentials
  | .www_authenticate_ => rfcCredentials
  | .etag_ => rfcEntityTag
  | .if_match_ => alts [ch 42, opt (seqs [rfcEntityTag, star (seqs [rfc9110.OWS, ch 44, rfc9110.OWS, rfcEntityTag])])]
  | .if_none_match_ => alts [ch 42, opt (seqs [rfcEntityTag, star (seqs [rfc9110.OWS, ch 44, rfc9110.OWS, rfcEntityTag])])]
  | .if_range_ => alts [rfcEntityTag, rfcDate]
  | .retry_after_ => alts [rfcDate, rfc9110.Content_Length]
  | _ => rfcDate

theorem rfcExpr_lang (f : FieldId) (h : f ∈ Abnf.wider) : Abnf.field Abnf.rfc f = some ((rfcExpr f).L true) := by
  have d2 : Abnf.rfc.dispositionSpace = Abnf.OWS := rfl
  revert h
  cases f
  all_goals first
    | (intro h; exact absurd h (by decide))
    | (intro _
       simp only [Abnf.field, rfcExpr, Option.some.injEq]
       first
        | exact rfcDate_lang.symm | exact rfcEntityTag_lang.symm | exact rfcCredentials_lang.symm
        | lng [rfcDate_lang, rfcEntityTag_lang, d2, cased_rfc, exactly_lang, Abnf.list1, token_lang, OWS_lang, parameter_lang, quoted_string_lang, digits_lang])

/-- what httplint takes and the RFC does not allow -/
def takenText : FieldId → Str
  | .alt_svc_ => str "CLEAR"
  | .content_disposition_ => str "a" ++ [11] ++ str ";b=c"
  | .authorization_ => str "a ,"
  | .proxy_authenticate_ => str "a ,"
  | .proxy_authorization_ => str "a ,"
  | .www_authenticate_ => str "a ,"
  | .etag_ => str "w/\"\""
  | .if_match_ => str "w/\"\""
  | .if_none_match_ => str "w/\"\""
  | .if_range_ => str "w/\"\""
  | _ => str "sun, 06 NOV 1994 08:49:37 gmt"

/-- **C123** for the fields for which httplint takes more than the RFC allows, it does -/
theorem C123_wider_strictly (f : FieldId) (h : f ∈ Abnf.wider) : inGrammar f (takenText f) = true ∧
    ∃ A, Abnf.field Abnf.rfc f = some A ∧ ¬ A (takenText f) := by
  rw [rfcExpr_lang f h]
  refine ⟨?_, _, rfl, ?_⟩
  · revert h
    cases f <;> first | (intro h; exact absurd h (by decide)) | (intro _; decide +kernel)
  · rw [L_iff_run]
    revert h
    cases f <;> first | (intro h; exact absurd h (by decide)) | (intro _; decide +kernel)

/-! ### in messages -/

/-- is the text in a field's grammar, but for white space around it? -/
def InSyntax (f : FieldId) (v : Str) : Prop := ∀ A, Abnf.field Abnf.httplint f = some A → ∃ a b z, v = a ++ b ++ z ∧ AllSpace a ∧ A b ∧ AllSpace z

/-- **C123** in a section, there is a note about syntax on a line or a field iff some text there isn't in the grammar of the RFC (read in
httplint's way), for a field that reports it -/
theorem C123_notes (env : Env) (related : Option Msg) (t : Bool) (ls : List Line) (m m' : Msg) (hm : Linting env m)
    (hnew : (m.section t).handlers = []) (h : processSection env related t ls m = (m', .ok ())) :
    ∃ added, m'.notes = m.notes ++ added ∧ ∀ s,
      (∃ n ∈ added, (n.cls = .BAD_SYNTAX ∨ n.cls = .BAD_SYNTAX_DETAILED) ∧ n.subject = s) ↔
      ∃ f v, (s, f, v) ∈ judged m.kind ls ∧ f.info.reportSyntax = true ∧ ¬ InSyntax f v := by
  obtain ⟨added, e, he⟩ := C20_syntax_notes env related t ls m m' hm hnew h
  refine ⟨added, e, ?_⟩
  intro s
  have h1 : (∃ n ∈ added, (n.cls = .BAD_SYNTAX ∨ n.cls = .BAD_SYNTAX_DETAILED) ∧ n.subject = s) ↔ ∃ y ∈ (added.filter isSyntax).map tag, y.2 = s := by
    constructor
    · rintro ⟨n, hn, hc, rfl⟩
      refine ⟨tag n, List.mem_map_of_mem (List.mem_filter.2 ⟨hn, ?_⟩), rfl⟩
      unfold isSyntax
      rcases hc with hc | hc <;> rw [hc] <;> rfl
    · rintro ⟨y, hy, rfl⟩
      obtain ⟨n, hn, rfl⟩ := List.mem_map.1 hy
      obtain ⟨hn, hc⟩ := List.mem_filter.1 hn
      refine ⟨n, hn, ?_, rfl⟩
      unfold isSyntax at hc
      simpa using hc
  rw [h1, he]
  have h2 : ∀ f v, (∃ x, verdict f v = some x) ↔ f.info.reportSyntax = true ∧ ¬ InSyntax f v := by
    intro f v
    unfold InSyntax
    rw [← C123_in_grammar]
    unfold verdict
    cases f.info.reportSyntax <;> cases inGrammar f v <;> simp
    split <;> simp
  constructor
  · rintro ⟨y, hy, rfl⟩
    obtain ⟨⟨s, f, v⟩, hj, hv⟩ := List.mem_filterMap.1 hy
    dsimp only at hv
    cases hx : verdict f v with
    | none => rw [hx] at hv; exact nomatch hv
    | some x =>
      rw [hx] at hv
      cases hv
      exact ⟨f, v, hj, (h2 f v).1 ⟨x, hx⟩⟩
  · rintro ⟨f, v, hj, hv⟩
    obtain ⟨x, hx⟩ := (h2 f v).2 hv
    exact ⟨(x, s), List.mem_filterMap.2 ⟨(s, f, v), hj, by dsimp only; rw [hx]; rfl⟩, rfl⟩

/-- non-vacuity: a date and an entity tag that fit, and a date and a weight that do not -/
example : InSyntax .if_modified_since_ (str "Sun, 06 Nov 1994 08:49:37 GMT") ∧ InSyntax .etag_ (str " W/\"a!b\"") ∧ ¬ InSyntax .if_modified_since_ (str "Sun, 6 Nov 1994 08:49:37 GMT") ∧
    ¬ InSyntax .accept_encoding_ (str "gzip;q=1.001") := by
  unfold InSyntax
  simp only [← C123_in_grammar]
  decide +kernel

end HL.Props
