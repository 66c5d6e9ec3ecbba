import Verif.Props.Utf8Thm
import Verif.Props.RangeThm

/-!
# Request targets: from bytes to an IRI, and from an IRI to a URI (C109)
-/

namespace HL.Props

/-! ### decoding with replacement -/

/-- the bytes are the beginning, but not the whole, of the encoding of some character -/
def StartOfChar (p : Str) : Prop := ∃ c q, utf8 c = p ++ q ∧ q ≠ []

/-- `p`, followed by `bs`, is an ill-formed sequence as Unicode (chapter 3, "maximal subpart") delimits them: no character begins here,
and `p` is the longest beginning of a character there is, or a single byte if there is none -/
def IllFormed (p bs : Str) : Prop :=
  p ≠ [] ∧ ¬ BeginsWithChar (p ++ bs) ∧ (p.length = 1 ∨ StartOfChar p) ∧ ∀ b r, bs = b :: r → ¬ StartOfChar (p ++ [b])

/-- `Replaces bs cs`: reading the bytes as UTF-8 gives this text, where U+FFFD replaces each ill-formed sequence -/
inductive Replaces : Str → List Char → Prop where
  | nil : Replaces [] []
  | char (c : Char) {bs cs} : Replaces bs cs → Replaces (utf8 c ++ bs) (c :: cs)
  | ill {p bs cs} : IllFormed p bs → Replaces bs cs → Replaces (p ++ bs) ('\uFFFD' :: cs)

theorem start_iff (p : Str) : StartOfChar p ↔ ∃ n q, q ≠ [] ∧ utf8One (p ++ q) = some (n, []) := by
  constructor
  · rintro ⟨c, q, h, hq⟩
    exact ⟨c.toNat, q, hq, (utf8One_iff _ _ _).mpr ⟨c, rfl, by rw [h, List.append_nil]⟩⟩
  · rintro ⟨n, q, hq, h⟩
    obtain ⟨c, _, h⟩ := (utf8One_iff _ _ _).mp h
    exact ⟨c, q, by rw [h, List.append_nil], hq⟩

theorem start_two {a b : Nat} (h : StartOfChar [a, b]) : second a b = true ∧ 224 ≤ a ∧ a < 245 := by
  obtain ⟨n, q, hq, h⟩ := (start_iff _).mp h
  change utf8One (a :: b :: q) = _ at h
  unfold utf8One at h
  dsimp only at h
  by_cases h1 : a < 128
  · rw [if_pos h1] at h; cases h
  · rw [if_neg h1] at h
    by_cases h2 : a < 194
    · rw [if_pos h2] at h; cases h
    · rw [if_neg h2] at h
      by_cases h3 : a < 224
      · rw [if_pos h3] at h
        split at h
        · exact absurd (congrArg Prod.snd (Option.some.inj h)) hq
        · cases h
      · rw [if_neg h3] at h
        by_cases h4 : a < 240
        · rw [if_pos h4] at h
          split at h
          · split at h
            · rename_i e hs; cases e; rw [Bool.and_eq_true] at hs; exact ⟨hs.1, by omega, by omega⟩
            · cases h
          · cases h
        · rw [if_neg h4] at h
          by_cases h5 : a < 245
          · rw [if_pos h5] at h
            split at h
            · split at h
              · rename_i e hs; cases e; rw [Bool.and_eq_true, Bool.and_eq_true] at hs; exact ⟨hs.1.1, by omega, by omega⟩
              · cases h
            · cases h
          · rw [if_neg h5] at h; cases h

theorem start_three {a b c : Nat} (h : StartOfChar [a, b, c]) : second a b = true ∧ isCont c = true ∧ 240 ≤ a ∧ a < 245 := by
  obtain ⟨n, q, hq, h⟩ := (start_iff _).mp h
  change utf8One (a :: b :: c :: q) = _ at h
  unfold utf8One at h
  dsimp only at h
  by_cases h1 : a < 128
  · rw [if_pos h1] at h; cases h
  · rw [if_neg h1] at h
    by_cases h2 : a < 194
    · rw [if_pos h2] at h; cases h
    · rw [if_neg h2] at h
      by_cases h3 : a < 224
      · rw [if_pos h3] at h
        split at h
        · exact absurd (congrArg Prod.snd (Option.some.inj h)) (List.cons_ne_nil _ _)
        · cases h
      · rw [if_neg h3] at h
        by_cases h4 : a < 240
        · rw [if_pos h4] at h
          split at h
          · exact absurd (congrArg Prod.snd (Option.some.inj h)) hq
          · cases h
        · rw [if_neg h4] at h
          by_cases h5 : a < 245
          · rw [if_pos h5] at h
            split at h
            · split at h
              · rename_i e hs; cases e; rw [Bool.and_eq_true, Bool.and_eq_true] at hs; exact ⟨hs.1.1, hs.1.2, by omega, by omega⟩
              · cases h
            · cases h
          · rw [if_neg h5] at h; cases h

theorem start_four {a b c d : Nat} : ¬ StartOfChar [a, b, c, d] := by
  rintro ⟨x, q, h, hq⟩
  have := utf8_length x
  rw [h] at this
  cases q with
  | nil => exact hq rfl
  | cons y q => simp at this

theorem two_start {a b : Nat} (hs : second a b = true) (h1 : 224 ≤ a) (h2 : a < 245) : StartOfChar [a, b] := by
  rw [start_iff]
  by_cases h : a < 240
  · refine ⟨?_, [128], by simp, ?_⟩; rotate_left
    show utf8One [a, b, 128] = _
    unfold utf8One
    dsimp only
    rw [if_neg (by omega), if_neg (by omega), if_neg (by omega), if_pos h, hs]
    rfl
  · refine ⟨?_, [128, 128], by simp, ?_⟩; rotate_left
    show utf8One [a, b, 128, 128] = _
    unfold utf8One
    dsimp only
    rw [if_neg (by omega), if_neg (by omega), if_neg (by omega), if_neg h, if_pos h2, hs]
    rfl

theorem three_start {a b c : Nat} (hs : second a b = true) (hc : isCont c = true) (h1 : 240 ≤ a) (h2 : a < 245) : StartOfChar [a, b, c] := by
  rw [start_iff]
  refine ⟨?_, [128], by simp, ?_⟩; rotate_left
  show utf8One [a, b, c, 128] = _
  unfold utf8One
  dsimp only
  rw [if_neg (by omega), if_neg (by omega), if_neg (by omega), if_neg (by omega), if_pos h2, hs, hc]
  rfl

theorem ill_formed {a : Nat} {r : Str} (h : utf8One (a :: r) = none) :
    IllFormed ((a :: r).take (badLength (a :: r))) ((a :: r).drop (badLength (a :: r))) := by
  have hn : ¬ BeginsWithChar (a :: r) := by rw [begins_iff, h]; exact Bool.false_ne_true
  have one : badLength (a :: r) = 1 → (∀ b t, r = b :: t → ¬ StartOfChar [a, b]) →
      IllFormed ((a :: r).take (badLength (a :: r))) ((a :: r).drop (badLength (a :: r))) := by
    intro e hb
    rw [e]
    exact ⟨List.cons_ne_nil _ _, hn, .inl rfl, hb⟩
  cases r with
  | nil => exact one rfl fun _ _ e => by cases e
  | cons b r =>
    by_cases hs : StartOfChar [a, b]
    · obtain ⟨hs', h1, h2⟩ := start_two hs
      by_cases h3 : a < 240
      · have e : badLength (a :: b :: r) = 2 := by
          unfold badLength
          dsimp only
          rw [if_pos (by simp [h1, h3]), if_pos hs']
        rw [e]
        exact ⟨List.cons_ne_nil _ _, hn, .inr hs, fun c t _ hc => by have := start_three hc; omega⟩
      · have e : badLength (a :: b :: r) = (match r with | c :: _ => if isCont c then 3 else 2 | [] => 2) := by
          unfold badLength
          dsimp only
          rw [if_neg (by simp; omega), if_pos (by simp; omega), if_pos hs']
          cases r <;> rfl
        cases r with
        | nil =>
          rw [e]
          exact ⟨List.cons_ne_nil _ _, hn, .inr hs, fun c t hc => by cases hc⟩
        | cons c r =>
          rw [e]
          dsimp only
          by_cases hc : isCont c = true
          · rw [if_pos hc]
            exact ⟨List.cons_ne_nil _ _, hn, .inr (three_start hs' hc (by omega) h2), fun d t _ hd => start_four hd⟩
          · rw [if_neg hc]
            refine ⟨List.cons_ne_nil _ _, hn, .inr hs, fun d t hd hx => ?_⟩
            cases hd
            exact hc (start_three hx).2.1
    · refine one ?_ fun b' t e => by cases e; exact hs
      unfold badLength
      dsimp only
      by_cases h1 : 224 ≤ a ∧ a < 240
      · rw [if_pos (by simpa using h1), if_neg fun h2 => hs (two_start h2 (by omega) (by omega))]
      · rw [if_neg (by simpa using h1)]
        by_cases h2 : 240 ≤ a ∧ a < 245
        · rw [if_pos (by simpa using h2), if_neg fun h2 => hs (two_start h2 (by omega) (by omega))]
        · rw [if_neg (by simpa using h2)]

theorem replaceGo_replaces : ∀ (n : Nat) (bs : Str), bs.length ≤ n → ∃ cs, Replaces bs cs ∧ utf8ReplaceGo n bs = codes cs
  | 0, bs, h => by
    cases bs with
    | nil => exact ⟨[], .nil, rfl⟩
    | cons a r => cases h
  | n + 1, [], _ => ⟨[], .nil, rfl⟩
  | n + 1, a :: r, h => by
    unfold utf8ReplaceGo
    cases e : utf8One (a :: r) with
    | none =>
      have hi := ill_formed e
      have hl : ((a :: r).drop (badLength (a :: r))).length ≤ n := by
        have h1 : 0 < badLength (a :: r) := by
          cases hb : badLength (a :: r) with
          | zero => rw [hb] at hi; exact absurd rfl hi.1
          | succ k => omega
        rw [List.length_drop]
        have h2 : (a :: r).length ≤ n + 1 := h
        omega
      obtain ⟨cs, hr, he⟩ := replaceGo_replaces n _ hl
      refine ⟨'\uFFFD' :: cs, ?_, ?_⟩
      · have := Replaces.ill hi hr
        rwa [List.take_append_drop] at this
      · dsimp only
        rw [he]; rfl
    | some p =>
      obtain ⟨k, t⟩ := p
      obtain ⟨c, rfl, hc⟩ := (utf8One_iff _ t k).mp e
      have hl : t.length ≤ n := by
        have h1 : (a :: r).length = (utf8 c).length + t.length := by rw [hc, List.length_append]
        have h2 : 0 < (utf8 c).length := List.length_pos_iff.mpr (utf8_ne c)
        have h3 : (a :: r).length ≤ n + 1 := h
        omega
      obtain ⟨cs, hr, he⟩ := replaceGo_replaces n t hl
      refine ⟨c :: cs, by rw [hc]; exact .char c hr, ?_⟩
      dsimp only
      rw [he]; rfl

theorem replace_spec (bs : Str) : ∃ cs, Replaces bs cs ∧ utf8Replace bs = codes cs := replaceGo_replaces _ _ (Nat.le_refl _)

/-- two ill-formed sequences at the same place are the same -/
theorem ill_unique {p q bs bs' : Str} (h : IllFormed p bs) (h' : IllFormed q bs') (e : p ++ bs = q ++ bs') : p = q ∧ bs = bs' := by
  have prefix_start : ∀ {x y : Str}, StartOfChar (x ++ y) → StartOfChar x := by
    rintro x y ⟨c, z, hz, hn⟩
    exact ⟨c, y ++ z, by rw [hz, List.append_assoc], fun hh => hn (List.append_eq_nil_iff.mp hh).2⟩
  have key : ∀ {p q bs bs' : Str}, IllFormed p bs → IllFormed q bs' → p ++ bs = q ++ bs' → q.length ≤ p.length := by
    intro p q bs bs' h h' e
    refine Nat.not_lt.mp fun hl => ?_
    have hq : StartOfChar q := by
      rcases h'.2.2.1 with h1 | h1
      · have := List.length_pos_iff.mpr h.1; omega
      · exact h1
    have hp : p <+: q := List.prefix_of_prefix_length_le ⟨bs, e⟩ ⟨bs', rfl⟩ (Nat.le_of_lt hl)
    obtain ⟨t, rfl⟩ := hp
    cases t with
    | nil => simp at hl
    | cons b t =>
      rw [List.append_assoc] at e
      have e' := List.append_cancel_left e
      refine h.2.2.2 b (t ++ bs') e' (prefix_start (y := t) ?_)
      rwa [List.append_assoc]
  have h1 := key h h' e
  have h2 := key h' h e.symm
  exact List.append_inj e (Nat.le_antisymm h2 h1)

/-- **C109** (one reading) any bytes are read in just one way -/
theorem C109_one_reading {bs : Str} {cs ds : List Char} (h : Replaces bs cs) (h' : Replaces bs ds) : cs = ds := by
  induction h generalizing ds with
  | nil =>
    generalize hb : ([] : Str) = bs at h'
    cases h' with
    | nil => rfl
    | char c _ => exact absurd (List.append_eq_nil_iff.mp hb.symm).1 (utf8_ne c)
    | ill hi _ => exact absurd (List.append_eq_nil_iff.mp hb.symm).1 hi.1
  | @char c bs cs hr ih =>
    generalize hb : utf8 c ++ bs = bs' at h'
    cases h' with
    | nil => exact absurd (List.append_eq_nil_iff.mp hb).1 (utf8_ne c)
    | char d hd =>
      obtain ⟨rfl, rfl⟩ := utf8_inj hb
      rw [ih hd]
    | ill hi _ => exact absurd ⟨c, bs, hb.symm⟩ hi.2.1
  | @ill p bs cs hi hr ih =>
    generalize hb : p ++ bs = bs' at h'
    cases h' with
    | nil => exact absurd (List.append_eq_nil_iff.mp hb).1 hi.1
    | char d hd => exact absurd ⟨d, _, hb⟩ hi.2.1
    | ill hj hd =>
      obtain ⟨rfl, rfl⟩ := ill_unique hi hj hb
      rw [ih hd]

theorem replaces_text : ∀ cs : List Char, Replaces (utf8Text cs) cs
  | [] => .nil
  | c :: cs => .char c (replaces_text cs)

/-- **C109** (target) the `iri` of a request is the text its target is read as: itself, if it is the encoding of a text, and otherwise
with U+FFFD in the place of each ill-formed sequence.  This is so even if the call raises. -/
theorem C109_iri (env : Env) (method target version : Str) (m : Msg) (hk : m.kind = .request) :
    ∃ cs, Replaces target cs ∧ (m.requestTopline env method target version).1.iri = some (codes cs) := by
  obtain ⟨cs, hr, he⟩ := replace_spec target
  refine ⟨cs, hr, ?_⟩
  unfold Msg.requestTopline Msg.setUri
  rw [hk, he]
  dsimp only
  cases env.iriToUri (codes cs) with
  | ok u => rfl
  | error e => dsimp only; by_cases h : e.isValueError = true <;> simp only [h] <;> rfl

/-! ### percent-encoding -/

/-- a hexadecimal digit, in upper case -/
def hexUpper (n : Nat) : Char := n.digitChar.toUpper
/-- a byte, percent-encoded (RFC 3986, 2.1) -/
def pctByte (b : Nat) : List Char := ['%', hexUpper (b / 16), hexUpper (b % 16)]
/-- percent-encode what is not allowed -/
def percentEncode (allowed : Char → Bool) (cs : List Char) : List Char :=
  cs.flatMap fun c => if allowed c then [c] else (utf8 c).flatMap pctByte

/-- RFC 3986, 2.3 -/
def isUnreserved (c : Char) : Bool := ('a' ≤ c ∧ c ≤ 'z') ∨ ('A' ≤ c ∧ c ≤ 'Z') ∨ ('0' ≤ c ∧ c ≤ '9') ∨ c ∈ ['-', '.', '_', '~']
/-- RFC 3986, 3.3: what may be in a path, including the percent sign of an escape -/
def pathChar (c : Char) : Bool := isUnreserved c || "!$&'()*+,;=".toList.contains c || [':', '@', '/', '%'].contains c
/-- RFC 3986, 3.4 and 3.5 -/
def queryChar (c : Char) : Bool := pathChar c || c == '?'

theorem hexDigitU_spec {n : Nat} (h : n < 16) : hexDigitU n = (hexUpper n).toNat := by
  have : ∀ n : Fin 16, hexDigitU n.val = (hexUpper n.val).toNat := by decide
  exact this ⟨n, h⟩

theorem utf8_ascii {c : Char} (h : c.toNat < 128) : utf8 c = [c.toNat] := by
  have := utf8Enc_char c
  unfold utf8Enc at this
  rw [if_pos h] at this
  exact (Option.some.inj this).symm

theorem utf8_high {c : Char} (h : ¬ c.toNat < 128) : ∀ b ∈ utf8 c, 128 ≤ b := by
  have := utf8Enc_char c
  unfold utf8Enc at this
  rw [if_neg h] at this
  generalize utf8 c = l at *
  generalize c.toNat = n at *
  intro b hb
  repeat' split at this
  all_goals first
    | (rw [← Option.some.inj this] at hb; simp only [List.mem_cons, List.not_mem_nil, or_false] at hb; omega)
    | cases this

theorem utf8Encode_codes : ∀ cs : List Char, utf8Encode (codes cs) = .ok (utf8Text cs)
  | [] => rfl
  | c :: cs => by
    show (match utf8Enc c.toNat with | none => _ | some b => _) = _
    rw [utf8Enc_char]
    show Except.map _ (utf8Encode (codes cs)) = _
    rw [utf8Encode_codes cs]; rfl

theorem urlquote_spec (safe : Str) (allowed : Char → Bool) (hs : ∀ b, 128 ≤ b → (alwaysSafe b || safe.contains b) = false)
    (ha : ∀ c : Char, c.toNat < 128 → allowed c = (alwaysSafe c.toNat || safe.contains c.toNat))
    (hh : ∀ c : Char, 128 ≤ c.toNat → allowed c = false) (cs : List Char) :
    urlquote safe (codes cs) = .ok (codes (percentEncode allowed cs)) := by
  unfold urlquote
  rw [utf8Encode_codes]
  show Except.ok _ = _
  congr 1
  induction cs with
  | nil => rfl
  | cons c cs ih =>
    dsimp only at ih ⊢
    show List.flatMap _ (utf8 c ++ utf8Text cs) = codes (_ ++ percentEncode allowed cs)
    rw [List.flatMap_append, ih]
    unfold codes
    rw [List.map_append]
    congr 1
    have pct : ∀ l : Str, (∀ b ∈ l, b < 256 ∧ (alwaysSafe b || safe.contains b) = false) →
        (l.flatMap fun b => if (alwaysSafe b || safe.contains b) = true then [b] else [37, hexDigitU (b / 16), hexDigitU (b % 16)]) =
          (l.flatMap pctByte).map Char.toNat := by
      intro l hl
      induction l with
      | nil => rfl
      | cons b l ih =>
        obtain ⟨h1, h2⟩ := hl b (.head _)
        rw [List.flatMap_cons, List.flatMap_cons, List.map_append, ih fun x hx => hl x (.tail _ hx), h2]
        rw [hexDigitU_spec (by omega), hexDigitU_spec (by omega)]
        rfl
    dsimp only
    by_cases h : c.toNat < 128
    · cases hc : allowed c with
      | true =>
        rw [utf8_ascii h]
        rw [ha c h] at hc
        rw [List.flatMap_cons, hc, if_pos rfl, if_pos rfl]; rfl
      | false =>
        rw [if_neg Bool.false_ne_true]
        refine pct _ fun b hb => ⟨utf8_lt c b hb, ?_⟩
        rw [utf8_ascii h, List.mem_singleton] at hb
        subst hb
        rw [← ha c h, hc]
    · rw [hh c (by omega), if_neg Bool.false_ne_true]
      exact pct _ fun b hb => ⟨utf8_lt c b hb, hs b (utf8_high h b hb)⟩

theorem safe_high (extra : Str) (he : ∀ x ∈ extra, x < 128) (b : Nat) (hb : 128 ≤ b) : (alwaysSafe b || (pcharSafe ++ extra).contains b) = false := by
  rw [Bool.or_eq_false_iff]
  constructor
  · unfold alwaysSafe
    simp only [Bool.or_eq_false_iff, Bool.and_eq_false_iff, decide_eq_false_iff_not, beq_eq_false_iff_ne]
    omega
  · rw [List.contains_eq_any_beq, List.any_eq_false]
    intro x hx h
    rw [beq_iff_eq] at h
    subst h
    rcases List.mem_append.mp hx with h | h
    · have : ∀ y ∈ pcharSafe, y < 128 := by decide
      exact absurd (this _ h) (by omega)
    · exact absurd (he _ h) (by omega)

theorem ascii_chars {P : Char → Prop} (h : ∀ n : Fin 128, P (Char.ofNat n.val)) (c : Char) (hc : c.toNat < 128) : P c := by
  have := h ⟨c.toNat, hc⟩
  rwa [show Char.ofNat c.toNat = c from Char.ofNat_toNat c] at this

theorem not_allowed_high {c : Char} (h : 128 ≤ c.toNat) : queryChar c = false := by
  have hne : ∀ d : Char, d.toNat < 128 → c ≠ d := fun d hd e => by subst e; omega
  have hm : ∀ l : List Char, (∀ d ∈ l, d.toNat < 128) → l.contains c = false := by
    intro l hl
    rw [List.contains_eq_any_beq, List.any_eq_false]
    intro x hx he
    rw [beq_iff_eq] at he
    exact hne x (hl x hx) he
  have hle : ∀ d : Char, d.toNat < 128 → ¬ c ≤ d := fun d hd (e : c.val ≤ d.val) => by
    have : c.val.toNat ≤ d.val.toNat := e
    have h1 : c.val.toNat = c.toNat := rfl
    have h2 : d.val.toNat = d.toNat := rfl
    omega
  unfold queryChar pathChar isUnreserved
  rw [hm _ (by decide), hm _ (by decide)]
  have h1 : ¬ (('a' ≤ c ∧ c ≤ 'z') ∨ ('A' ≤ c ∧ c ≤ 'Z') ∨ ('0' ≤ c ∧ c ≤ '9') ∨ c ∈ ['-', '.', '_', '~']) := by
    rintro (h | h | h | h)
    · exact hle _ (by decide) h.2
    · exact hle _ (by decide) h.2
    · exact hle _ (by decide) h.2
    · have := hm ['-', '.', '_', '~'] (by decide)
      rw [List.contains_iff_mem.mpr h] at this
      cases this
  rw [decide_eq_false h1, beq_eq_false_iff_ne.mpr (hne '?' (by decide))]
  rfl

theorem pathChar_high {c : Char} (h : 128 ≤ c.toNat) : pathChar c = false := (Bool.or_eq_false_iff.mp (not_allowed_high h)).1

theorem path_quote (cs : List Char) : urlquote (pcharSafe ++ str "/") (codes cs) = .ok (codes (percentEncode pathChar cs)) :=
  urlquote_spec _ _ (safe_high _ (by decide)) (ascii_chars (by decide +kernel)) (fun _ => pathChar_high) cs

theorem query_quote (cs : List Char) : urlquote (pcharSafe ++ str "/?") (codes cs) = .ok (codes (percentEncode queryChar cs)) :=
  urlquote_spec _ _ (safe_high _ (by decide)) (ascii_chars (by decide +kernel)) (fun _ => not_allowed_high) cs

/-! ### the URI -/

/-- the authority up to its first colon, and the rest -/
def HostPart (authority host rest : Str) : Prop := authority = host ++ rest ∧ 58 ∉ host ∧ (rest = [] ∨ ∃ r, rest = 58 :: r)

theorem authority_spec {env : Env} {authority host rest host' : Str} (h : HostPart authority host rest) (hi : env.idna host = .ok host') :
    env.iriAuthority authority = .ok (host' ++ rest) := by
  obtain ⟨rfl, hn, hr⟩ := h
  unfold Env.iriAuthority
  rcases hr with rfl | ⟨r, rfl⟩
  · rw [List.append_nil, List.append_nil, split1_nowhere.mpr hn]; exact hi
  · rw [split1_parts.mpr ⟨rfl, hn⟩]
    dsimp only
    rw [hi]
    show Except.ok (host' ++ [58] ++ r) = _
    rw [List.append_assoc]; rfl

theorem iriToUri_spec {env : Env} {iri scheme authority host rest host' : Str} {path query fragment : List Char}
    (hu : env.urlsplit iri = .ok ⟨scheme, authority, codes path, codes query, codes fragment⟩)
    (ha : HostPart authority host rest) (hi : env.idna host = .ok host') :
    env.iriToUri iri = .ok (env.urlunsplit ⟨scheme, host' ++ rest, codes (percentEncode pathChar path),
      codes (percentEncode queryChar query), codes (percentEncode queryChar fragment)⟩) := by
  unfold Env.iriToUri
  dsimp only [bind, Except.bind]
  rw [hu]
  dsimp only
  rw [authority_spec ha hi]
  dsimp only
  rw [path_quote]
  dsimp only
  rw [query_quote]
  dsimp only
  rw [query_quote]
  rfl

/-- **C109** (URI) the `uri` of a request, when its target can be taken apart and its host converted: the scheme is kept, and so is the
authority from its first colon on; what is before that is converted by IDNA; in the path, the query and the fragment, every character that
a URI doesn't allow there is replaced by the percent-encoding of its UTF-8 bytes, and every other one kept.  `uri` is what these are put
together to, without the fragment. -/
theorem C109_uri_partial (env : Env) (method target version : Str) (m : Msg) (hk : m.kind = .request) {cs : List Char} (hr : Replaces target cs)
    {scheme authority host rest host' : Str} {path query fragment : List Char}
    (hu : env.urlsplit (codes cs) = .ok ⟨scheme, authority, codes path, codes query, codes fragment⟩)
    (ha : HostPart authority host rest) (hi : env.idna host = .ok host') :
    ∃ m' u, m.requestTopline env method target version = (m', .ok ()) ∧ m'.uri = some u ∧
      WithoutFragment (env.urlunsplit ⟨scheme, host' ++ rest, codes (percentEncode pathChar path),
        codes (percentEncode queryChar query), codes (percentEncode queryChar fragment)⟩) u := by
  obtain ⟨ds, hd, he⟩ := replace_spec target
  obtain rfl := C109_one_reading hr hd
  obtain ⟨m', u, h1, h2, h3, _⟩ := (C48_request_line env method target version m hk).1 _ (by rw [he]; exact iriToUri_spec hu ha hi)
  exact ⟨m', u, h1, h3, h2⟩

/-- **C109** (not a URI) if the target cannot be taken apart or its host not converted, `uri` is the text itself, and `URI_BAD_SYNTAX` is added -/
theorem C109_hopeless (env : Env) (method target version : Str) (m : Msg) (hk : m.kind = .request) {cs : List Char} (hr : Replaces target cs)
    {e : Exn} (hv : e.isValueError = true)
    (hu : env.urlsplit (codes cs) = .error e ∨ ∃ u host rest, env.urlsplit (codes cs) = .ok u ∧ HostPart u.netloc host rest ∧ env.idna host = .error e) :
    ∃ m', m.requestTopline env method target version = (m', .ok ()) ∧ m'.uri = some (codes cs) ∧ Adds1 .URI_BAD_SYNTAX m m' True := by
  obtain ⟨ds, hd, he⟩ := replace_spec target
  obtain rfl := C109_one_reading hr hd
  have hc : env.iriToUri (codes cs) = .error e := by
    unfold Env.iriToUri
    dsimp only [bind, Except.bind]
    rcases hu with hu | ⟨u, host, rest, hu, ⟨hh, hn, hrest⟩, hi⟩
    · rw [hu]
    · rw [hu]
      dsimp only
      have : env.iriAuthority u.netloc = .error e := by
        unfold Env.iriAuthority
        rw [hh]
        rcases hrest with rfl | ⟨r, rfl⟩
        · rw [List.append_nil, split1_nowhere.mpr hn]; exact hi
        · rw [split1_parts.mpr ⟨rfl, hn⟩]
          dsimp only
          rw [hi]; rfl
      rw [this]
  obtain ⟨m', h1, h2, h3, _⟩ := (C48_request_line env method target version m hk).2 e (by rw [he]; exact hc) hv
  exact ⟨m', h1, by rw [h2, he], h3⟩

theorem percent_allowed {allowed : Char → Bool} (hp : ∀ c ∈ "%0123456789ABCDEF".toList, allowed c = true) (cs : List Char) :
    ∀ c ∈ percentEncode allowed cs, allowed c = true := by
  intro c hc
  obtain ⟨d, _, hd⟩ := List.mem_flatMap.mp hc
  split at hd
  · rename_i h
    rw [List.mem_singleton] at hd; subst hd; exact h
  · obtain ⟨b, hb, hd⟩ := List.mem_flatMap.mp hd
    have hx : ∀ n, n < 16 → allowed (hexUpper n) = true := by
      have : ∀ n : Fin 16, hexUpper n.val ∈ "%0123456789ABCDEF".toList := by decide
      exact fun n h => hp _ (this ⟨n, h⟩)
    have := utf8_lt d b hb
    rcases List.mem_cons.mp hd with rfl | hd
    · exact hp _ (by decide)
    · rcases List.mem_cons.mp hd with rfl | hd
      · exact hx _ (by omega)
      · rw [List.mem_singleton] at hd; subst hd
        exact hx _ (by omega)

/-- **C109** (allowed characters) whatever the path, query and fragment of the target, those of the URI only have characters that a URI
allows there: in particular, only ASCII -/
theorem C109_allowed (cs : List Char) :
    (∀ c ∈ percentEncode pathChar cs, pathChar c = true ∧ c.toNat < 128) ∧ (∀ c ∈ percentEncode queryChar cs, queryChar c = true ∧ c.toNat < 128) := by
  have low : ∀ c, queryChar c = true → c.toNat < 128 := fun c h => Nat.not_le.mp fun hl => by rw [not_allowed_high hl] at h; cases h
  constructor
  · intro c hc
    have := percent_allowed (by decide) cs c hc
    exact ⟨this, low c (by unfold queryChar; rw [this]; rfl)⟩
  · intro c hc
    have := percent_allowed (by decide) cs c hc
    exact ⟨this, low c this⟩

theorem percent_id {allowed : Char → Bool} : ∀ cs : List Char, (∀ c ∈ cs, allowed c = true) → percentEncode allowed cs = cs
  | [], _ => rfl
  | c :: cs, h => by
    show (if allowed c = true then [c] else _) ++ percentEncode allowed cs = _
    rw [if_pos (h c (.head _)), percent_id cs fun x hx => h x (.tail _ hx)]; rfl

/-- **C109** (already a URI) where only allowed characters are, nothing changes -/
theorem C109_unchanged (cs : List Char) :
    ((∀ c ∈ cs, pathChar c = true) → percentEncode pathChar cs = cs) ∧ ((∀ c ∈ cs, queryChar c = true) → percentEncode queryChar cs = cs) :=
  ⟨percent_id cs, percent_id cs⟩

/-- **C109** (twice) converting again changes nothing -/
theorem C109_idempotent (cs : List Char) :
    percentEncode pathChar (percentEncode pathChar cs) = percentEncode pathChar cs ∧
    percentEncode queryChar (percentEncode queryChar cs) = percentEncode queryChar cs :=
  ⟨percent_id _ fun c hc => ((C109_allowed cs).1 c hc).1, percent_id _ fun c hc => ((C109_allowed cs).2 c hc).1⟩

/-! ### examples, and what is not so -/

/-- an environment that takes `http://` IRIs apart and puts them together, with an IDNA that only knows `é` -/
def iriEnv : Env := { toyEnv with
  urlsplit := fun s => match split1 47 (s.drop 7) with
    | some (a, p) => match split1 63 p with
      | some (p, q) => .ok ⟨str "http", a, 47 :: p, q, []⟩
      | none => .ok ⟨str "http", a, 47 :: p, [], []⟩
    | none => .ok ⟨str "http", s.drop 7, [], [], []⟩
  urlunsplit := fun u => u.scheme ++ str "://" ++ u.netloc ++ u.path ++ (if u.query.isEmpty then [] else 63 :: u.query)
  idna := fun s => if s = [233] then .ok (str "xn--9ca") else if s.all (· < 128) then .ok s else .error .unicodeError }

/-- the `uri`, and the notes, after a request line with this text as its target -/
def targetOutcome (cs : String) : Option Str × List NoteId :=
  let m := (({ kind := .request, defaults := [] } : Msg).requestTopline iriEnv (str "GET") (utf8Text cs.toList) (str "1.1")).1
  (m.uri, m.notes.map (·.cls))

/-- an internationalised host, path and query; and a target that needs no conversion -/
example : targetOutcome "http://é:80/a b/%41?é" = (some (str "http://xn--9ca:80/a%20b/%41?%C3%A9"), []) := by decide +kernel
example : targetOutcome "http://example.com/a+b?c=d" = (some (str "http://example.com/a+b?c=d"), []) := by decide +kernel

/-- the hypotheses of `C109_uri_partial`, met -/
example : Replaces (utf8Text "http://é:80/a?é".toList) "http://é:80/a?é".toList ∧
    iriEnv.urlsplit (codes "http://é:80/a?é".toList) = .ok ⟨str "http", 233 :: str ":80", codes "/a".toList, codes "é".toList, codes []⟩ ∧
    HostPart (233 :: str ":80") [233] (str ":80") ∧ iriEnv.idna [233] = .ok (str "xn--9ca") :=
  ⟨replaces_text _, by rfl, ⟨rfl, by decide, .inr ⟨_, rfl⟩⟩, rfl⟩

/-- bytes that aren't UTF-8: `é` in Latin-1, and a character cut short -/
example : utf8Replace (str "a" ++ [233] ++ str "b") = codes "a\uFFFDb".toList ∧ utf8Replace [226, 130] = codes "\uFFFD".toList := by decide +kernel
/-- what is displayed of a few bytes -/
example : displayBytes (fun c => 32 ≤ c && c != 127) (str "GIF8" ++ [0, 233, 195, 169]) = codes "GIF8\\x00\\xe9é".toList := by decide +kernel

/-- **C109 is false of the whole URI**: the authority is only converted up to its first colon, and user information is taken for the host.
So this IRI, which RFC 3987 allows, gets a `uri` with a character outside ASCII, and `URI_BAD_SYNTAX`. -/
theorem C109_authority_fails : ∃ (env : Env) (target : Str) (cs : List Char), Replaces target cs ∧
    ∃ m' u, ({ kind := .request, defaults := [] } : Msg).requestTopline env (str "GET") target (str "1.1") = (m', .ok ()) ∧
      m'.uri = some u ∧ (∃ c ∈ u, 128 ≤ c) ∧ m'.notes.map (·.cls) = [.URI_BAD_SYNTAX] :=
  ⟨iriEnv, utf8Text "http://u:p@é/".toList, "http://u:p@é/".toList, replaces_text _, _, _, rfl, rfl,
    ⟨233, by decide +kernel, by decide⟩, by decide +kernel⟩

end HL.Props
