import Verif.Props.Topline
import Verif.Props.SessionThm

/-!
# Text from the wire: displaying bytes, and IRIs (C108, C109)

The specification of UTF-8 is Lean's own (`String.utf8EncodeChar`).
-/

namespace HL.Props

/-- the UTF-8 encoding of a character -/
def utf8 (c : Char) : Str := (String.utf8EncodeChar c).map UInt8.toNat
/-- the code points of a text -/
def codes (cs : List Char) : Str := cs.map Char.toNat
/-- the UTF-8 encoding of a text -/
def utf8Text (cs : List Char) : Str := cs.flatMap utf8

/-! ### encoding -/

theorem char_lt (c : Char) : c.toNat < 55296 ∨ (57343 < c.toNat ∧ c.toNat < 1114112) := by
  have h : c.toNat.isValidChar := c.valid
  unfold Nat.isValidChar at h
  omega

theorem u8 (n : Nat) (h : n < 256) : (UInt8.ofNat n).toNat = n := by
  simp only [UInt8.toNat_ofNat']; omega

theorem utf8Enc_char (c : Char) : utf8Enc c.toNat = some (utf8 c) := by
  have hv : c.val.toNat = c.toNat := rfl
  have hl := char_lt c
  unfold utf8 String.utf8EncodeChar utf8Enc
  simp only [hv]
  generalize c.toNat = n at *
  by_cases h1 : n < 128
  · rw [if_pos h1, if_pos (show n ≤ 127 by omega)]
    simp only [List.map_cons, List.map_nil]; rw [u8 _ (by omega)]
  · rw [if_neg h1, if_neg (show ¬ n ≤ 127 by omega)]
    by_cases h2 : n < 2048
    · rw [if_pos h2, if_pos (show n ≤ 2047 by omega)]
      simp only [List.map_cons, List.map_nil]; rw [u8 _ (by omega), u8 _ (by omega)]
      simp only [Option.some.injEq, List.cons.injEq, and_true]
      omega
    · rw [if_neg h2, if_neg (show ¬ n ≤ 2047 by omega), if_neg (by simp; omega)]
      by_cases h3 : n < 65536
      · rw [if_pos h3, if_pos (show n ≤ 65535 by omega)]
        simp only [List.map_cons, List.map_nil]; rw [u8 _ (by omega), u8 _ (by omega), u8 _ (by omega)]
        simp only [Option.some.injEq, List.cons.injEq, and_true]
        omega
      · rw [if_neg h3, if_neg (show ¬ n ≤ 65535 by omega), if_pos (by omega)]
        simp only [List.map_cons, List.map_nil]; rw [u8 _ (by omega), u8 _ (by omega), u8 _ (by omega), u8 _ (by omega)]
        simp only [Option.some.injEq, List.cons.injEq, and_true]
        omega

/-- what has an encoding is a character -/
theorem utf8Enc_some {n : Nat} {b : Str} (h : utf8Enc n = some b) : ∃ c : Char, c.toNat = n ∧ b = utf8 c := by
  have hv : n.isValidChar := by
    unfold utf8Enc at h
    unfold Nat.isValidChar
    simp only [Bool.and_eq_true, decide_eq_true_eq] at h
    repeat' split at h
    all_goals first | omega | cases h
  have e : (Char.ofNatAux n hv).toNat = n := by
    unfold Char.ofNatAux Char.toNat
    exact UInt32.toNat_ofNatLT
  refine ⟨Char.ofNatAux n hv, e, ?_⟩
  have := utf8Enc_char (Char.ofNatAux n hv)
  rw [e, h] at this
  exact Option.some.inj this

/-! ### decoding one character -/

theorem isCont_iff {b : Nat} : isCont b = true ↔ 128 ≤ b ∧ b < 192 := by
  unfold isCont; rw [Bool.and_eq_true, decide_eq_true_eq, decide_eq_true_eq]

theorem second_iff {a b : Nat} : second a b = true ↔
    (128 ≤ b ∧ b < 192) ∧ ¬ (a = 224 ∧ b < 160) ∧ ¬ (a = 237 ∧ 160 ≤ b) ∧ ¬ (a = 240 ∧ b < 144) ∧ ¬ (a = 244 ∧ 144 ≤ b) := by
  unfold second
  simp only [Bool.and_eq_true, isCont_iff, Bool.not_eq_true', Bool.and_eq_false_iff, beq_eq_false_iff_ne, decide_eq_false_iff_not, ge_iff_le]
  omega

theorem utf8One_enc {n : Nat} {b t : Str} (h : utf8Enc n = some b) : utf8One (b ++ t) = some (n, t) := by
  unfold utf8Enc at h
  simp only [Bool.and_eq_true, decide_eq_true_eq] at h
  by_cases h1 : n < 128
  · rw [if_pos h1] at h; cases h
    show (if n < 128 then _ else _) = _
    rw [if_pos h1]; rfl
  · rw [if_neg h1] at h
    by_cases h2 : n < 2048
    · rw [if_pos h2] at h; cases h
      show (if 192 + n / 64 < 128 then _ else if 192 + n / 64 < 194 then _ else if 192 + n / 64 < 224 then _ else _) = _
      rw [if_neg (by omega), if_neg (by omega), if_pos (by omega)]
      show (if isCont _ = true then _ else _) = _
      rw [if_pos (isCont_iff.mpr (by omega))]
      refine congrArg some (Prod.ext ?_ rfl); dsimp only; omega
    · rw [if_neg h2] at h
      by_cases h3 : 55296 ≤ n ∧ n < 57344
      · rw [if_pos h3] at h; cases h
      · rw [if_neg h3] at h
        by_cases h4 : n < 65536
        · rw [if_pos h4] at h; cases h
          show (if 224 + n / 4096 < 128 then _ else if 224 + n / 4096 < 194 then _ else if 224 + n / 4096 < 224 then _ else if 224 + n / 4096 < 240 then _ else _) = _
          rw [if_neg (by omega), if_neg (by omega), if_neg (by omega), if_pos (by omega)]
          show (if (second _ _ && isCont _) = true then _ else _) = _
          rw [if_pos (by rw [Bool.and_eq_true, second_iff, isCont_iff]; omega)]
          refine congrArg some (Prod.ext ?_ rfl); dsimp only; omega
        · rw [if_neg h4] at h
          by_cases h5 : n < 1114112
          · rw [if_pos h5] at h; cases h
            show (if 240 + n / 262144 < 128 then _ else if 240 + n / 262144 < 194 then _ else if 240 + n / 262144 < 224 then _ else if 240 + n / 262144 < 240 then _
              else if 240 + n / 262144 < 245 then _ else _) = _
            rw [if_neg (by omega), if_neg (by omega), if_neg (by omega), if_neg (by omega), if_pos (by omega)]
            show (if (second _ _ && isCont _ && isCont _) = true then _ else _) = _
            rw [if_pos (by rw [Bool.and_eq_true, Bool.and_eq_true, second_iff, isCont_iff, isCont_iff]; omega)]
            refine congrArg some (Prod.ext ?_ rfl); dsimp only; omega
          · rw [if_neg h5] at h; cases h

theorem utf8One_some {bs t : Str} {n : Nat} (h : utf8One bs = some (n, t)) : ∃ b, utf8Enc n = some b ∧ bs = b ++ t := by
  unfold utf8One at h
  split at h
  · cases h
  · rename_i a r
    by_cases h1 : a < 128
    · rw [if_pos h1] at h
      simp only [Option.some.injEq, Prod.mk.injEq] at h; obtain ⟨hn, rfl⟩ := h
      subst hn
      exact ⟨[a], by unfold utf8Enc; rw [if_pos h1], rfl⟩
    · rw [if_neg h1] at h
      by_cases h2 : a < 194
      · rw [if_pos h2] at h; cases h
      · rw [if_neg h2] at h
        by_cases h3 : a < 224
        · rw [if_pos h3] at h
          split at h
          · rename_i b r
            split at h
            · rename_i hb
              rw [isCont_iff] at hb
              simp only [Option.some.injEq, Prod.mk.injEq] at h; obtain ⟨hn, rfl⟩ := h
              refine ⟨[a, b], ?_, rfl⟩
              unfold utf8Enc
              rw [if_neg (by omega), if_pos (by omega)]
              simp only [Option.some.injEq, List.cons.injEq, and_true]; omega
            · cases h
          · cases h
        · rw [if_neg h3] at h
          by_cases h4 : a < 240
          · rw [if_pos h4] at h
            split at h
            · rename_i b c r
              split at h
              · rename_i hb
                rw [Bool.and_eq_true, second_iff, isCont_iff] at hb
                simp only [Option.some.injEq, Prod.mk.injEq] at h; obtain ⟨hn, rfl⟩ := h
                refine ⟨[a, b, c], ?_, rfl⟩
                unfold utf8Enc
                rw [if_neg (by omega), if_neg (by omega), if_neg (by simp only [Bool.and_eq_true, decide_eq_true_eq]; omega), if_pos (by omega)]
                simp only [Option.some.injEq, List.cons.injEq, and_true]; omega
              · cases h
            · cases h
          · rw [if_neg h4] at h
            by_cases h5 : a < 245
            · rw [if_pos h5] at h
              split at h
              · rename_i b c d r
                split at h
                · rename_i hb
                  rw [Bool.and_eq_true, Bool.and_eq_true, second_iff, isCont_iff, isCont_iff] at hb
                  simp only [Option.some.injEq, Prod.mk.injEq] at h; obtain ⟨hn, rfl⟩ := h
                  refine ⟨[a, b, c, d], ?_, rfl⟩
                  unfold utf8Enc
                  rw [if_neg (by omega), if_neg (by omega), if_neg (by simp only [Bool.and_eq_true, decide_eq_true_eq]; omega), if_neg (by omega), if_pos (by omega)]
                  simp only [Option.some.injEq, List.cons.injEq, and_true]; omega
                · cases h
              · cases h
            · rw [if_neg h5] at h; cases h

/-- the bytes begin with a character exactly when its encoding is a beginning of them -/
theorem utf8One_iff (bs t : Str) (n : Nat) : utf8One bs = some (n, t) ↔ ∃ c : Char, c.toNat = n ∧ bs = utf8 c ++ t := by
  constructor
  · intro h
    obtain ⟨b, he, rfl⟩ := utf8One_some h
    obtain ⟨c, hc, rfl⟩ := utf8Enc_some he
    exact ⟨c, hc, rfl⟩
  · rintro ⟨c, rfl, rfl⟩
    exact utf8One_enc (utf8Enc_char c)

theorem utf8_ne (c : Char) : utf8 c ≠ [] := by
  intro h
  have := utf8Enc_char c
  rw [h] at this
  unfold utf8Enc at this
  repeat' split at this
  all_goals simp at this

/-- no encoding is the beginning of another -/
theorem utf8_inj {c d : Char} {s t : Str} (h : utf8 c ++ s = utf8 d ++ t) : c = d ∧ s = t := by
  have h1 := (utf8One_iff (utf8 c ++ s) s c.toNat).mpr ⟨c, rfl, rfl⟩
  have h2 := (utf8One_iff (utf8 c ++ s) t d.toNat).mpr ⟨d, rfl, h⟩
  rw [h1] at h2
  simp only [Option.some.injEq, Prod.mk.injEq] at h2
  exact ⟨Char.ext (UInt32.toNat_inj.mp h2.1), h2.2⟩


/-! ### reading bytes as text -/

/-- a hexadecimal digit, in lower case -/
def hexLower (n : Nat) : Char := n.digitChar
/-- a byte as two hexadecimal digits -/
def hexPair (b : Nat) : List Char := [hexLower (b / 16), hexLower (b % 16)]

/-- do the bytes begin with the encoding of a character? -/
def BeginsWithChar (bs : Str) : Prop := ∃ c t, bs = utf8 c ++ t

/-- `Reads bs cs`: reading the bytes as UTF-8 gives this text, where a byte at which no character begins is written as `\x` and its two
hexadecimal digits -/
inductive Reads : Str → List Char → Prop where
  | nil : Reads [] []
  | char (c : Char) {bs cs} : Reads bs cs → Reads (utf8 c ++ bs) (c :: cs)
  | stray {b bs cs} : ¬ BeginsWithChar (b :: bs) → Reads bs cs → Reads (b :: bs) ('\\' :: 'x' :: (hexPair b ++ cs))

/-- how a character is shown: as it is if it is printable, otherwise as `\x` and the hexadecimal digits of its encoding -/
def shownAs (printable : Nat → Bool) (c : Char) : Str :=
  if printable c.toNat then [c.toNat] else codes ('\\' :: 'x' :: (utf8 c).flatMap hexPair)

theorem hexDigit_spec {n : Nat} (h : n < 16) : hexDigit n = (hexLower n).toNat := by
  have : ∀ n : Fin 16, hexDigit n.val = (hexLower n.val).toNat := by decide
  exact this ⟨n, h⟩

theorem hexStr_spec : ∀ (bs : Str), (∀ b ∈ bs, b < 256) → hexStr bs = codes (bs.flatMap hexPair)
  | [], _ => rfl
  | b :: bs, h => by
    have hb := h b (.head _)
    have ih := hexStr_spec bs fun x hx => h x (.tail _ hx)
    unfold hexStr codes at ih ⊢
    rw [List.flatMap_cons, List.flatMap_cons, List.map_append, ih, hexDigit_spec (by omega), hexDigit_spec (by omega)]
    rfl

theorem escape_spec {bs : Str} (h : ∀ b ∈ bs, b < 256) : escapeBytes bs = codes ('\\' :: 'x' :: bs.flatMap hexPair) := by
  unfold escapeBytes
  rw [hexStr_spec bs h]; rfl

theorem utf8_lt (c : Char) : ∀ b ∈ utf8 c, b < 256 := by
  intro b hb
  obtain ⟨x, _, rfl⟩ := List.mem_map.mp hb
  exact x.toNat_lt

theorem begins_iff (bs : Str) : BeginsWithChar bs ↔ (utf8One bs).isSome = true := by
  constructor
  · rintro ⟨c, t, rfl⟩
    rw [(utf8One_iff _ t c.toNat).mpr ⟨c, rfl, rfl⟩]; rfl
  · intro h
    cases e : utf8One bs with
    | none => rw [e] at h; cases h
    | some p =>
      obtain ⟨n, t⟩ := p
      obtain ⟨c, _, h⟩ := (utf8One_iff bs t n).mp e
      exact ⟨c, t, h⟩

theorem backslash_reads : ∀ (n : Nat) (bs : Str), bs.length ≤ n → (∀ b ∈ bs, b < 256) →
    ∃ cs, Reads bs cs ∧ utf8Backslash n bs = codes cs
  | 0, bs, h, _ => by
    cases bs with
    | nil => exact ⟨[], .nil, rfl⟩
    | cons a r => cases h
  | n + 1, [], _, _ => ⟨[], .nil, rfl⟩
  | n + 1, a :: r, h, hb => by
    unfold utf8Backslash
    cases e : utf8One (a :: r) with
    | none =>
      obtain ⟨cs, hr, he⟩ := backslash_reads n r (by simpa using h) fun x hx => hb x (.tail _ hx)
      refine ⟨_, .stray (fun hc => ?_) hr, ?_⟩
      · rw [begins_iff, e] at hc; cases hc
      · dsimp only
        rw [he, escape_spec (by intro x hx; rw [List.mem_singleton] at hx; subst hx; exact hb _ (.head _))]
        unfold codes
        simp
    | some p =>
      obtain ⟨k, t⟩ := p
      obtain ⟨c, rfl, hc⟩ := (utf8One_iff _ t k).mp e
      have hl : t.length ≤ n := by
        have h1 : (a :: r).length = (utf8 c).length + t.length := by rw [hc, List.length_append]
        have h2 : 0 < (utf8 c).length := List.length_pos_iff.mpr (utf8_ne c)
        have h3 : (a :: r).length ≤ n + 1 := h
        omega
      obtain ⟨cs, hr, he⟩ := backslash_reads n t hl fun x hx => hb x (by rw [hc]; exact List.mem_append_right _ hx)
      refine ⟨c :: cs, by rw [hc]; exact .char c hr, ?_⟩
      dsimp only
      rw [he]; rfl

/-- **C108** (one reading) any bytes can be read in just one way -/
theorem C108_one_reading {bs : Str} {cs ds : List Char} (h : Reads bs cs) (h' : Reads bs ds) : cs = ds := by
  induction h generalizing ds with
  | nil =>
    generalize hb : ([] : Str) = bs at h'
    cases h' with
    | nil => rfl
    | char c _ => exact absurd (List.append_eq_nil_iff.mp hb.symm).1 (utf8_ne c)
    | stray _ _ => cases hb
  | @char c bs cs hr ih =>
    generalize hb : utf8 c ++ bs = bs' at h'
    cases h' with
    | nil => exact absurd (List.append_eq_nil_iff.mp hb).1 (utf8_ne c)
    | char d hd =>
      obtain ⟨rfl, rfl⟩ := utf8_inj hb
      rw [ih hd]
    | stray hn _ => exact absurd ⟨c, bs, hb.symm⟩ hn
  | @stray b bs cs hn hr ih =>
    generalize hb : b :: bs = bs' at h'
    cases h' with
    | nil => cases hb
    | char d hd => exact absurd ⟨d, _, hb⟩ hn
    | stray _ hd =>
      obtain ⟨rfl, rfl⟩ := List.cons.inj hb
      rw [ih hd]

/-- **C108** (display) whatever the bytes, what is displayed are the first forty characters of the text they are read as, each printable
one as it is, and every other one as `\x` and the hexadecimal digits of its encoding. -/
theorem C108_display (printable : Nat → Bool) (bs : Str) (hb : ∀ b ∈ bs, b < 256) :
    ∃ cs, Reads bs cs ∧ displayBytes printable bs = (cs.take 40).flatMap (shownAs printable) := by
  obtain ⟨cs, hr, he⟩ := backslash_reads bs.length bs (Nat.le_refl _) hb
  refine ⟨cs, hr, ?_⟩
  unfold displayBytes displayLength
  rw [he]
  unfold codes
  rw [← List.map_take, List.flatMap_map]
  refine congrArg (fun f => (cs.take 40).flatMap f) (funext fun c => ?_)
  unfold shownAs
  rw [utf8Enc_char, Option.getD_some, escape_spec (utf8_lt c)]

theorem utf8_length (c : Char) : (utf8 c).length ≤ 4 := by
  have := utf8Enc_char c
  unfold utf8Enc at this
  repeat' split at this
  all_goals first | cases this | (rw [← Option.some.inj this]; simp)

theorem hexPairs_length : ∀ bs : Str, (bs.flatMap hexPair).length = 2 * bs.length
  | [] => rfl
  | b :: bs => by rw [List.flatMap_cons, List.length_append, hexPairs_length bs, List.length_cons]; show 2 + _ = _; omega

/-- **C108** (bounded) at most 400 characters are displayed, however long the input -/
theorem C108_bounded (printable : Nat → Bool) (bs : Str) (hb : ∀ b ∈ bs, b < 256) : (displayBytes printable bs).length ≤ 400 := by
  obtain ⟨cs, _, he⟩ := C108_display printable bs hb
  rw [he]
  have h1 : ∀ c, (shownAs printable c).length ≤ 10 := by
    intro c
    unfold shownAs
    split
    · simp
    · unfold codes
      have := utf8_length c
      simp only [List.length_map, List.length_cons, hexPairs_length]
      omega
  have h2 : ∀ l : List Char, (l.flatMap (shownAs printable)).length ≤ 10 * l.length := by
    intro l
    induction l with
    | nil => simp
    | cons c l ih =>
      rw [List.flatMap_cons, List.length_append, List.length_cons]
      have := h1 c
      omega
  have h3 := h2 (cs.take 40)
  have h4 : (cs.take 40).length ≤ 40 := by rw [List.length_take]; exact Nat.min_le_left _ _
  omega

/-- **C108** (safe to show) if the characters of an escape are printable, only printable characters are displayed, whatever the input -/
theorem C108_printable (printable : Nat → Bool) (hp : ∀ c ∈ codes "\\x0123456789abcdef".toList, printable c = true)
    (bs : Str) (hb : ∀ b ∈ bs, b < 256) : ∀ c ∈ displayBytes printable bs, printable c = true := by
  obtain ⟨cs, _, he⟩ := C108_display printable bs hb
  rw [he]
  intro c hc
  obtain ⟨d, _, hd⟩ := List.mem_flatMap.mp hc
  unfold shownAs at hd
  split at hd
  · rename_i h
    rw [List.mem_singleton] at hd; subst hd; exact h
  · refine hp c ?_
    have hx : ∀ n, n < 16 → (hexLower n).toNat ∈ codes "\\x0123456789abcdef".toList := by
      have : ∀ n : Fin 16, (hexLower n.val).toNat ∈ codes "\\x0123456789abcdef".toList := by decide
      exact fun n h => this ⟨n, h⟩
    obtain ⟨e, hm, rfl⟩ := List.mem_map.mp hd
    cases hm with
    | head => decide
    | tail _ hm =>
      cases hm with
      | head => decide
      | tail _ hm =>
        obtain ⟨b, hb', hm⟩ := List.mem_flatMap.mp hm
        have := utf8_lt d b hb'
        rcases List.mem_cons.mp hm with rfl | hm
        · exact hx _ (by omega)
        · rw [List.mem_singleton] at hm; subst hm
          exact hx _ (by omega)

theorem reads_text : ∀ cs : List Char, Reads (utf8Text cs) cs
  | [] => .nil
  | c :: cs => .char c (reads_text cs)

theorem utf8Text_lt (cs : List Char) : ∀ b ∈ utf8Text cs, b < 256 := by
  intro b hb
  obtain ⟨c, _, h⟩ := List.mem_flatMap.mp hb
  exact utf8_lt c b h

/-- **C108** (text) bytes that are the encoding of printable text are displayed as the first forty characters of that text -/
theorem C108_text (printable : Nat → Bool) (cs : List Char) (hp : ∀ c ∈ cs, printable c.toNat = true) :
    displayBytes printable (utf8Text cs) = codes (cs.take 40) := by
  obtain ⟨ds, hr, he⟩ := C108_display printable _ (utf8Text_lt cs)
  obtain rfl := C108_one_reading (reads_text cs) hr
  rw [he]
  have : ∀ l : List Char, (∀ c ∈ l, printable c.toNat = true) → l.flatMap (shownAs printable) = codes l := by
    intro l h
    induction l with
    | nil => rfl
    | cons c l ih =>
      rw [List.flatMap_cons, ih fun x hx => h x (.tail _ hx)]
      unfold shownAs
      rw [if_pos (h c (.head _))]; rfl
  exact this _ fun c hc => hp c (List.mem_of_mem_take hc)

end HL.Props
