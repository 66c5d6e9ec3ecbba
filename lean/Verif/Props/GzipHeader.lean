import Verif.Props.Basic

/-!
# C29: the gzip header reader accepts exactly the RFC 1952 member header
-/

namespace HL.Props

/-- RFC 1952 section 2.3.1: an optional part that is present exactly when bit `bit` of FLG is set -/
def Optional (flag bit : Nat) (shape : Str → Prop) (s : Str) : Prop :=
  (flag.testBit bit = true ∧ shape s) ∨ (flag.testBit bit = false ∧ s = [])

/-- a zero-terminated string -/
def ZString (s : Str) : Prop := ∃ t, 0 ∉ t ∧ s = t ++ [0]

/-- XLEN (two bytes, least significant first) and as many bytes -/
def ExtraField (s : Str) : Prop := ∃ a b body, s = a :: b :: body ∧ body.length = a + 256 * b

/-- RFC 1952 section 2.3: `ID1 ID2 CM FLG MTIME(4) XFL OS [extra] [name] [comment] [crc16]` -/
def IsGzipHeader (h : Str) : Prop :=
  ∃ flag six extra name comment crc,
    h = [0x1f, 0x8b, 8, flag] ++ six ++ extra ++ name ++ comment ++ crc ∧ six.length = 6 ∧
    Optional flag 2 ExtraField extra ∧ Optional flag 3 ZString name ∧ Optional flag 4 ZString comment ∧
    Optional flag 1 (fun s => s.length = 2) crc

/-! ### the skip functions -/

theorem hasFlag_testBit (flag k : Nat) : hasFlag flag (2 ^ k) = flag.testBit k := by
  rw [Nat.testBit_eq_decide_div_mod_eq]
  unfold hasFlag
  rw [Bool.beq_eq_decide_eq]

theorem skipZ_cons (c : Nat) (s : Str) : skipZ (c :: s) = if c = 0 then some s else skipZ s := by
  cases c <;> simp [skipZ]

theorem skipZ_some {s r : Str} : skipZ s = some r ↔ ∃ z, ZString z ∧ s = z ++ r := by
  induction s with
  | nil =>
    simp only [skipZ, ZString]
    constructor
    · intro h; cases h
    · rintro ⟨z, ⟨t, _, rfl⟩, h⟩; simp at h
  | cons c s ih =>
    by_cases hc : c = 0
    · subst hc
      simp only [skipZ, Option.some.injEq, ZString]
      constructor
      · rintro rfl; exact ⟨[0], ⟨[], by simp⟩, rfl⟩
      · rintro ⟨z, ⟨t, ht, rfl⟩, h⟩
        cases t with
        | nil => simpa using h
        | cons a t =>
          simp only [List.cons_append, List.cons.injEq] at h
          exact absurd (h.1 ▸ List.mem_cons_self) ht
    · have : skipZ (c :: s) = skipZ s := by rw [skipZ_cons, if_neg hc]
      rw [this, ih]
      constructor
      · rintro ⟨z, ⟨t, ht, rfl⟩, rfl⟩
        exact ⟨c :: (t ++ [0]), ⟨c :: t, by simp [ht, Ne.symm hc], rfl⟩, rfl⟩
      · rintro ⟨z, ⟨t, ht, rfl⟩, h⟩
        cases t with
        | nil => simp at h; exact absurd h.1 hc
        | cons a t =>
          simp only [List.cons_append, List.cons.injEq] at h
          exact ⟨t ++ [0], ⟨t, fun hm => ht (List.mem_cons_of_mem _ hm), rfl⟩, by simpa using h.2⟩

theorem skipN_some {n : Nat} {s r : Str} : skipN n s = some r ↔ ∃ z, z.length = n ∧ s = z ++ r := by
  unfold skipN
  split
  · constructor
    · intro h; cases h
    · rintro ⟨z, hz, rfl⟩; simp at *; omega
  · constructor
    · intro h
      simp only [Option.some.injEq] at h
      refine ⟨s.take n, ?_, ?_⟩
      · simp; omega
      · rw [← h, List.take_append_drop]
    · rintro ⟨z, hz, rfl⟩
      simp [← hz]

theorem skipExtra_some {s r : Str} : skipExtra s = some r ↔ ∃ z, ExtraField z ∧ s = z ++ r := by
  unfold skipExtra
  split
  · rename_i a b t
    rw [skipN_some]
    constructor
    · rintro ⟨z, hz, rfl⟩; exact ⟨a :: b :: z, ⟨a, b, z, rfl, hz⟩, rfl⟩
    · rintro ⟨z, ⟨a', b', body, rfl, hl⟩, h⟩
      simp only [List.cons_append, List.cons.injEq] at h
      obtain ⟨rfl, rfl, rfl⟩ := h
      exact ⟨body, hl, rfl⟩
  · rename_i hne
    constructor
    · intro h; cases h
    · rintro ⟨z, ⟨a', b', body, rfl, hl⟩, rfl⟩
      exact absurd rfl (hne a' b' (body ++ r))

theorem skipIf_some {flag k : Nat} {f : Str → Option Str} {shape : Str → Prop}
    (hf : ∀ s r, f s = some r ↔ ∃ z, shape z ∧ s = z ++ r) (s r : Str) :
    skipIf (hasFlag flag (2 ^ k)) f s = some r ↔ ∃ z, Optional flag k shape z ∧ s = z ++ r := by
  rw [hasFlag_testBit]
  unfold skipIf Optional
  cases h : flag.testBit k
  · simp only [Bool.false_eq_true, if_false, false_and, true_and, false_or, Option.some.injEq]
    constructor
    · rintro rfl; exact ⟨[], rfl, rfl⟩
    · rintro ⟨z, rfl, rfl⟩; rfl
  · simp only [if_true, true_and, Bool.true_eq_false, false_and, or_false]
    exact hf s r

/-! ### a proper prefix makes a skip fail, and a failed skip can be completed -/

/-- `f` skips a prefix-free shape: it succeeds exactly on extensions of shapes, and when it fails the input can
be extended to a shape -/
structure Skips (f : Str → Option Str) (shape : Str → Prop) : Prop where
  some_iff : ∀ s r, f s = some r ↔ ∃ z, shape z ∧ s = z ++ r
  complete : ∀ s, f s = none → ∃ t, shape (s ++ t)

theorem skips_Z : Skips skipZ ZString where
  some_iff _ _ := skipZ_some
  complete s h := by
    refine ⟨[0], s, ?_, rfl⟩
    intro hm
    obtain ⟨a, b, rfl⟩ := List.append_of_mem hm
    induction a with
    | nil => simp [skipZ] at h
    | cons c a ih =>
      by_cases hc : c = 0
      · subst hc; simp [skipZ] at h
      · apply ih _ (by simp)
        have : skipZ (c :: a ++ 0 :: b) = skipZ (a ++ 0 :: b) := by
          rw [List.cons_append, skipZ_cons, if_neg hc]
        rwa [this] at h

theorem skips_N (n : Nat) : Skips (skipN n) (fun s => s.length = n) where
  some_iff _ _ := skipN_some
  complete s h := by
    unfold skipN at h
    split at h
    · exact ⟨List.replicate (n - s.length) 0, by simp; omega⟩
    · cases h

theorem skips_extra : Skips skipExtra ExtraField where
  some_iff _ _ := skipExtra_some
  complete s h := by
    unfold skipExtra at h
    split at h
    · rename_i a b t
      obtain ⟨u, hu⟩ := (skips_N (a + 256 * b)).complete t h
      exact ⟨u, a, b, t ++ u, by simp, hu⟩
    · rename_i hne
      match s, hne with
      | [], _ => exact ⟨[0, 0], 0, 0, [], by simp⟩
      | [a], _ => exact ⟨0 :: List.replicate a 0, a, 0, List.replicate a 0, by simp⟩
      | a :: b :: r, hne => exact absurd rfl (hne a b r)

theorem skips_if {flag k : Nat} {f : Str → Option Str} {shape : Str → Prop} (h : Skips f shape) :
    Skips (skipIf (hasFlag flag (2 ^ k)) f) (Optional flag k shape) where
  some_iff := skipIf_some h.some_iff
  complete s hn := by
    rw [hasFlag_testBit] at hn
    unfold skipIf at hn
    split at hn
    · rename_i hb
      obtain ⟨t, ht⟩ := h.complete s hn
      exact ⟨t, .inl ⟨hb, ht⟩⟩
    · cases hn

/-- running one skip after another -/
theorem Skips.seq {f g : Str → Option Str} {p q : Str → Prop} (hf : Skips f p) (hg : Skips g q)
    (inh : ∃ s, q s) : Skips (fun s => (f s).bind g) (fun s => ∃ a b, s = a ++ b ∧ p a ∧ q b) where
  some_iff s r := by
    constructor
    · intro h
      cases h1 : f s with
      | none => simp [h1] at h
      | some s1 =>
        simp only [h1, Option.bind_some] at h
        obtain ⟨z, hz, rfl⟩ := (hf.some_iff _ _).1 h1
        obtain ⟨w, hw, rfl⟩ := (hg.some_iff _ _).1 h
        exact ⟨z ++ w, ⟨z, w, rfl, hz, hw⟩, by simp⟩
    · rintro ⟨_, ⟨a, b, rfl, ha, hb⟩, rfl⟩
      have h1 : f (a ++ b ++ r) = some (b ++ r) := (hf.some_iff _ _).2 ⟨a, ha, by simp⟩
      have h2 : g (b ++ r) = some r := (hg.some_iff _ _).2 ⟨b, hb, rfl⟩
      show (f (a ++ b ++ r)).bind g = some r
      rw [h1]; exact h2
  complete s h := by
    cases h1 : f s with
    | none =>
      obtain ⟨t, ht⟩ := hf.complete s h1
      obtain ⟨u, hu⟩ := inh
      exact ⟨t ++ u, s ++ t, u, by simp, ht, hu⟩
    | some s1 =>
      simp only [h1, Option.bind_some] at h
      obtain ⟨z, hz, rfl⟩ := (hf.some_iff _ _).1 h1
      obtain ⟨t, ht⟩ := hg.complete s1 h
      exact ⟨t, z, s1 ++ t, by simp, hz, ht⟩

theorem optional_inh {flag k : Nat} {p : Str → Prop} (h : ∃ s, p s) : ∃ s, Optional flag k p s := by
  cases hb : flag.testBit k
  · exact ⟨[], .inr ⟨hb, rfl⟩⟩
  · obtain ⟨s, hs⟩ := h; exact ⟨s, .inl ⟨hb, hs⟩⟩

/-- the optional parts of the header after its first ten bytes -/
def OptParts (flag : Nat) (s : Str) : Prop :=
  ∃ extra r1, s = extra ++ r1 ∧ Optional flag 2 ExtraField extra ∧ ∃ name r2, r1 = name ++ r2 ∧
    Optional flag 3 ZString name ∧ ∃ comment crc, r2 = comment ++ crc ∧ Optional flag 4 ZString comment ∧
    Optional flag 1 (fun s => s.length = 2) crc

theorem skips_optional (flag : Nat) : Skips (skipOptional flag) (OptParts flag) := by
  have iz : ∃ s, ZString s := ⟨[0], [], by simp⟩
  have i2 : ∃ s : Str, s.length = 2 := ⟨[0, 0], rfl⟩
  have h1 := skips_if (flag := flag) (k := 1) (skips_N 2)
  have h4 := skips_if (flag := flag) (k := 4) skips_Z
  have h3 := skips_if (flag := flag) (k := 3) skips_Z
  have h2 := skips_if (flag := flag) (k := 2) skips_extra
  have c41 := h4.seq h1 (optional_inh i2)
  have i41 : ∃ s, ∃ a b, s = a ++ b ∧ Optional flag 4 ZString a ∧ Optional flag 1 (fun s => s.length = 2) b := by
    obtain ⟨a, ha⟩ := optional_inh (flag := flag) (k := 4) iz
    obtain ⟨b, hb⟩ := optional_inh (flag := flag) (k := 1) i2
    exact ⟨a ++ b, a, b, rfl, ha, hb⟩
  have c341 := h3.seq c41 i41
  have i341 : ∃ s, ∃ a b, s = a ++ b ∧ Optional flag 3 ZString a ∧
      ∃ c d, b = c ++ d ∧ Optional flag 4 ZString c ∧ Optional flag 1 (fun s => s.length = 2) d := by
    obtain ⟨a, ha⟩ := optional_inh (flag := flag) (k := 3) iz
    obtain ⟨b, hb⟩ := i41
    exact ⟨a ++ b, a, b, rfl, ha, hb⟩
  have c := h2.seq c341 i341
  exact c

/-! ### the header -/

theorem isGzipHeader_iff (h : Str) :
    IsGzipHeader h ↔ ∃ flag six opt, h = [0x1f, 0x8b, 8, flag] ++ six ++ opt ∧ six.length = 6 ∧ OptParts flag opt := by
  constructor
  · rintro ⟨flag, six, e, n, c, k, rfl, h6, he, hn, hc, hk⟩
    exact ⟨flag, six, e ++ (n ++ (c ++ k)), by simp, h6, e, _, rfl, he, n, _, rfl, hn, c, k, rfl, hc, hk⟩
  · rintro ⟨flag, six, opt, rfl, h6, e, _, rfl, he, n, _, rfl, hn, c, k, rfl, hc, hk⟩
    exact ⟨flag, six, e, n, c, k, by simp, h6, he, hn, hc, hk⟩

theorem ten_bytes {s : Str} (h : ¬ s.length < 10) (h2 : s.take 2 = [31, 139]) (h3 : s[2]? = some 8) :
    ∃ flag six, s = [0x1f, 0x8b, 8, flag] ++ six ++ s.drop 10 ∧ six.length = 6 ∧ (s[3]?).getD 0 = flag := by
  match s with
  | a :: b :: c :: d :: e :: f :: g :: i :: j :: k :: r =>
    simp at h2 h3
    obtain ⟨rfl, rfl⟩ := h2
    subst h3
    exact ⟨d, [e, f, g, i, j, k], by simp, rfl, by simp⟩
  | [] => simp at h
  | [_] => simp at h
  | [_, _] => simp at h
  | [_, _, _] => simp at h
  | [_, _, _, _] => simp at h
  | [_, _, _, _, _] => simp at h
  | [_, _, _, _, _, _] => simp at h
  | [_, _, _, _, _, _, _] => simp at h
  | [_, _, _, _, _, _, _, _] => simp at h
  | [_, _, _, _, _, _, _, _, _] => simp at h

theorem read_on_fixed (flag : Nat) (six rest : Str) (h6 : six.length = 6) :
    readGzipHeader ([0x1f, 0x8b, 8, flag] ++ six ++ rest) =
      match skipOptional flag rest with
      | none => .incomplete
      | some r => .ok r := by
  match six, h6 with
  | [e, f, g, i, j, k], _ =>
    simp only [readGzipHeader, List.cons_append, List.nil_append, List.length_cons, List.take_succ_cons,
      List.take_zero, List.drop_succ_cons, List.drop_zero]
    rw [if_neg (by omega), if_neg (by simp), if_neg (by simp)]
    rfl

/-- **C29**, acceptance: the reader returns `rest` exactly when the content is an RFC 1952 header followed by
`rest`. -/
theorem C29_gzip_header_ok (content rest : Str) :
    readGzipHeader content = .ok rest ↔ ∃ h, IsGzipHeader h ∧ content = h ++ rest := by
  constructor
  · intro hr
    unfold readGzipHeader at hr
    split at hr
    · cases hr
    · rename_i hl
      split at hr
      · cases hr
      · rename_i h2
        split at hr
        · cases hr
        · rename_i h3
          simp only [ne_eq, Decidable.not_not] at h2 h3
          obtain ⟨flag, six, hc, h6, hflag⟩ := ten_bytes hl h2 h3
          rw [hflag] at hr
          split at hr
          · cases hr
          · rename_i r hs
            simp only [GzHeader.ok.injEq] at hr
            subst hr
            obtain ⟨z, hz, hd⟩ := ((skips_optional flag).some_iff _ _).1 hs
            refine ⟨[0x1f, 0x8b, 8, flag] ++ six ++ z, (isGzipHeader_iff _).2 ⟨flag, six, z, rfl, h6, hz⟩, ?_⟩
            rw [hc, hd]; simp
  · rintro ⟨h, hh, rfl⟩
    obtain ⟨flag, six, opt, rfl, h6, ho⟩ := (isGzipHeader_iff _).1 hh
    have := read_on_fixed flag six (opt ++ rest) h6
    rw [((skips_optional flag).some_iff (opt ++ rest) rest).2 ⟨opt, ho, rfl⟩] at this
    simpa using this

/-- **C29**, errors: an error is reported exactly when ten bytes are there and they do not start with the gzip
magic and the deflate method. -/
theorem C29_gzip_header_bad (content : Str) :
    (∃ msg, readGzipHeader content = .bad msg) ↔
      10 ≤ content.length ∧ ¬ ∃ t, content = [0x1f, 0x8b, 8] ++ t := by
  unfold readGzipHeader
  constructor
  · rintro ⟨msg, h⟩
    split at h
    · cases h
    · rename_i hl
      refine ⟨by omega, ?_⟩
      rintro ⟨t, rfl⟩
      simp at h
      split at h <;> cases h
  · rintro ⟨hl, hn⟩
    split
    · omega
    · split
      · exact ⟨_, rfl⟩
      · rename_i h2
        split
        · exact ⟨_, rfl⟩
        · rename_i hl' h3
          simp only [ne_eq, Decidable.not_not] at h2 h3
          obtain ⟨flag, six, hc, _, _⟩ := ten_bytes hl' h2 h3
          exact absurd ⟨flag :: (six ++ content.drop 10), by simpa using hc⟩ hn

/-- **C29**, waiting: the reader asks for more exactly when fewer than ten bytes are there, or the content is a
proper prefix of an RFC 1952 header. -/
theorem C29_gzip_header_incomplete (content : Str) :
    readGzipHeader content = .incomplete ↔
      content.length < 10 ∨ ∃ t, t ≠ [] ∧ IsGzipHeader (content ++ t) := by
  constructor
  · intro h
    by_cases hl : content.length < 10
    · exact .inl hl
    · right
      unfold readGzipHeader at h
      rw [if_neg hl] at h
      split at h
      · cases h
      · rename_i h2
        split at h
        · cases h
        · rename_i h3
          simp only [ne_eq, Decidable.not_not] at h2 h3
          obtain ⟨flag, six, hc, h6, hflag⟩ := ten_bytes hl h2 h3
          rw [hflag] at h
          split at h
          · rename_i hs
            obtain ⟨t, ht⟩ := (skips_optional flag).complete _ hs
            refine ⟨t, ?_, (isGzipHeader_iff _).2 ⟨flag, six, content.drop 10 ++ t, ?_, h6, ht⟩⟩
            · rintro rfl
              rw [List.append_nil] at ht
              have := ((skips_optional flag).some_iff (content.drop 10) []).2 ⟨_, ht, by simp⟩
              rw [this] at hs; cases hs
            · conv => lhs; rw [hc]
              simp
          · cases h
  · rintro (hl | ⟨t, htn, hh⟩)
    · simp [readGzipHeader, hl]
    · -- the whole header reads to `ok []`; a shorter prefix cannot read to `ok` or `bad`
      cases hr : readGzipHeader content with
      | incomplete => rfl
      | bad msg =>
        exfalso
        obtain ⟨hl, hn⟩ := (C29_gzip_header_bad content).1 ⟨msg, hr⟩
        obtain ⟨flag, six, opt, he, h6, ho⟩ := (isGzipHeader_iff _).1 hh
        apply hn
        match content with
        | a :: b :: c :: r =>
          simp at he
          obtain ⟨rfl, rfl, rfl, _⟩ := he
          exact ⟨r, rfl⟩
        | [] => simp at hl
        | [_] => simp at hl
        | [_, _] => simp at hl
      | ok rest =>
        exfalso
        obtain ⟨h, hh', rfl⟩ := (C29_gzip_header_ok _ _).1 hr
        have a1 : readGzipHeader (h ++ rest ++ t) = .ok [] := (C29_gzip_header_ok _ _).2 ⟨_, hh, by simp⟩
        have a2 : readGzipHeader (h ++ rest ++ t) = .ok (rest ++ t) :=
          (C29_gzip_header_ok _ _).2 ⟨h, hh', by simp⟩
        rw [a1] at a2
        simp only [GzHeader.ok.injEq] at a2
        simp at a2
        exact htn a2.2

/-- non-vacuity: a header with a file name and a CRC, and its payload -/
example : readGzipHeader ([31, 139, 8, 10, 0, 0, 0, 0, 0, 3] ++ str "a.txt" ++ [0, 7, 9] ++ [75, 4]) = .ok [75, 4] := by
  decide
example : readGzipHeader ([31, 139, 8, 4, 0, 0, 0, 0, 0, 3] ++ [3, 0, 1, 2]) = .incomplete := by decide
example : readGzipHeader (str "hello, world") =
    .bad (str "Not a gzip header (magic is hex 6865, should be 1f8b)") := by decide

end HL.Props
