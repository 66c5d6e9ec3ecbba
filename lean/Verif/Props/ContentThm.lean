import Verif.Props.StatusThm

/-!
# C46, C47: checks of the decoded content against Content-Type

The theorems are about `finish_content` on any response linter a user can have.  A digest is never empty in Python;
this is the hypothesis `Digests env`.
-/

namespace HL.Props

/-! ### specification -/

/-- MD5 digests are not empty -/
def Digests (env : Env) : Prop := ∀ s, env.md5 s ≠ []

/-- statuses whose responses carry no full representation, as the checker sees it: 1xx (but not 199), 204, 205, 206, 304 -/
def Bare (m : Msg) : Prop :=
  m.isHeadResponse = true ∨ ∃ s, m.statusCode = some s ∧ (s = 204 ∨ s = 205 ∨ s = 206 ∨ s = 304 ∨ (100 ≤ s ∧ s ≤ 198))

/-- the parsed Content-Type: a media type and parameters, among which `charset` has the value `cs` (if any) -/
def ContentType (m : Msg) (t : Str) (cs : Option Str) : Prop :=
  ∃ params, dget m.headers.parsed (str "content-type") = some (.tuple [.str t, .dict params]) ∧
    (Val.dict params).get (str "charset") = cs.map .str

/-- a media type that is defined to be UTF-8: JSON -/
def JsonType (t : Str) : Prop := t = str "application/json" ∨ t = str "text/json" ∨ ∃ a, t = a ++ str "+json"

/-- the charset the content should be in, given the type and the `charset` parameter: JSON is UTF-8, which is implied if
the parameter is not there (and the parameter is ignored); text types may declare one -/
inductive Effective (t : Str) : (param : Option Str) → (charset : Str) → (implied : Bool) → Prop
  | implied : JsonType t → Effective t none (str "utf-8") true
  | json {p} : JsonType t → Effective t (some p) (str "utf-8") false
  | declared {cs sub : Str} : ¬JsonType t → t = str "text/" ++ sub → cs ≠ [] → Effective t (some cs) cs false

/-! ### the conditions in the code -/

theorem noRepresentation_iff (m : Msg) : noRepresentation m = true ↔ Bare m := by
  unfold noRepresentation Bare
  cases m.statusCode with
  | none => simp
  | some s =>
    simp only [Bool.or_eq_true, List.contains_cons, beq_iff_eq, List.contains_nil, Bool.and_eq_true, decide_eq_true_eq,
      Option.some.injEq, exists_eq_left', Bool.false_eq_true]
    constructor
    · rintro (((h | h | h | h | h) | h) | h)
      · exact .inr (.inl h)
      · exact .inr (.inr (.inl h))
      · exact .inr (.inr (.inr (.inr (.inl h))))
      · exact .inr (.inr (.inr (.inl h)))
      · exact h.elim
      · exact .inr (.inr (.inr (.inr (.inr ⟨h.1, by omega⟩))))
      · exact .inl h
    · rintro (h | h | h | h | h | h)
      · exact .inr h
      · exact .inl (.inl (.inl h))
      · exact .inl (.inl (.inr (.inl h)))
      · exact .inl (.inl (.inr (.inr (.inr (.inl h)))))
      · exact .inl (.inl (.inr (.inr (.inl h))))
      · exact .inl (.inr ⟨h.1, by omega⟩)

theorem split1_some {c : Nat} {s a b : Str} (h : split1 c s = some (a, b)) : s = a ++ c :: b ∧ c ∉ a := by
  induction s generalizing a b with
  | nil => simp [split1] at h
  | cons x s ih =>
    unfold split1 at h
    by_cases hx : x = c
    · rw [if_pos hx] at h
      simp only [Option.some.injEq, Prod.mk.injEq] at h
      obtain ⟨rfl, rfl⟩ := h
      exact ⟨by rw [hx]; rfl, by simp⟩
    · rw [if_neg hx] at h
      cases hs : split1 c s with
      | none => simp [hs] at h
      | some p =>
        simp only [hs, Option.some.injEq, Prod.mk.injEq] at h
        obtain ⟨rfl, rfl⟩ := h
        obtain ⟨h1, h2⟩ := ih (a := p.1) (b := p.2) hs
        exact ⟨by rw [h1]; rfl, by simp [h2, Ne.symm hx]⟩

theorem split1_none {c : Nat} {s : Str} : split1 c s = none ↔ c ∉ s := by
  induction s with
  | nil => simp [split1]
  | cons x s ih =>
    unfold split1
    by_cases hx : x = c
    · simp [hx]
    · rw [if_neg hx]
      cases hs : split1 c s with
      | none => simp [ih.1 hs, Ne.symm hx]
      | some p =>
        have := (split1_some (a := p.1) (b := p.2) hs).1
        simp [this]

theorem requiresUtf8_iff (t : Str) : requiresUtf8 t = true ↔ JsonType t := by
  unfold requiresUtf8 JsonType
  by_cases h1 : t = str "application/json"
  · simp [h1]
  by_cases h2 : t = str "text/json"
  · simp [h2]
  rw [if_neg (by simp [h1, h2])]
  simp only [h1, h2, false_or, endsWith, List.isSuffixOf_iff_suffix]
  cases hs : split1 47 t with
  | none =>
    constructor
    · rintro ⟨a, h⟩; exact ⟨a, h.symm⟩
    · rintro ⟨a, h⟩; exact ⟨a, h.symm⟩
  | some p =>
    obtain ⟨e, hn⟩ := split1_some (a := p.1) (b := p.2) hs
    constructor
    · rintro ⟨a, h⟩
      refine ⟨p.1 ++ 47 :: a, ?_⟩
      rw [e]
      dsimp only at h ⊢
      rw [← h]
      simp
    · rintro ⟨a, h⟩
      dsimp only
      rw [e] at h
      -- the suffix has no slash, so it lies after the first one
      rcases List.append_eq_append_iff.1 h with ⟨x, hx, hy⟩ | ⟨x, hx, hy⟩
      · cases x with
        | nil =>
          simp only [List.nil_append] at hy
          exact absurd hy (by simp)
        | cons y x =>
          simp only [List.cons_append, List.cons.injEq] at hy
          exact ⟨x, hy.2.symm⟩
      · -- x ++ (47 :: p.2) = "+json" is impossible
        exfalso
        have : (47 : Nat) ∈ str "+json" := by rw [hy]; simp
        exact absurd this (by decide)

theorem effectiveCharset_some {t : Str} {param : Option Str} (cs : Str) (i : Bool) :
    effectiveCharset t (param.map .str) = some (cs, i) ↔ Effective t param cs i := by
  unfold effectiveCharset
  dsimp only
  by_cases hj : requiresUtf8 t = true
  · have hj' := (requiresUtf8_iff t).1 hj
    rw [if_pos hj]
    constructor
    · intro h
      simp only [Option.some.injEq, Prod.mk.injEq] at h
      obtain ⟨rfl, rfl⟩ := h
      cases param with
      | none => exact .implied hj'
      | some v => exact .json hj'
    · intro h
      cases h with
      | implied _ => rfl
      | json _ => rfl
      | declared h => exact absurd hj' h
  · have hj' : ¬JsonType t := fun h => hj ((requiresUtf8_iff t).2 h)
    rw [if_neg hj]
    constructor
    · intro h
      split at h
      · rename_i hc
        simp only [Bool.and_eq_true, startsWith, List.isPrefixOf_iff_prefix] at hc
        obtain ⟨⟨sub, hsub⟩, htr⟩ := hc
        simp only [Option.some.injEq, Prod.mk.injEq] at h
        obtain ⟨rfl, rfl⟩ := h
        cases param with
        | none => simp [Val.truthy] at htr
        | some v => exact .declared hj' hsub.symm (by simpa [Val.truthy] using htr)
      · exact nomatch h
    · intro h
      cases h with
      | implied h => exact absurd h hj'
      | json h => exact absurd h hj'
      | declared _ h1 h3 =>
        have : startsWith (str "text/") t = true := by
          rw [startsWith, List.isPrefixOf_iff_prefix]; exact ⟨_, h1.symm⟩
        rw [if_pos]
        · rfl
        · rw [this]
          simp only [Option.map_some, Option.getD_some, Val.truthy, Bool.true_and, Bool.not_eq_true', List.isEmpty_eq_false_iff]
          exact h3

/-! ### lifting to `finish_content` -/

/-- the linter as the content checks see it -/
abbrev hashedMsg (env : Env) (m : Msg) : Msg := { m with contentHash := some (env.md5 m.hashed) }

theorem finish_content_class {env related co ts m m' rn} (hr : Reachable env m) (hk : m.kind = .response)
    (h : Finishes env related co ts m m' rn) {c : NoteId} (hc : c.origin = .contentType ∨ c.origin = .charset) :
    ofClass c m'.notes = ofClass c m.notes ++ if m.noContent then [] else
      ofClass c (verifyContentType ⟨env, hashedMsg env m, related⟩).notes ++
      ofClass c (verifyCharset ⟨env, hashedMsg env m, related⟩).notes := by
  have key : ∀ d, (fun x : NoteId => x == c) d = true → d.origin = .contentType ∨ d.origin = .charset := by
    intro d hd
    rw [(beq_iff_eq.1 hd : d = c)]; exact hc
  have h1 := finish_verdicts (q := fun x => x == c) hr.good hk h ?_
  · rw [verdicts_content hr.good.mt key, sel_append] at h1
    exact h1
  · intro d hd
    cases e : (d == c) with
    | false => rfl
    | true =>
      rw [(beq_iff_eq.1 e : d = c)] at hd
      rcases hc with hc | hc <;> rw [hc] at hd <;> rcases hd with (hd | hd | hd) | hd | hd <;> exact nomatch hd

theorem hashed?_hashedMsg {env : Env} (hd : Digests env) (m : Msg) : hashed? (hashedMsg env m) = true := by
  unfold hashed? hashedMsg
  have := hd m.hashed
  dsimp only
  cases h : env.md5 m.hashed with
  | nil => exact absurd h this
  | cons => rfl

theorem charset_origin {c : NoteId} (ho : c.origin = .contentType) (ctx : Ctx) (hm : HasMT ctx.msg.defaults) :
    ofClass c (verifyCharset ctx).notes = [] := by
  refine ofClass_nil fun n hn e => ?_
  have := (verifyCharset_emits ctx hm n hn).2
  rw [e, ho] at this
  exact nomatch this

theorem contentType_origin {c : NoteId} (ho : c.origin = .charset) (ctx : Ctx) (hm : HasMT ctx.msg.defaults) :
    ofClass c (verifyContentType ctx).notes = [] := by
  refine ofClass_nil fun n hn e => ?_
  have := (verifyContentType_emits ctx hm n hn).2
  rw [e, ho] at this
  exact nomatch this

theorem adds1_of_one {c : NoteId} {m m' : Msg} {ns : List Note} {p : Prop} (h : ofClass c m'.notes = ofClass c m.notes ++ ofClass c ns)
    (ho : One c ns p) : Adds1 c m m' p := by
  unfold Adds1
  rw [h]
  rcases ho with ⟨hp, n, hn, e⟩ | ⟨hp, e⟩
  · exact .inl ⟨hp, n, hn, by rw [e]⟩
  · exact .inr ⟨hp, by rw [e, List.append_nil]⟩

section
variable {env : Env} {related : Option Msg} {co : Bool} {ts : List (Str × Str)} {m m' : Msg} {rn : List Note}

/-! ### C47 -/

/-- when CONTENT_TYPE_MISMATCH is due: the message carries a representation, its type `t` is not empty, and the sniffer
succeeds with another type (RSS and Atom sent as HTML are let pass) -/
def Mistyped (env : Env) (m : Msg) (t : Str) : Prop :=
  ¬Bare m ∧ t ≠ [] ∧ ∃ sniffed, env.sniff m.contentSample t = .ok sniffed ∧ sniffed ≠ t ∧
    ¬(t = str "text/html" ∧ (sniffed = str "application/rss+xml" ∨ sniffed = str "application/atom+xml"))

theorem one_contentType (hd : Digests env) {t cs} (hct : ContentType m t cs) :
    One .CONTENT_TYPE_MISMATCH (verifyContentType ⟨env, hashedMsg env m, related⟩).notes (Mistyped env m t) := by
  obtain ⟨params, hct, hcs⟩ := hct
  unfold verifyContentType
  dsimp only
  rw [hashed?_hashedMsg hd]
  simp only [Bool.not_true, Bool.false_eq_true, if_false]
  by_cases hb : Bare m
  · have hnr : noRepresentation (hashedMsg env m) = true := (noRepresentation_iff _).2 hb
    rw [if_pos hnr]
    exact .none (fun h => h.1 hb) (by simp)
  rw [if_neg (fun h => hb ((noRepresentation_iff (hashedMsg env m)).1 h))]
  rw [show dget m.headers.parsed (str "content-type") = _ from hct]
  dsimp only
  rw [W.bind_ok (a := .str t) (by rfl)]
  show One _ ([] ++ W.notes _) _
  rw [List.nil_append]
  by_cases ht : t = []
  · subst ht
    exact .none (fun h => h.2.1 rfl) (by simp [Val.truthy])
  have htr : (Val.str t).truthy = true := by
    cases t with
    | nil => exact absurd rfl ht
    | cons => rfl
  rw [htr]
  simp only [Bool.not_true, Bool.false_eq_true, if_false]
  show One _ (match env.sniff m.contentSample t with
    | .error _ => pure ()
    | .ok sniffed => _ : W Unit).notes _
  cases hs : env.sniff m.contentSample t with
  | error e =>
    refine .none ?_ (by simp)
    rintro ⟨_, _, sn, h, _⟩
    rw [hs] at h
    exact nomatch h
  | ok sn =>
    dsimp only
    by_cases h1 : sn = t
    · rw [if_pos (by exact h1)]
      refine .none ?_ (by simp)
      rintro ⟨_, _, sn', h, h2, _⟩
      rw [hs] at h
      cases h
      exact h2 h1
    rw [if_neg (by exact h1)]
    by_cases h2 : t = str "text/html" ∧ (sn = str "application/rss+xml" ∨ sn = str "application/atom+xml")
    · rw [if_pos (by exact h2)]
      refine .none ?_ (by simp)
      rintro ⟨_, _, sn', h, _, h3⟩
      rw [hs] at h
      cases h
      exact h3 h2
    · rw [if_neg (by exact h2)]
      exact .inl ⟨⟨hb, ht, sn, hs, h1, h2⟩, _, rfl, by simp [ofClass]; rfl⟩

/-- **C47**: for a response whose Content-Type was parsed as the type `t`, CONTENT_TYPE_MISMATCH is added exactly when the
linter looks at content, the message carries a representation, the type is not empty, the sniffer succeeds with another
type, and it is not RSS or Atom sent as HTML. -/
theorem C47_mismatch (hr : Reachable env m) (hk : m.kind = .response) (h : Finishes env related co ts m m' rn)
    (hd : Digests env) {t cs} (hct : ContentType m t cs) :
    Adds1 .CONTENT_TYPE_MISMATCH m m' (m.noContent = false ∧ Mistyped env m t) := by
  have hf := finish_content_class hr hk h (c := .CONTENT_TYPE_MISMATCH) (.inl rfl)
  cases hn : m.noContent with
  | true =>
    rw [hn, if_pos rfl, List.append_nil] at hf
    exact .inr ⟨by simp, hf⟩
  | false =>
    rw [hn, if_neg (by simp), charset_origin rfl _ (by exact hr.good.mt), List.append_nil] at hf
    simp only [true_and]
    exact adds1_of_one hf (one_contentType hd hct)

/-- **C47**: without a Content-Type it is never added. -/
theorem C47_no_type (hr : Reachable env m) (hk : m.kind = .response) (h : Finishes env related co ts m m' rn)
    (hct : dget m.headers.parsed (str "content-type") = none) : Adds1 .CONTENT_TYPE_MISMATCH m m' False := by
  have hf := finish_content_class hr hk h (c := .CONTENT_TYPE_MISMATCH) (.inl rfl)
  refine .inr ⟨by simp, ?_⟩
  have : (verifyContentType ⟨env, hashedMsg env m, related⟩).notes = [] := by
    unfold verifyContentType
    dsimp only
    rw [hct]
    split <;> first | rfl | (split <;> rfl)
  rw [this, charset_origin rfl _ (by exact hr.good.mt)] at hf
  rw [hf]
  cases m.noContent <;> simp [ofClass]

/-! ### C46 -/

/-- the charset check examines the content: the message carries a representation with a non-ASCII octet in the sample, and
its type declares or implies (`implied`) a charset known to Python, whose canonical name is `canon` -/
structure Examined (env : Env) (m : Msg) (t : Str) (param : Option Str) (charset : Str) (implied : Bool) (canon : Str) : Prop where
  looks : m.noContent = false
  full : ¬Bare m
  type : t ≠ []
  effective : Effective t param charset implied
  known : env.codecsLookup charset = .ok canon
  nonAscii : ∃ b ∈ m.contentSample, 128 ≤ b

/-- `s` decodes to `text` under the charset -/
def Decodes (env : Env) (charset s text : Str) : Prop := env.decode charset s = .ok text

/-- the detector proposes, with enough confidence, a known charset with another canonical name, under which the sample
does not read the same -/
def Disagrees (env : Env) (sample canon : Str) : Prop :=
  ∃ raw conf other, env.chardet sample = (some raw, some conf) ∧ raw ≠ [] ∧ 1 / 2 ≤ conf ∧ env.codecsLookup raw = .ok other ∧
    other ≠ [] ∧ other ≠ canon ∧ ¬∃ text, Decodes env canon sample text ∧ Decodes env other sample text

theorem canonical_ok {x o} (h : canonical env x = .ok o) (cn : Str) : env.codecsLookup x = .ok cn ↔ o = some cn := by
  unfold canonical at h
  cases hc : env.codecsLookup x with
  | ok n =>
    simp only [hc, Except.ok.injEq] at h
    subst h
    simp
  | error e =>
    simp only [hc] at h
    split at h
    · simp only [Except.ok.injEq] at h; subst h; simp
    · exact nomatch h

theorem tryDecode_ok {x s o} (h : tryDecode env x s = .ok o) (txt : Str) : Decodes env x s txt ↔ o = some txt := by
  unfold tryDecode at h
  unfold Decodes
  cases hc : env.decode x s with
  | ok n =>
    simp only [hc, Except.ok.injEq] at h
    subst h
    simp
  | error e =>
    simp only [hc] at h
    split at h
    · simp only [Except.ok.injEq] at h; subst h; simp
    · exact nomatch h

theorem encodingsCompatible_ok {a b s : Str} {r : Bool} (h : encodingsCompatible env a b s = .ok r) :
    r = true ↔ ∃ text, Decodes env a s text ∧ Decodes env b s text := by
  unfold encodingsCompatible at h
  cases h1 : tryDecode env a s with
  | error e => simp [h1, bind, Except.bind] at h
  | ok o =>
    simp only [h1, bind, Except.bind] at h
    cases o with
    | none =>
      have : r = false := by simpa [pure, Except.pure, eq_comm] using h
      simp [this, tryDecode_ok h1]
    | some x =>
      simp only at h
      cases h2 : tryDecode env b s with
      | error e => simp [h2] at h
      | ok o =>
        simp only [h2] at h
        cases o with
        | none =>
          have : r = false := by simpa [pure, Except.pure, eq_comm] using h
          simp [this, tryDecode_ok h2]
        | some y =>
          have : r = (x == y) := by simpa [pure, Except.pure, eq_comm] using h
          simp only [this, beq_iff_eq, tryDecode_ok h1, tryDecode_ok h2, Option.some.injEq]
          constructor
          · rintro rfl; exact ⟨_, rfl, rfl⟩
          · rintro ⟨_, rfl, rfl⟩; rfl

/-- the note the charset check ends with, if any -/
inductive CharsetVerdict (env : Env) (sample charset : Str) (implied : Bool) (canon : Str) : List NoteId → Prop
  | undecodable : (¬∃ t, Decodes env charset sample t) → CharsetVerdict env sample charset implied canon [.CHARSET_UNDECODABLE]
  | fine : (∃ t, Decodes env charset sample t) → ¬Disagrees env sample canon → CharsetVerdict env sample charset implied canon []
  | mismatch : (∃ t, Decodes env charset sample t) → Disagrees env sample canon →
      CharsetVerdict env sample charset implied canon [if implied then .CHARSET_IMPLICIT_MISMATCH else .CHARSET_MISMATCH]

theorem nonBlank {s : Str} (h : ∃ b ∈ s, 128 ≤ b) : blank s = false := by
  obtain ⟨b, hb, h⟩ := h
  unfold blank
  rw [List.all_eq_false]
  refine ⟨b, hb, ?_⟩
  unfold isBSpace
  simp
  omega

theorem charsetChecks_verdict {m : Msg} {mt charset implied canon} (hc : env.codecsLookup charset = .ok canon)
    (hs : ∃ b ∈ m.contentSample, 128 ≤ b) (hr : (charsetChecks ⟨env, m, related⟩ mt charset implied).res = .ok ()) :
    CharsetVerdict env m.contentSample charset implied canon ((charsetChecks ⟨env, m, related⟩ mt charset implied).notes.map (·.cls)) := by
  unfold charsetChecks at hr ⊢
  obtain ⟨raw, conf, hch⟩ : ∃ raw conf, env.chardet m.contentSample = (raw, conf) := ⟨_, _, rfl⟩
  simp only [hch] at hr ⊢
  have h1 : canonical env charset = .ok (some canon) := by unfold canonical; rw [hc]
  rw [W.bind_ok (a := some canon) (by exact h1)] at hr ⊢
  simp only [W.lift, List.nil_append] at hr ⊢
  rw [nonBlank hs] at hr ⊢
  have hna : HL.nonAscii m.contentSample = true := by
    unfold HL.nonAscii; rw [List.any_eq_true]
    obtain ⟨b, hb, h⟩ := hs
    exact ⟨b, hb, by simpa using h⟩
  rw [hna] at hr ⊢
  simp only [Bool.false_eq_true, if_false, Bool.not_true] at hr ⊢
  cases hd : tryDecode env charset m.contentSample with
  | error e =>
    rw [W.bind_err (e := e) (by exact hd)] at hr
    exact nomatch hr
  | ok dec =>
    rw [W.bind_ok (a := dec) (by first | exact hd | rfl)] at hr ⊢
    simp only [List.nil_append] at hr ⊢
    have hdec := tryDecode_ok hd
    generalize hdet : (raw.bind fun r => if r.isEmpty then none else some r : Option Str) = det at hr ⊢
    have key : ∀ dc : Option Str, (∀ cn, dc = some cn ↔ ∃ r, det = some r ∧ env.codecsLookup r = .ok cn) →
        ∀ w : W Unit, w = (if dec.isNone then
          (m.adder (str "content-type")).add .CHARSET_UNDECODABLE [(str "declared_charset", .str charset),
            (str "detected_charset", .str (det.getD (str "unknown")))]
        else match dc with
          | none => pure ()
          | some dc =>
            if !dc.isEmpty && dc != canon && decide (conf.getD 0 ≥ 1 / 2) then do
              let same ← W.lift (encodingsCompatible env canon dc m.contentSample)
              if same then pure ()
              else if implied then
                (m.adder (str "content-type")).add .CHARSET_IMPLICIT_MISMATCH [(str "media_type", mt),
                  (str "declared_charset", .str charset), (str "detected_charset", Val.ofOpt raw)]
              else
                (m.adder (str "content-type")).add .CHARSET_MISMATCH [(str "declared_charset", .str charset),
                  (str "detected_charset", Val.ofOpt raw)]
            else pure ()) → w.res = .ok () →
        CharsetVerdict env m.contentSample charset implied canon (w.notes.map (·.cls)) := by
      intro dc hdc w hw hres
      cases dec with
      | none =>
        subst hw
        exact .undecodable (by simp [hdec])
      | some txt =>
        have hD : ∃ t, Decodes env charset m.contentSample t := ⟨txt, (hdec txt).2 rfl⟩
        simp only [Option.isNone_some, Bool.false_eq_true, if_false] at hw
        have hraw : ∀ r, det = some r → raw = some r ∧ r ≠ [] := by
          intro r hr
          rw [← hdet] at hr
          cases raw with
          | none => simp at hr
          | some x =>
            simp only [Option.bind_some] at hr
            split at hr
            · exact nomatch hr
            · rename_i hx
              simp only [Option.some.injEq] at hr
              subst hr
              exact ⟨rfl, by simpa using hx⟩
        have hback : Disagrees env m.contentSample canon → ∃ cn, dc = some cn ∧ cn ≠ [] ∧ cn ≠ canon ∧ conf.getD 0 ≥ 1 / 2 ∧
            ¬∃ text, Decodes env canon m.contentSample text ∧ Decodes env cn m.contentSample text := by
          rintro ⟨raw', conf', cn, e1, e2, e3, e4, e5, e6, e7⟩
          rw [hch] at e1
          simp only [Prod.mk.injEq] at e1
          obtain ⟨rfl, rfl⟩ := e1
          refine ⟨cn, (hdc cn).2 ⟨raw', ?_, e4⟩, e5, e6, e3, e7⟩
          rw [← hdet]
          cases raw' with
          | nil => exact absurd rfl e2
          | cons => rfl
        cases dc with
        | none =>
          subst hw
          refine .fine hD fun h => ?_
          obtain ⟨cn, h, _⟩ := hback h
          exact nomatch h
        | some cn =>
          dsimp only at hw
          by_cases hcond : (!cn.isEmpty && cn != canon && decide (conf.getD 0 ≥ 1 / 2)) = true
          · rw [if_pos hcond] at hw
            simp only [Bool.and_eq_true, Bool.not_eq_true', List.isEmpty_eq_false_iff, bne_iff_ne, decide_eq_true_eq] at hcond
            obtain ⟨⟨c1, c2⟩, c3⟩ := hcond
            cases he : encodingsCompatible env canon cn m.contentSample with
            | error e =>
              rw [W.bind_err (e := e) (by exact he)] at hw
              subst hw
              exact nomatch hres
            | ok same =>
              have hsame := encodingsCompatible_ok he
              rw [W.bind_ok (a := same) (by exact he)] at hw
              cases same with
              | true =>
                subst hw
                refine .fine hD fun h => ?_
                obtain ⟨cn', h, _, _, _, h5⟩ := hback h
                cases h
                exact h5 (hsame.1 rfl)
              | false =>
                have hdis : Disagrees env m.contentSample canon := by
                  obtain ⟨r, h1, h2⟩ := (hdc cn).1 rfl
                  obtain ⟨rfl, h3⟩ := hraw r h1
                  cases conf with
                  | none => exact absurd c3 (by decide +kernel)
                  | some q => exact ⟨r, q, cn, hch, h3, c3, h2, c1, c2, fun h => nomatch hsame.2 h⟩
                have := CharsetVerdict.mismatch (implied := implied) hD hdis
                subst hw
                cases implied <;> exact this
          · rw [if_neg hcond] at hw
            subst hw
            refine .fine hD fun h => ?_
            obtain ⟨cn', h, h2, h3, h4, _⟩ := hback h
            cases h
            exact hcond (by simp [h2, h3, h4])
    cases det with
    | none =>
      dsimp only at hr ⊢
      rw [pure_bind] at hr ⊢
      exact key none (by simp) _ rfl hr
    | some r =>
      dsimp only at hr ⊢
      cases hcan : canonical env r with
      | error e =>
        rw [W.bind_err (e := e) (by exact hcan)] at hr
        exact nomatch hr
      | ok o =>
        rw [W.bind_ok (a := o) (by first | exact hcan | rfl)] at hr ⊢
        simp only [List.nil_append] at hr ⊢
        refine key o (fun cn => ?_) _ rfl hr
        simp only [Option.some.injEq, exists_eq_left', canonical_ok hcan]

/-- are the notes from charset.py? -/
def isCharset (c : NoteId) : Bool := c.origin == .charset

theorem finish_charset (hr : Reachable env m) (hk : m.kind = .response) (h : Finishes env related co ts m m' rn) :
    sel isCharset m'.notes = sel isCharset m.notes ++
      (if m.noContent then [] else (verifyCharset ⟨env, hashedMsg env m, related⟩).notes) ∧
    (m.noContent = false → (verifyCharset ⟨env, hashedMsg env m, related⟩).res = .ok ()) := by
  obtain ⟨_, _, _, _, _, _, _, _, hran⟩ := finish_response_full env related co ts m m' rn hr.good hk h
  refine ⟨?_, fun hn => (hran.2.2 hn).2⟩
  have h1 := finish_verdicts (q := isCharset) hr.good hk h ?_
  · rw [verdicts_content hr.good.mt (by intro c hc; exact .inr (by simpa [isCharset] using hc))] at h1
    rw [h1]
    by_cases hn : m.noContent = true
    · rw [if_pos hn, if_pos hn]
    · rw [if_neg hn, if_neg hn]
      rw [sel_append, sel_none (ns := (verifyContentType _).notes), List.nil_append, sel_all (ns := (verifyCharset _).notes)]
      · intro n hn
        have := (verifyCharset_emits _ (by exact hr.good.mt) n hn).2
        simp [isCharset, this]
      · intro n hn
        have := (verifyContentType_emits _ (by exact hr.good.mt) n hn).2
        simp [isCharset, this]
  · intro c hc
    unfold isCharset
    rcases hc with (hc | hc | hc) | hc | hc <;> rw [hc] <;> rfl

/-- **C46**: the outcome of the charset check, for a response whose Content-Type was parsed as type `t` with the `charset`
parameter `param`.  Either it does not examine the content - there is no full representation in this message (HEAD, 1xx but
not 199, 204, 205, 206, 304), the content is not looked at, its sample has no non-ASCII octet (it may be empty or blank), or
no charset known to Python is declared or implied - and then no note is added; or the verdict is as `CharsetVerdict` says:
CHARSET_UNDECODABLE exactly when the sample does not decode, and otherwise a mismatch exactly when the detector, with a
confidence of at least 0.5, proposes a charset under which the sample reads differently. -/
theorem C46_charset_verdict_partial (hr : Reachable env m) (hk : m.kind = .response) (h : Finishes env related co ts m m' rn)
    (hd : Digests env) {t param} (hct : ContentType m t param) :
    ∃ added, sel isCharset m'.notes = sel isCharset m.notes ++ added ∧
      ((∃ charset implied canon, Examined env m t param charset implied canon ∧
          CharsetVerdict env m.contentSample charset implied canon (added.map (·.cls))) ∨
       ((¬∃ charset implied canon, Examined env m t param charset implied canon) ∧ added = [])) := by
  obtain ⟨h1, h2⟩ := finish_charset hr hk h
  refine ⟨_, h1, ?_⟩
  cases hn : m.noContent with
  | true =>
    refine .inr ⟨?_, rfl⟩
    rintro ⟨_, _, _, e⟩
    rw [e.looks] at hn
    exact nomatch hn
  | false =>
    have hres := h2 hn
    simp only [Bool.false_eq_true, if_false]
    unfold verifyCharset at hres ⊢
    dsimp only at hres ⊢
    rw [hashed?_hashedMsg hd] at hres ⊢
    simp only [Bool.not_true, Bool.false_or] at hres ⊢
    by_cases he : m.contentSample = []
    · rw [he]
      refine .inr ⟨?_, rfl⟩
      rintro ⟨_, _, _, e⟩
      obtain ⟨b, hb, _⟩ := e.nonAscii
      rw [he] at hb
      exact nomatch hb
    have he' : m.contentSample.isEmpty = false := by
      cases hh : m.contentSample with
      | nil => exact absurd hh he
      | cons => rfl
    rw [he'] at hres ⊢
    simp only [Bool.false_eq_true, if_false] at hres ⊢
    by_cases hb : Bare m
    · have hnr : noRepresentation (hashedMsg env m) = true := (noRepresentation_iff _).2 hb
      rw [if_pos hnr]
      exact .inr ⟨fun ⟨_, _, _, e⟩ => e.full hb, rfl⟩
    have hnr : ¬noRepresentation (hashedMsg env m) = true := fun hx => hb ((noRepresentation_iff _).1 hx)
    rw [if_neg hnr] at hres ⊢
    obtain ⟨params, hct, hcs⟩ := hct
    rw [show dget m.headers.parsed (str "content-type") = _ from hct] at hres ⊢
    dsimp only at hres ⊢
    rw [W.bind_ok (a := .str t) (by rfl), W.bind_ok (a := .dict params) (by rfl)] at hres ⊢
    simp only [W.lift, List.nil_append] at hres ⊢
    by_cases ht : t = []
    · subst ht
      refine .inr ⟨fun ⟨_, _, _, e⟩ => e.type rfl, ?_⟩
      simp [Val.truthy]
    have htr : (Val.str t).truthy = true := by
      cases t with
      | nil => exact absurd rfl ht
      | cons => rfl
    rw [htr] at hres ⊢
    simp only [Bool.not_true, Bool.false_eq_true, if_false, Val.isDict] at hres ⊢
    rw [hcs] at hres ⊢
    have htx : ((Val.str t).text?.getD [] : Str) = t := rfl
    rw [htx] at hres ⊢
    cases hef : effectiveCharset t (param.map .str) with
    | none =>
      refine .inr ⟨?_, rfl⟩
      rintro ⟨cs, i, cn, e⟩
      rw [(effectiveCharset_some cs i).2 e.effective] at hef
      exact nomatch hef
    | some p =>
      obtain ⟨cs, i⟩ := p
      have heff := (effectiveCharset_some cs i).1 hef
      have huniq : ∀ {cs' i' cn}, Examined env m t param cs' i' cn → cs' = cs ∧ i' = i := by
        intro cs' i' cn e
        have := (effectiveCharset_some cs' i').2 e.effective
        rw [hef] at this
        simp only [Option.some.injEq, Prod.mk.injEq] at this
        exact ⟨this.1.symm, this.2.symm⟩
      rw [hef] at hres
      dsimp only at hres ⊢
      by_cases hna : ∃ b ∈ m.contentSample, 128 ≤ b
      · cases hk : env.codecsLookup cs with
        | ok canon =>
          exact .inl ⟨cs, i, canon, ⟨hn, hb, ht, heff, hk, hna⟩, charsetChecks_verdict (m := hashedMsg env m) hk hna hres⟩
        | error x =>
          refine .inr ⟨?_, ?_⟩
          · rintro ⟨cs', i', cn, e⟩
            obtain ⟨rfl, rfl⟩ := huniq e
            rw [e.known] at hk
            exact nomatch hk
          · unfold charsetChecks
            cases hcan : canonical env cs with
            | error e => rw [W.bind_err (e := e) rfl]; rfl
            | ok o =>
              rw [W.bind_ok (a := o) rfl]
              cases o with
              | none => rfl
              | some cn => rw [(canonical_ok hcan cn).2 rfl] at hk; exact nomatch hk
      · refine .inr ⟨fun ⟨_, _, _, e⟩ => hna e.nonAscii, ?_⟩
        unfold charsetChecks
        have hna' : HL.nonAscii m.contentSample = false := by
          unfold HL.nonAscii
          rw [List.any_eq_false]
          intro b hb hx
          exact hna ⟨b, hb, by simpa using hx⟩
        cases hcan : canonical env cs with
        | error e => rw [W.bind_err (e := e) rfl]; rfl
        | ok o =>
          rw [W.bind_ok (a := o) rfl]
          cases o with
          | none => rfl
          | some cn =>
            dsimp only
            split
            · rfl
            · rw [hna']; rfl

/-- **C46**: at most one note is added, whatever the Content-Type. -/
theorem C46_at_most_one (hr : Reachable env m) (hk : m.kind = .response) (h : Finishes env related co ts m m' rn)
    (hd : Digests env) {t param} (hct : ContentType m t param) :
    (sel isCharset m'.notes).length ≤ (sel isCharset m.notes).length + 1 := by
  obtain ⟨added, e, ⟨_, _, _, _, hv⟩ | ⟨_, rfl⟩⟩ := C46_charset_verdict_partial hr hk h hd hct
  · rw [e, List.length_append]
    have hl : (added.map (·.cls)).length ≤ 1 := by
      generalize added.map (·.cls) = l at hv
      cases hv <;> simp
    rw [List.length_map] at hl
    omega
  · rw [e]; simp

/-- **C46**: without a Content-Type there are none. -/
theorem C46_no_type (hr : Reachable env m) (hk : m.kind = .response) (h : Finishes env related co ts m m' rn)
    (hct : dget m.headers.parsed (str "content-type") = none) : sel isCharset m'.notes = sel isCharset m.notes := by
  obtain ⟨h1, _⟩ := finish_charset hr hk h
  have : (verifyCharset ⟨env, hashedMsg env m, related⟩).notes = [] := by
    unfold verifyCharset
    dsimp only
    rw [hct]
    split <;> first | rfl | (split <;> rfl)
  rw [h1, this]
  cases m.noContent <;> simp

end

/-! Concrete histories: a response with the given status and Content-Type, whose content is not ASCII. -/

/-- an environment in which nothing decodes under a charset called "bad", the detector is sure of "other" - which reads
everything as "?" -, and the sniffer sees image/gif -/
def contentEnv : Env :=
  { toyEnv with
    decode := fun cs s => if cs = str "bad" then .error .unicodeError else if cs = str "other" then .ok (str "?") else .ok s
    chardet := fun _ => (some (str "other"), some 1)
    sniff := fun _ _ => .ok (str "image/gif")
    md5 := fun s => 0 :: s }

example : Digests contentEnv := by intro s; simp [contentEnv]

/-- the linter before `finish_content` -/
def exContent (status ct : Str) (content : Str) : Msg :=
  (Op.runAll contentEnv [.responseTopline (str "1.1") status none, .headers [(str "Content-Type", ct)], .feed content]
    ⟨fresh contentEnv .response none false false, none⟩).msg

/-- the content notes of a finished response, and how `finish_content` ended -/
def exContentRun (status ct content : Str) : Except Exn Unit × List NoteId :=
  let r := ((exContent status ct content).finishContent contentEnv none true []).1
  (r.2, (sel (fun c => c.origin == .contentType || c.origin == .charset) r.1.notes).map (·.cls))

example : dget (exContent (str "200") (str "text/a;charset=bad") [200]).headers.parsed (str "content-type") =
    some (.tuple [.str (str "text/a"), .dict [.tuple [.str (str "charset"), .str (str "bad")]]]) := by decide +kernel
example : exContentRun (str "200") (str "text/a;charset=bad") [200] =
    (.ok (), [.CONTENT_TYPE_MISMATCH, .CHARSET_UNDECODABLE]) := by decide +kernel
example : exContentRun (str "200") (str "text/a;charset=fine") [200] =
    (.ok (), [.CONTENT_TYPE_MISMATCH, .CHARSET_MISMATCH]) := by decide +kernel
example : exContentRun (str "200") (str "a/b+json") [200] =
    (.ok (), [.CONTENT_TYPE_MISMATCH, .CHARSET_IMPLICIT_MISMATCH]) := by decide +kernel
example : exContentRun (str "200") (str "image/gif") [200] = (.ok (), []) := by decide +kernel
example : exContentRun (str "206") (str "text/a;charset=bad") [200] = (.ok (), []) := by decide +kernel
example : exContentRun (str "200") (str "text/a;charset=bad") (str "abc") = (.ok (), [.CONTENT_TYPE_MISMATCH]) := by decide +kernel

theorem finishes_of {env related co ts} {m : Msg} (h : (m.finishContent env related co ts).1.2 = .ok ()) :
    Finishes env related co ts m (m.finishContent env related co ts).1.1 (m.finishContent env related co ts).2 := by
  unfold Finishes
  rw [← h]

/-- **C46** as worded is not true of 199: such a response is checked although it is a 1xx one (`range(100, 199)` in
charset.py and content_type.py leaves it out). -/
theorem C46_199_is_checked : ∃ (m m' : Msg) (rn : List Note), Reachable contentEnv m ∧ m.kind = .response ∧
    m.statusCode = some 199 ∧ Finishes contentEnv none true [] m m' rn ∧ sel isCharset m'.notes ≠ sel isCharset m.notes := by
  refine ⟨exContent (str "199") (str "text/a;charset=bad") [200], _, _,
    ⟨_, _, _, _, _, _, rfl⟩, by decide +kernel, by decide +kernel, finishes_of (by decide +kernel), ?_⟩
  decide +kernel

end HL.Props
