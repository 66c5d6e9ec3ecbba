import Verif.Props.Ints
import Verif.Props.Grammar
import Verif.Props.StatusThm
import Verif.Props.ContentThm

/-!
# C48: the top line
-/

namespace HL.Props

/-! ### specification -/

/-- `u` is `uri` without its fragment: everything before the first `#` -/
def WithoutFragment (uri u : Str) : Prop := (35 ∉ uri ∧ u = uri) ∨ ∃ f, uri = u ++ 35 :: f ∧ 35 ∉ u

/-- but for white space around it, `uri` belongs to the `URI` rule of RFC 3986 -/
def IsUri (uri : Str) : Prop := ∃ a b z, uri = a ++ b ++ z ∧ AllSpace a ∧ Syntax.rfc3986.URI.L false b ∧ AllSpace z

/-! ### proofs -/

theorem ws_star' (s : Str) : (RE.star RE.ws).L false s ↔ AllSpace s := by
  have h1 : RE.one false RE.ws = some (csetHas false false [(9,13), (28,32), (133,133), (160,160), (5760,5760), (8192,8202), (8232,8233),
    (8239,8239), (8287,8287), (12288,12288)]) := rfl
  unfold RE.star
  rw [rep_one_L h1]
  have : ∀ c, csetHas false false [(9,13), (28,32), (133,133), (160,160), (5760,5760), (8192,8202), (8232,8233),
    (8239,8239), (8287,8287), (12288,12288)] c = isSpace c := by
    intro c
    rw [Bool.eq_iff_iff]
    unfold csetHas isSpace inRanges
    simp only [List.any_cons, List.any_nil, Bool.or_false, Bool.or_eq_true, Bool.and_eq_true, decide_eq_true_eq, beq_iff_eq, Bool.false_eq_true,
      if_false, bne_iff_ne, ne_eq, Bool.not_eq_false]
    omega
  simp only [Nat.zero_le, true_and, this, AllSpace]

theorem spaced_iff (r : RE) (s : Str) :
    r.spaced false s = true ↔ ∃ a b z, s = a ++ b ++ z ∧ AllSpace a ∧ r.L false b ∧ AllSpace z := by
  unfold RE.spaced
  rw [fullEnd_iff]
  simp only [RE.L, ws_star']
  constructor
  · rintro (⟨a, t, rfl, ha, b, z, rfl, hb, hz⟩ | ⟨_, rfl, a, t, rfl, ha, b, z, rfl, hb, hz⟩)
    · exact ⟨a, b, z, by simp, ha, hb, hz⟩
    · refine ⟨a, b, z ++ [10], by simp, ha, hb, ?_⟩
      intro c hc
      rcases List.mem_append.1 hc with h | h
      · exact hz c h
      · simp at h; subst h; decide
  · rintro ⟨a, b, z, rfl, ha, hb, hz⟩
    exact .inl ⟨a, b ++ z, by simp, ha, b, z, rfl, hb, hz⟩

theorem fragment_off (uri : Str) : WithoutFragment uri (match split1 35 uri with | some (a, _) => a | none => uri) := by
  cases h : split1 35 uri with
  | none => exact .inl ⟨split1_none.1 h, rfl⟩
  | some p =>
    obtain ⟨h1, h2⟩ := split1_some (a := p.1) (b := p.2) h
    exact .inr ⟨_, h1, h2⟩

theorem adds_two {m m' : Msg} {n₁ n₂ : Note} {a b : Bool} {x y : NoteId}
    (h : m'.notes = m.notes ++ ((if a = true then [n₁] else []) ++ (if b = true then [n₂] else []))) (h1 : n₁.cls = x) (h2 : n₂.cls = y) (hxy : x ≠ y) :
    Adds1 x m m' (a = true) ∧ Adds1 y m m' (b = true) := by
  subst h1 h2
  have hyx := hxy.symm
  have e1 : (n₁.cls == n₁.cls) = true := by simp
  have e2 : (n₂.cls == n₂.cls) = true := by simp
  have e3 : (n₁.cls == n₂.cls) = false := by simpa using hxy
  have e4 : (n₂.cls == n₁.cls) = false := by simpa using hyx
  unfold Adds1 ofClass
  rw [h]
  cases a <;> cases b <;> simp [List.filter_append, List.filter_cons, e1, e2, e3, e4] <;> exact ⟨_, rfl, rfl⟩

theorem Adds1.iff {c : NoteId} {m m' : Msg} {p q : Prop} (h : Adds1 c m m' p) (e : p ↔ q) : Adds1 c m m' q := by rwa [← propext e]

theorem both_of {n₁ n₂ : Note} {a b : Bool} {P : Note → Prop} (h1 : P n₁) (h2 : P n₂) :
    ∀ n ∈ (if a = true then [n₁] else []) ++ (if b = true then [n₂] else []), P n := by
  intro n hn
  cases a <;> cases b <;> simp at hn <;> (try rcases hn with rfl | rfl) <;> (try subst hn) <;> assumption

theorem responseTopline_eq (version status : Str) (phrase : Option Str) (m : Msg) (hk : m.kind = .response) :
    ∃ m' n₁ n₂, m.responseTopline version status phrase = (m', .ok ()) ∧
      m'.notes = m.notes ++ ((if (pyInt (asciiReplace status)).isNone = true then [n₁] else []) ++
        (if nonAscii (phrase.getD []) = true then [n₂] else [])) ∧
      n₁.cls = .STATUS_CODE_NON_NUMERIC ∧ n₁.subject = str "status" ∧ n₂.cls = .STATUS_PHRASE_ENCODING ∧ n₂.subject = str "status" ∧
      m'.statusCode = (match pyInt (asciiReplace status) with | some n => some n | none => m.statusCode) ∧
      m'.statusCodeStr = some (asciiReplace status) ∧ m'.version = asciiReplace version ∧
      (∀ p, phrase = some p → p ≠ [] → m'.statusPhrase = some (asciiReplace p)) := by
  refine ⟨_, (m.adder (str "status")).mk1 .STATUS_CODE_NON_NUMERIC, (m.adder (str "status")).mk1 .STATUS_PHRASE_ENCODING, Prod.ext rfl ?_, ?_, rfl, rfl, rfl, rfl, ?_⟩
  · unfold Msg.responseTopline
    rw [hk]
    cases phrase with
    | none => rfl
    | some p => cases p <;> rfl
  · unfold Msg.responseTopline
    rw [hk]
    dsimp only
    cases pyInt (asciiReplace status) <;> cases phrase with
    | none => simp [Msg.addNotes, nonAscii]; try (first | rfl | exact ⟨rfl, rfl⟩)
    | some p =>
      cases p with
      | nil => simp [Msg.addNotes, nonAscii]; try (first | rfl | exact ⟨rfl, rfl⟩)
      | cons x p =>
        dsimp only
        rw [if_neg (show ¬ List.isEmpty (x :: p) = true by simp)]
        by_cases h : nonAscii (x :: p) = true
        · rw [if_pos h]; simp [Msg.addNotes, h]; try (first | rfl | exact ⟨rfl, rfl⟩)
        · rw [if_neg h]; simp [Msg.addNotes, h]; try (first | rfl | exact ⟨rfl, rfl⟩)
  · unfold Msg.responseTopline
    rw [hk]
    dsimp only
    cases pyInt (asciiReplace status) <;> cases phrase with
    | none => exact ⟨rfl, rfl, rfl, fun _ h => nomatch h⟩
    | some p =>
      cases p with
      | nil => refine ⟨rfl, rfl, rfl, ?_⟩; intro q h hq; cases h; exact absurd rfl hq
      | cons x p =>
        dsimp only
        rw [if_neg (show ¬ List.isEmpty (x :: p) = true by simp)]
        refine ⟨rfl, rfl, rfl, ?_⟩
        intro q h hq; cases h; rfl

/-- **C48** (status line).  `process_response_topline` on a response linter never raises; it sets the status code
exactly when `int()` accepts the status text (with octets outside ASCII replaced), and otherwise adds
STATUS_CODE_NON_NUMERIC; STATUS_PHRASE_ENCODING is added exactly when the phrase has an octet outside ASCII; no other
note is added. -/
theorem C48_status_line (version status : Str) (phrase : Option Str) (m : Msg) (hk : m.kind = .response) :
    ∃ m', m.responseTopline version status phrase = (m', .ok ()) ∧
      (∀ n, IntText (asciiReplace status) n → m'.statusCode = some n) ∧
      ((¬ ∃ n, IntText (asciiReplace status) n) → m'.statusCode = m.statusCode) ∧
      Adds1 .STATUS_CODE_NON_NUMERIC m m' (¬ ∃ n, IntText (asciiReplace status) n) ∧
      Adds1 .STATUS_PHRASE_ENCODING m m' (∃ p, phrase = some p ∧ ∃ c ∈ p, 128 ≤ c) ∧
      (∃ added, m'.notes = m.notes ++ added ∧ ∀ n ∈ added, n.subject = str "status" ∧
        (n.cls = .STATUS_CODE_NON_NUMERIC ∨ n.cls = .STATUS_PHRASE_ENCODING)) ∧
      m'.statusCodeStr = some (asciiReplace status) ∧ m'.version = asciiReplace version ∧
      (∀ p, phrase = some p → p ≠ [] → m'.statusPhrase = some (asciiReplace p)) := by
  have hnon : ∀ p : Str, nonAscii p = true ↔ ∃ c ∈ p, 128 ≤ c := by
    intro p
    unfold nonAscii
    simp
  obtain ⟨m', n₁, n₂, he, hn, c1, s1, c2, s2, hc, hs, hv, hp⟩ := responseTopline_eq version status phrase m hk
  have hi : (pyInt (asciiReplace status)).isNone = true ↔ ¬ ∃ n, IntText (asciiReplace status) n := by
    rw [Option.isNone_iff_eq_none]; exact pyInt_none
  obtain ⟨a1, a2⟩ := adds_two hn c1 c2 (by decide)
  refine ⟨m', he, ?_, ?_, a1.iff hi, a2.iff ?_, ⟨_, hn, both_of ⟨s1, .inl c1⟩ ⟨s2, .inr c2⟩⟩, hs, hv, hp⟩
  · intro n h; rw [hc, pyInt_iff.2 h]
  · intro h; rw [hc, pyInt_none.2 h]
  · cases phrase with
    | none => simp [nonAscii]
    | some p => rw [Option.getD_some, hnon]; simp

theorem requestTopline_eq (env : Env) (method iri version uri : Str) (m : Msg) (hk : m.kind = .request)
    (hu : env.iriToUri (utf8Replace iri) = .ok uri) :
    ∃ m' u n₁ n₂, m.requestTopline env method iri version = (m', .ok ()) ∧ WithoutFragment uri u ∧ m'.uri = some u ∧
      m'.notes = m.notes ++ ((if (!Syntax.rfc3986.URI.spaced false uri) = true then [n₁] else []) ++
        (if decide (u.length > 8000) = true then [n₂] else [])) ∧
      n₁.cls = .URI_BAD_SYNTAX ∧ n₁.subject = str "uri" ∧ n₂.cls = .URI_TOO_LONG ∧ n₂.subject = str "uri" ∧
      m'.method = some (asciiReplace method) ∧ m'.version = asciiReplace version := by
  unfold Msg.requestTopline Msg.setUri
  rw [hk]
  dsimp only
  rw [hu]
  refine ⟨_, _, (m.adder (str "uri")).mk1 .URI_BAD_SYNTAX,
    (m.adder (str "uri")).mk1 .URI_TOO_LONG [(str "uri_len", .str (fNum (match split1 35 uri with | some (a, _) => a | none => uri).length))],
    rfl, fragment_off uri, rfl, ?_, rfl, rfl, rfl, rfl, rfl, rfl⟩
  dsimp only [Msg.addNotes]
  rw [List.append_assoc]
  congr 1
  congr 1
  · by_cases h : Syntax.rfc3986.URI.spaced false uri = true
    · rw [if_pos h, h]; rfl
    · rw [if_neg h, Bool.eq_false_iff.2 h]; rfl
  · by_cases h : (match split1 35 uri with | some (a, _) => a | none => uri).length > 8000
    · exact (if_pos h).trans (if_pos (decide_eq_true h)).symm
    · exact (if_neg h).trans (if_neg (by simpa using h)).symm

/-- **C48** (request line).  When the IRI-to-URI conversion succeeds with `uri`, `process_request_topline` on a request
linter sets `uri` without its fragment; URI_BAD_SYNTAX is added exactly when `uri` does not belong to the grammar and
URI_TOO_LONG exactly when what is left is longer than 8000 characters.  When the conversion fails with a `ValueError`,
URI_BAD_SYNTAX is added and the text is kept as it was. -/
theorem C48_request_line (env : Env) (method iri version : Str) (m : Msg) (hk : m.kind = .request) :
    (∀ uri, env.iriToUri (utf8Replace iri) = .ok uri →
      ∃ m' u, m.requestTopline env method iri version = (m', .ok ()) ∧ WithoutFragment uri u ∧ m'.uri = some u ∧
        Adds1 .URI_BAD_SYNTAX m m' (¬ IsUri uri) ∧ Adds1 .URI_TOO_LONG m m' (8000 < u.length) ∧
        (∃ added, m'.notes = m.notes ++ added ∧ ∀ n ∈ added, n.subject = str "uri" ∧ (n.cls = .URI_BAD_SYNTAX ∨ n.cls = .URI_TOO_LONG)) ∧
        m'.method = some (asciiReplace method) ∧ m'.version = asciiReplace version) ∧
    (∀ e, env.iriToUri (utf8Replace iri) = .error e → e.isValueError = true →
      ∃ m', m.requestTopline env method iri version = (m', .ok ()) ∧ m'.uri = some (utf8Replace iri) ∧
        Adds1 .URI_BAD_SYNTAX m m' True ∧ Adds1 .URI_TOO_LONG m m' False ∧
        m'.method = some (asciiReplace method) ∧ m'.version = asciiReplace version) := by
  constructor
  · intro uri hu
    obtain ⟨m', u, n₁, n₂, he, hf, hU, hn, c1, s1, c2, s2, hm, hv⟩ := requestTopline_eq env method iri version uri m hk hu
    obtain ⟨a1, a2⟩ := adds_two hn c1 c2 (by decide)
    refine ⟨m', u, he, hf, hU, a1.iff ?_, a2.iff (by simp), ⟨_, hn, both_of ⟨s1, .inl c1⟩ ⟨s2, .inr c2⟩⟩, hm, hv⟩
    rw [Bool.not_eq_true', ← Bool.not_eq_true, spaced_iff]
    rfl
  · intro e he hv
    refine ⟨_, by unfold Msg.requestTopline Msg.setUri; rw [hk]; dsimp only; rw [he]; dsimp only; rw [if_pos hv]; rfl, rfl, ?_, ?_, rfl, rfl⟩
    · exact .inl ⟨trivial, (m.adder (str "uri")).mk1 .URI_BAD_SYNTAX, rfl, by unfold ofClass; simp only [Msg.addNotes, List.filter_append]; rfl⟩
    · exact .inr ⟨id, by unfold ofClass; simp only [Msg.addNotes, List.filter_append]; exact List.append_nil _⟩

/-- a status line with a numeric status and a phrase outside ASCII; one with a status that is not a number -/
example : ∃ m', (({ kind := .response, defaults := [] } : Msg).responseTopline (str "1.1") (str "200") (some (str "OK" ++ [233]))) = (m', .ok ()) ∧
    m'.statusCode = some 200 ∧ m'.notes.map (·.cls) = [.STATUS_PHRASE_ENCODING] := ⟨_, rfl, by decide +kernel, by decide +kernel⟩
example : ∃ m', (({ kind := .response, defaults := [] } : Msg).responseTopline (str "1.1") (str "2xx") none) = (m', .ok ()) ∧
    m'.statusCode = none ∧ m'.notes.map (·.cls) = [.STATUS_CODE_NON_NUMERIC] := ⟨_, rfl, by decide +kernel, by decide +kernel⟩

end HL.Props
