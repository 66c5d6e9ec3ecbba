import Verif.Props.SaidThm
import Verif.Props.EndThm
import Verif.Props.Topline

/-!
# C113: what notes on the message as a whole say, and in which order a message's notes come
-/

namespace HL.Props
open HL.F

/-! ### specification -/

open Classical in
/-- the notes on the line of a request: `uri` is what its target was converted to (`none`: it could not be), `kept` is
the URI without its fragment -/
noncomputable def requestLineSaid (uri : Option Str) (kept : Str) : List (NoteId × Str × Dict Val) :=
  (if ∃ u, uri = some u ∧ IsUri u then [] else [(.URI_BAD_SYNTAX, str "uri", [])]) ++
  (if uri.isSome ∧ kept.length > 8000 then [(.URI_TOO_LONG, str "uri", [(str "uri_len", .str (dec kept.length))])] else [])

open Classical in
/-- the notes on a status line -/
noncomputable def statusLineSaid (status : Str) (phrase : Option Str) : List (NoteId × Str × Dict Val) :=
  (if ∃ n, IntText (asciiReplace status) n then [] else [(.STATUS_CODE_NON_NUMERIC, str "status", [])]) ++
  (if ∃ p, phrase = some p ∧ ∃ c ∈ p, 128 ≤ c then [(.STATUS_PHRASE_ENCODING, str "status", [])] else [])

open Classical in
/-- the note on the amount of content of a message that ends after `size` octets -/
noncomputable def lengthSaid (m : Msg) (size : Nat) (noContent : Bool) : List (NoteId × Str × Dict Val) :=
  if noContent then []
  else if m.kind = .response ∧ (m.isHeadResponse = true ∨ m.statusCode = some 304) then
    if size = 0 then [] else [(.CONTENT_NOT_ALLOWED, str "message", [])]
  else match dget m.headers.parsed (str "content-length") with
    | none => []
    | some v =>
      if v.number = .ok (size : Rat) then [(.CL_CORRECT, str "field-content-length", [])]
      else [(.CL_INCORRECT, str "field-content-length", [(str "content_length", .str (dec size))])]

/-- the name of a charset that was detected, if any -/
def detectedName : Option Str → Str
  | none | some [] => str "unknown"
  | some r => r

/-- what is said about a charset -/
def charsetSaid (t charset : Str) (detected : Option Str) (c : NoteId) : NoteId × Str × Dict Val :=
  (c, str "content-type", (if c = .CHARSET_IMPLICIT_MISMATCH then [(str "media_type", .str t)] else []) ++
    [(str "declared_charset", .str charset), (str "detected_charset", .str (detectedName detected))])

/-- a list of notes that comes in stages: first those from the modules of the first stage, then those from the second, … -/
inductive Staged : List (List Origin) → List NoteId → Prop
  | nil : Staged [] []
  | cons {os rest l l'} : (∀ c ∈ l, c.origin ∈ os) → Staged rest l' → Staged (os :: rest) (l ++ l')

/-- the order in which the end of a response adds notes: those on the trailer section, on the amount of content, on CORS,
on caching, on the status code, on the type of the content, on its charset, and on fields in view of the whole message -/
def responseStages : List (List Origin) :=
  [[.line, .frame, .field], [.message], [.cors], [.cache], [.status], [.contentType], [.charset], [.field]]

/-- … and the end of a request: those on the trailer section, on the amount of content, on CORS, on the request itself,
and on fields in view of the whole message -/
def requestStages : List (List Origin) := [[.line, .frame, .field], [.message], [.cors], [.message], [.field]]

/-! ### proof -/

theorem adder0_ctx {m : Msg} {mt : Val} (hm : m.defaults = mtDefaults mt) (s : Str) : CtxOnly (m.adder s) := by
  refine ⟨?_, rfl⟩
  show m.defaults.filter _ = _
  rw [hm]; rfl

theorem said_nil {m : Msg} {mt : Val} (hm : m.defaults = mtDefaults mt) (s : Str) (c : NoteId) : said ((m.adder s).mk1 c) = (c, s, []) :=
  said_mk1 (adder0_ctx hm s) rfl List.nodup_nil

theorem said_1 {m : Msg} {mt : Val} (hm : m.defaults = mtDefaults mt) (s : Str) (c : NoteId) (k : Str) (v : Val) (hk : free [k] = true) :
    said ((m.adder s).mk1 c [(k, v)]) = (c, s, [(k, v)]) :=
  said_mk1 (adder0_ctx hm s) hk (by simp)

/-- **C113** (status line): all that `process_response_topline` says -/
theorem C113_status_line (env : Env) (version status : Str) (phrase : Option Str) (m : Msg) (hm : Linting env m) (hk : m.kind = .response) :
    ∃ m' added, m.responseTopline version status phrase = (m', .ok ()) ∧ m'.notes = m.notes ++ added ∧
      added.map said = statusLineSaid status phrase := by
  have hd := hm.defaults
  change m.defaults = mtDefaults _ at hd
  have hn : ∀ p : Str, nonAscii p = true ↔ ∃ c ∈ p, 128 ≤ c := by intro p; unfold nonAscii; simp
  have e1 : (∃ n, IntText (asciiReplace status) n) ↔ (pyInt (asciiReplace status)).isSome = true := by
    cases hp : pyInt (asciiReplace status) with
    | none => simp only [Option.isSome_none, Bool.false_eq_true, iff_false]; exact pyInt_none.1 hp
    | some n => exact ⟨fun _ => rfl, fun _ => ⟨n, pyInt_iff.1 hp⟩⟩
  have e2 : (∃ p, phrase = some p ∧ ∃ c ∈ p, 128 ≤ c) ↔ nonAscii (phrase.getD []) = true := by
    cases phrase with
    | none => simp [nonAscii]
    | some p => rw [Option.getD_some, hn]; simp
  refine ⟨(m.responseTopline version status phrase).1,
    (if (pyInt (asciiReplace status)).isSome = true then [] else [(m.adder (str "status")).mk1 .STATUS_CODE_NON_NUMERIC]) ++
    (if nonAscii (phrase.getD []) = true then [(m.adder (str "status")).mk1 .STATUS_PHRASE_ENCODING] else []), ?_, ?_, ?_⟩
  · obtain ⟨m', _, _, h, _⟩ := responseTopline_eq version status phrase m hk
    rw [h]
  · unfold Msg.responseTopline
    rw [hk]
    dsimp only
    cases pyInt (asciiReplace status) <;> cases phrase with
    | none => simp [Msg.addNotes, nonAscii]; try (first | rfl | exact ⟨rfl, rfl⟩)
    | some p =>
      cases p with
      | nil => simp [Msg.addNotes, nonAscii]; try (first | rfl | exact ⟨rfl, rfl⟩)
      | cons x p =>
        dsimp only
        rw [if_neg (show ¬ List.isEmpty (x :: p) = true by simp)]
        by_cases h : nonAscii (x :: p) = true
        · rw [if_pos h]; simp [Msg.addNotes, h]; try (first | rfl | exact ⟨rfl, rfl⟩)
        · rw [if_neg h]; simp [Msg.addNotes, h]; try (first | rfl | exact ⟨rfl, rfl⟩)
  · unfold statusLineSaid
    rw [List.map_append]
    congr 1
    · by_cases h : (pyInt (asciiReplace status)).isSome = true
      · rw [if_pos h, if_pos (e1.2 h)]; rfl
      · rw [if_neg h, if_neg (fun h' => h (e1.1 h')), List.map_cons, said_nil hd]; rfl
    · by_cases h : nonAscii (phrase.getD []) = true
      · rw [if_pos h, if_pos (e2.2 h), List.map_cons, said_nil hd]; rfl
      · rw [if_neg h, if_neg (fun h' => h (e2.1 h'))]; rfl

/-- **C113** (request line): all that `process_request_topline` says, if its target can be converted to `uri` or else cannot
for a `ValueError` (other exceptions of the URL library are raised) -/
theorem C113_request_line (env : Env) (method iri version : Str) (m : Msg) (hm : Linting env m) (hk : m.kind = .request) :
    (∀ uri, env.iriToUri (utf8Replace iri) = .ok uri →
      ∃ m' added kept, m.requestTopline env method iri version = (m', .ok ()) ∧ WithoutFragment uri kept ∧
        m'.notes = m.notes ++ added ∧ added.map said = requestLineSaid (some uri) kept) ∧
    (∀ e, env.iriToUri (utf8Replace iri) = .error e → e.isValueError = true →
      ∃ m' added, m.requestTopline env method iri version = (m', .ok ()) ∧
        m'.notes = m.notes ++ added ∧ added.map said = requestLineSaid none (utf8Replace iri)) := by
  have hd := hm.defaults
  change m.defaults = mtDefaults _ at hd
  constructor
  · intro uri hu
    let kept := match split1 35 uri with | some (a, _) => a | none => uri
    refine ⟨(m.requestTopline env method iri version).1, (if Syntax.rfc3986.URI.spaced false uri then [] else [(m.adder (str "uri")).mk1 .URI_BAD_SYNTAX]) ++
      (if kept.length > 8000 then [(m.adder (str "uri")).mk1 .URI_TOO_LONG [(str "uri_len", .str (fNum kept.length))]] else []), kept, ?_, fragment_off uri, ?_, ?_⟩
    · obtain ⟨m', _, _, _, h, _⟩ := requestTopline_eq env method iri version uri m hk hu
      rw [h]
    · unfold Msg.requestTopline Msg.setUri
      rw [hk]
      dsimp only
      rw [hu]
      dsimp only [Msg.addNotes]
      rw [List.append_assoc]
      rfl
    · unfold requestLineSaid
      rw [List.map_append]
      have e1 : (∃ u, some uri = some u ∧ IsUri u) ↔ Syntax.rfc3986.URI.spaced false uri = true := by
        rw [spaced_iff]
        constructor
        · rintro ⟨u, h, hu⟩; cases h; exact hu
        · exact fun h => ⟨uri, rfl, h⟩
      congr 1
      · by_cases h : Syntax.rfc3986.URI.spaced false uri = true
        · rw [if_pos h, if_pos (e1.2 h)]; rfl
        · rw [if_neg h, if_neg (fun h' => h (e1.1 h')), List.map_cons, said_nil hd]; rfl
      · by_cases h : kept.length > 8000
        · rw [if_pos h, if_pos ⟨rfl, h⟩, List.map_cons, said_1 hd _ _ _ _ rfl]; rfl
        · rw [if_neg h, if_neg (fun h' => h h'.2)]; rfl
  · intro e he hv
    refine ⟨(m.requestTopline env method iri version).1, [(m.adder (str "uri")).mk1 .URI_BAD_SYNTAX], ?_, ?_, ?_⟩
    · unfold Msg.requestTopline Msg.setUri; rw [hk]; dsimp only; rw [he]; dsimp only; rw [if_pos hv]; rfl
    · unfold Msg.requestTopline Msg.setUri; rw [hk]; dsimp only; rw [he]; dsimp only; rw [if_pos hv]; rfl
    · unfold requestLineSaid
      rw [if_neg (by rintro ⟨u, h, _⟩; exact nomatch h), if_neg (fun h => nomatch h.1), List.map_cons, said_nil hd]; rfl

/-- **C113** (amount of content) -/
theorem C113_length {env : Env} {kind start noContent head related related'} {ops : List Op} {co ts} {m m' : Msg} {rn}
    (hm : m = (Op.runAll env ops ⟨fresh env kind start noContent head, related⟩).msg) (h : Finishes env related' co ts m m' rn) :
    (sel isLength m'.notes).map said = (sel isLength m.notes).map said ++ lengthSaid m (fed ops).length noContent := by
  have hr : Reachable env m := ⟨_, _, _, _, _, _, hm⟩
  have hn := runAll_content env ops ⟨fresh env kind start noContent head, related⟩
  simp only [fresh, Msg.new, Nat.zero_add] at hn
  have h1 : m.contentLength = (fed ops).length := by subst hm; exact hn.1
  have h2 : m.noContent = noContent := by subst hm; exact hn.2.1
  have hd := hr.defaults
  change m.defaults = mtDefaults _ at hd
  clear hm hn
  rw [finish_length hr.good h, List.map_append]
  congr 1
  have hc : m.canHaveContent = true ↔ ¬ (m.kind = .response ∧ (m.isHeadResponse = true ∨ m.statusCode = some 304)) := by
    unfold Msg.canHaveContent
    cases m.kind with
    | request => simp
    | response => cases m.isHeadResponse <;> simp
  unfold lengthNotes lengthSaid
  rw [h1, h2]
  by_cases hcc : m.canHaveContent = true
  · rw [if_pos hcc, if_neg (hc.1 hcc)]
    cases noContent with
    | true => cases dget m.headers.parsed (str "content-length") <;> rfl
    | false =>
      simp only [Bool.false_eq_true, if_false]
      cases hcl : dget m.headers.parsed (str "content-length") with
      | none => rfl
      | some v =>
        dsimp only
        have he : v.eqNat (fed ops).length = true ↔ v.number = .ok ((fed ops).length : Rat) := by
          unfold Val.eqNat
          cases v.number with
          | error e => simp
          | ok q => simp
        by_cases hv : v.eqNat (fed ops).length = true
        · rw [if_pos hv, if_pos (he.1 hv), List.map_cons, said_nil hd]; rfl
        · rw [if_neg hv, if_neg (fun h => hv (he.2 h)), List.map_cons, said_1 hd _ _ _ _ rfl]; rfl
  · rw [if_neg hcc, if_pos (Classical.not_not.1 fun h => hcc (hc.2 h))]
    cases noContent with
    | true => simp
    | false =>
      simp only [Bool.false_eq_true, if_false, and_true]
      by_cases hz : (fed ops).length = 0
      · rw [if_pos hz, if_neg (fun h => h hz)]; rfl
      · rw [if_neg hz, if_pos hz, List.map_cons, said_nil hd]; rfl

section
variable {env : Env} {related : Option Msg} {co : Bool} {ts : List (Str × Str)} {m m' : Msg} {rn : List Note}

theorem contentType_said {mt : Val} (hm : m.defaults = mtDefaults mt) {t cs} (hct : ContentType m t cs) :
    ∀ n ∈ (verifyContentType ⟨env, m, related⟩).notes, ∃ sn, env.sniff m.contentSample t = .ok sn ∧
      said n = (.CONTENT_TYPE_MISMATCH, str "content-type", [(str "declared_type", .str t), (str "sniffed_type", .str sn)]) := by
  obtain ⟨params, hct, _⟩ := hct
  intro n hn
  unfold verifyContentType at hn
  dsimp only at hn
  rw [hct] at hn
  split at hn
  · exact nomatch hn
  split at hn
  · exact nomatch hn
  dsimp only at hn
  rw [W.bind_ok (a := Val.str t) (by rfl)] at hn
  dsimp only at hn
  split at hn
  · exact nomatch hn
  have e : ((Val.str t).text?.getD [] : Str) = t := rfl
  rw [e] at hn
  cases hs : env.sniff m.contentSample t with
  | error e => rw [hs] at hn; exact nomatch hn
  | ok sn =>
    rw [hs] at hn
    dsimp only at hn
    split at hn
    · exact nomatch hn
    split at hn
    · exact nomatch hn
    refine ⟨sn, rfl, ?_⟩
    have : n = (m.adder (str "content-type")).mk1 .CONTENT_TYPE_MISMATCH [(str "declared_type", .str t), (str "sniffed_type", .str sn)] := by simpa [W.lift, Val.idx] using hn
    rw [this]
    exact said_mk1 (adder0_ctx hm _) rfl (by show ([str "declared_type", str "sniffed_type"] : List Str).Nodup; decide)

/-- **C113** (the type of the content): CONTENT_TYPE_MISMATCH says what is declared and what is found instead -/
theorem C113_content_type (hr : Reachable env m) (hk : m.kind = .response) (h : Finishes env related co ts m m' rn)
    (hd : Digests env) {t cs} (hct : ContentType m t cs) :
    ((m.noContent = false ∧ Mistyped env m t) ∧ ∃ x sn, env.sniff m.contentSample t = .ok sn ∧
      ofClass .CONTENT_TYPE_MISMATCH m'.notes = ofClass .CONTENT_TYPE_MISMATCH m.notes ++ [x] ∧
      said x = (.CONTENT_TYPE_MISMATCH, str "content-type", [(str "declared_type", .str t), (str "sniffed_type", .str sn)])) ∨
    (¬ (m.noContent = false ∧ Mistyped env m t) ∧ ofClass .CONTENT_TYPE_MISMATCH m'.notes = ofClass .CONTENT_TYPE_MISMATCH m.notes) := by
  rcases C47_mismatch hr hk h hd hct with ⟨hp, x, hx, e⟩ | ⟨hp, e⟩
  · refine .inl ⟨hp, x, ?_⟩
    have hf := finish_content_class hr hk h (c := .CONTENT_TYPE_MISMATCH) (.inl rfl)
    rw [hp.1, if_neg (by simp), charset_origin rfl _ (by exact hr.good.mt), List.append_nil, e] at hf
    have hmem : x ∈ (verifyContentType ⟨env, hashedMsg env m, related⟩).notes := by
      have : x ∈ ofClass .CONTENT_TYPE_MISMATCH (verifyContentType ⟨env, hashedMsg env m, related⟩).notes := by
        rw [← List.append_cancel_left hf]; exact List.mem_singleton_self x
      exact (List.mem_filter.1 this).1
    obtain ⟨sn, h1, h2⟩ := contentType_said (m := hashedMsg env m) (mt := .str (env.render.translate m.kind.name)) (show m.defaults = _ from hr.defaults) (show ContentType (hashedMsg env m) t cs from hct) x hmem
    exact ⟨sn, h1, e, h2⟩
  · exact .inr ⟨hp, e⟩

theorem emits_lift_bind {α β} {P : Note → Prop} {x : Except Exn α} {k : α → W β} (h : ∀ a, x = .ok a → Emits P (k a)) : Emits P (W.lift x >>= k) := by
  cases x with
  | error e => rw [W.bind_err (e := e) rfl]; intro n hn; exact nomatch hn
  | ok a => rw [W.bind_ok (a := a) rfl]; exact h a rfl

theorem charsetChecks_said {mt : Val} (hm : m.defaults = mtDefaults mt) {t charset : Str} {implied : Bool} :
    Emits (fun n => said n = charsetSaid t charset (env.chardet m.contentSample).1 n.cls) (charsetChecks ⟨env, m, related⟩ (.str t) charset implied) := by
  have two : ([str "declared_charset", str "detected_charset"] : List Str).Nodup := by decide
  have three : ([str "media_type", str "declared_charset", str "detected_charset"] : List Str).Nodup := by decide
  unfold charsetChecks
  obtain ⟨raw, conf, hch⟩ : ∃ raw conf, env.chardet m.contentSample = (raw, conf) := ⟨_, _, rfl⟩
  simp only [hch]
  refine emits_lift_bind fun o _ => ?_
  cases o with
  | none => exact emits_pure _
  | some canon =>
    dsimp only
    split
    · exact emits_pure _
    split
    · exact emits_pure _
    refine emits_lift_bind fun dec _ => ?_
    generalize hdet : (raw.bind fun r => if r.isEmpty then none else some r : Option Str) = det
    have hname : det.getD (str "unknown") = detectedName raw ∧ ∀ r, det = some r → Val.ofOpt raw = .str (detectedName raw) := by
      subst hdet
      cases raw with
      | none => exact ⟨rfl, fun r h => nomatch h⟩
      | some r => cases r with
        | nil => exact ⟨rfl, fun r h => nomatch h⟩
        | cons a r => exact ⟨rfl, fun _ _ => rfl⟩
    have key : ∀ dc : Option Str, (dc.isSome → det.isSome) → Emits (fun n => said n = charsetSaid t charset raw n.cls)
        (if dec.isNone then
          (m.adder (str "content-type")).add .CHARSET_UNDECODABLE [(str "declared_charset", .str charset),
            (str "detected_charset", .str (det.getD (str "unknown")))]
        else match dc with
          | none => pure ()
          | some dc =>
            if !dc.isEmpty && dc != canon && decide (conf.getD 0 ≥ 1 / 2) then do
              let same ← W.lift (encodingsCompatible env canon dc m.contentSample)
              if same then pure ()
              else if implied then
                (m.adder (str "content-type")).add .CHARSET_IMPLICIT_MISMATCH [(str "media_type", .str t),
                  (str "declared_charset", .str charset), (str "detected_charset", Val.ofOpt raw)]
              else
                (m.adder (str "content-type")).add .CHARSET_MISMATCH [(str "declared_charset", .str charset),
                  (str "detected_charset", Val.ofOpt raw)]
            else pure () : W Unit) := by
      intro dc hdc
      split
      · intro n hn
        have : n = (m.adder (str "content-type")).mk1 .CHARSET_UNDECODABLE [(str "declared_charset", .str charset), (str "detected_charset", .str (det.getD (str "unknown")))] := by simpa using hn
        rw [this, hname.1]
        exact said_mk1 (adder0_ctx hm _) rfl two
      · cases dc with
        | none => exact emits_pure _
        | some dc =>
          dsimp only
          split
          · refine emits_lift_bind fun same _ => ?_
            obtain ⟨r, hr⟩ := Option.isSome_iff_exists.1 (hdc rfl)
            rw [hname.2 r hr]
            split
            · exact emits_pure _
            split
            · intro n hn
              have : n = (m.adder (str "content-type")).mk1 .CHARSET_IMPLICIT_MISMATCH [(str "media_type", .str t), (str "declared_charset", .str charset), (str "detected_charset", .str (detectedName raw))] := by simpa using hn
              rw [this]
              exact said_mk1 (adder0_ctx hm _) rfl three
            · intro n hn
              have : n = (m.adder (str "content-type")).mk1 .CHARSET_MISMATCH [(str "declared_charset", .str charset), (str "detected_charset", .str (detectedName raw))] := by simpa using hn
              rw [this]
              exact said_mk1 (adder0_ctx hm _) rfl two
          · exact emits_pure _
    cases det with
    | none =>
      exact key none (fun h => nomatch h)
    | some r => exact emits_lift_bind fun o _ => key o fun _ => rfl

theorem Effective.unique {t : Str} {p c c' i i'} (h : Effective t p c i) (h' : Effective t p c' i') : c = c' := by
  cases h <;> cases h' <;> first | rfl | (exfalso; contradiction)

theorem verifyCharset_said {mt : Val} (hm : m.defaults = mtDefaults mt) {t param} (hct : ContentType m t param) :
    ∀ n ∈ (verifyCharset ⟨env, m, related⟩).notes, ∃ charset implied, effectiveCharset t (param.map .str) = some (charset, implied) ∧
      said n = charsetSaid t charset (env.chardet m.contentSample).1 n.cls := by
  obtain ⟨params, hct, hcs⟩ := hct
  intro n hn
  unfold verifyCharset at hn
  dsimp only at hn
  rw [hct] at hn
  split at hn
  · exact nomatch hn
  split at hn
  · exact nomatch hn
  dsimp only at hn
  rw [W.bind_ok (a := Val.str t) (by rfl), W.bind_ok (a := Val.dict params) (by rfl)] at hn
  dsimp only at hn
  split at hn
  · exact nomatch hn
  split at hn
  · exact nomatch hn
  have e : ((Val.str t).text?.getD [] : Str) = t := rfl
  rw [e, hcs] at hn
  cases he : effectiveCharset t (param.map .str) with
  | none => rw [he] at hn; exact nomatch hn
  | some p =>
    rw [he] at hn
    exact ⟨p.1, p.2, rfl, charsetChecks_said hm n (by simpa [W.lift, Val.idx] using hn)⟩

/-- **C113** (the charset): a note on the charset of the content names the charset that is declared or implied, the one
that was detected ("unknown" if none was), and in case it is implied the media type that implies it.  When such a note
is added is C46. -/
theorem C113_charset (hr : Reachable env m) (hk : m.kind = .response) (h : Finishes env related co ts m m' rn)
    (hd : Digests env) {t param} (hct : ContentType m t param) :
    ∃ added, sel isCharset m'.notes = sel isCharset m.notes ++ added ∧
      ((∃ charset implied canon l, Examined env m t param charset implied canon ∧
          CharsetVerdict env m.contentSample charset implied canon l ∧
          added.map said = l.map (charsetSaid t charset (env.chardet m.contentSample).1)) ∨
       ((¬∃ charset implied canon, Examined env m t param charset implied canon) ∧ added = [])) := by
  obtain ⟨added, e, h1⟩ := C46_charset_verdict_partial hr hk h hd hct
  refine ⟨added, e, ?_⟩
  rcases h1 with ⟨charset, implied, canon, hex, hv⟩ | h1
  · refine .inl ⟨charset, implied, canon, _, hex, hv, ?_⟩
    rw [List.map_map]
    refine List.map_congr_left fun n hn => ?_
    have hf := (finish_charset hr hk h).1
    rw [e] at hf
    have hn' := List.append_cancel_left hf ▸ hn
    rw [hex.looks, if_neg (by simp)] at hn'
    obtain ⟨c', i', he, hs⟩ := verifyCharset_said (m := hashedMsg env m) (mt := .str (env.render.translate m.kind.name)) (show m.defaults = _ from hr.defaults) (show ContentType (hashedMsg env m) t param from hct) n hn'
    rw [(effectiveCharset_some _ _).2 hex.effective] at he
    simp only [Option.some.injEq, Prod.mk.injEq] at he
    rw [hs, ← he.1]
    rfl
  · exact .inr h1

theorem Adds.classes {P} {a b} (h : Adds P a b) : ∃ l : List Note, b.map (·.cls) = a.map (·.cls) ++ l.map (·.cls) ∧ ∀ n ∈ l, P n := by
  induction h with
  | done l hl => exact ⟨l, rfl, hl⟩
  | cons hu _ ih =>
    obtain ⟨l, e, hl⟩ := ih
    exact ⟨l, by rw [List.map_cons, List.map_cons, e, hu.cls]; rfl, hl⟩

theorem Staged.add {os rest} {l : List Note} {l'} (h : ∀ n ∈ l, n.cls.origin ∈ os) (h' : Staged rest l') : Staged (os :: rest) (l.map (·.cls) ++ l') := by
  refine .cons (fun c hc => ?_) h'
  obtain ⟨n, hn, rfl⟩ := List.mem_map.1 hc
  exact h n hn

theorem Staged.last {os} {l : List Note} (h : ∀ n ∈ l, n.cls.origin ∈ os) : Staged [os] (l.map (·.cls)) := by
  have := Staged.add h .nil
  rwa [List.append_nil] at this

/-- **C113** (order): what the end of a response adds comes after all other notes, in the order of `responseStages` -/
theorem C113_response_order (hr : Reachable env m) (hk : m.kind = .response) (h : Finishes env related co ts m m' rn) :
    ∃ added, m'.notes.map (·.cls) = m.notes.map (·.cls) ++ added ∧ Staged responseStages added := by
  obtain ⟨na, h1, hc, h2, _⟩ := finish_response_full env related co ts m m' rn hr.good hk h
  obtain ⟨l1, e1, p1⟩ := h1.classes
  obtain ⟨l2, e2, p2⟩ := h2.classes
  have hm := hr.good.mt
  unfold responseVerdicts at e2
  refine ⟨l1.map (·.cls) ++ ((lengthNotes m).map (·.cls) ++ ((F.checkPreflightResponse ⟨env, m, related⟩ (m.adder [])).notes.map (·.cls) ++
    ((cacheCheck ⟨env, m, related⟩).2.1.notes.map (·.cls) ++ ((Status.check ⟨env, m, related⟩).notes.map (·.cls) ++
    ((if m.noContent then [] else (verifyContentType ⟨env, hashedMsg env m, related⟩).notes).map (·.cls) ++
    ((if m.noContent then [] else (verifyCharset ⟨env, hashedMsg env m, related⟩).notes).map (·.cls) ++ l2.map (·.cls))))))), ?_, ?_⟩
  · rw [e2]
    simp only [List.map_append, e1, List.append_assoc]
    by_cases hn : m.noContent = true
    · rw [if_pos hn, if_pos hn, if_pos hn]; rfl
    · rw [if_neg hn, if_neg hn, if_neg hn, List.map_append, List.append_assoc]
  · refine .add (fun n hn => ?_) (.add (fun n hn => ?_) (.add (fun n hn => ?_) (.add (fun n hn => ?_) (.add (fun n hn => ?_) (.add (fun n hn => ?_) (.add (fun n hn => ?_) (.last fun n hn => ?_)))))))
    · rcases (p1 n hn).2 with h | h | h <;> rw [h] <;> decide
    · exact (lengthNotes_lint m hm n hn).2.1
    · rw [(hc n hn).2]; decide
    · rw [(cacheCheck_emits _ (by exact hm) n hn).2]; decide
    · rw [(statusCheck_emits _ (by exact hm) n hn).2]; decide
    · cases hh : m.noContent with
      | true => rw [hh] at hn; exact nomatch hn
      | false => rw [hh] at hn; rw [(verifyContentType_emits _ (by exact hm) n hn).2]; decide
    · cases hh : m.noContent with
      | true => rw [hh] at hn; exact nomatch hn
      | false => rw [hh] at hn; rw [(verifyCharset_emits _ (by exact hm) n hn).2]; decide
    · rw [(p2 n hn).2]; decide

/-- **C113** (order): … and what the end of a request adds, in the order of `requestStages` -/
theorem C113_request_order (hr : Reachable env m) (hk : m.kind = .request) (h : Finishes env related co ts m m' rn) :
    ∃ added, m'.notes.map (·.cls) = m.notes.map (·.cls) ++ added ∧ Staged requestStages added := by
  obtain ⟨na, h1, h2, _⟩ := finish_request env related co ts m m' rn hr.good hk h
  obtain ⟨l1, e1, p1⟩ := h1.classes
  obtain ⟨l2, e2, p2⟩ := h2.classes
  have hm := hr.good.mt
  have hp : ∃ w : List Note, (requestPostChecks env related m).notes = (F.checkPreflightRequest ⟨env, m, related⟩ (m.adder [])).notes ++ w ∧
      ∀ n ∈ w, n.cls.origin ∈ [Origin.message] := by
    unfold requestPostChecks
    rw [W.bind_ok (a := ()) (checkPreflightRequest_ok ..)]
    refine ⟨_, rfl, ?_⟩
    show Emits (fun n => n.cls.origin ∈ [Origin.message]) _
    have hadd : ∀ (b : Bool) (a : AddNote) (c : NoteId) (v : Dict Val), c.origin ∈ [Origin.message] →
        Emits (fun n => n.cls.origin ∈ [Origin.message]) (W.when b (a.add c v)) := by
      intro b a c v hc
      cases b with
      | false => exact emits_pure _
      | true => intro n hn; rw [List.mem_singleton.1 hn]; exact hc
    refine emits_bind (hadd _ _ _ _ (by decide)) fun _ => ?_
    cases m.method with
    | none => exact emits_pure _
    | some x => exact hadd _ _ _ _ (by decide)
  obtain ⟨w, ew, pw⟩ := hp
  refine ⟨l1.map (·.cls) ++ ((lengthNotes m).map (·.cls) ++ ((F.checkPreflightRequest ⟨env, m, related⟩ (m.adder [])).notes.map (·.cls) ++
    (w.map (·.cls) ++ l2.map (·.cls)))), ?_, ?_⟩
  · rw [e2, ew]
    simp only [List.map_append, e1, List.append_assoc]
  · refine .add (fun n hn => ?_) (.add (fun n hn => ?_) (.add (fun n hn => ?_) (.add pw (.last fun n hn => ?_))))
    · rcases (p1 n hn).2 with h | h | h <;> rw [h] <;> decide
    · exact (lengthNotes_lint m hm n hn).2.1
    · rw [(checkPreflightRequest_emits (ks := [str "message_type"]) (adder_good hm [] [] [str "message_type"] rfl) _ n hn).2]; decide
    · rw [(p2 n hn).2]; decide

end

/-! Concrete histories: all notes of a response whose content is neither of the type nor in the charset that is declared,
and whose length is wrong; and of one whose status line is malformed. -/

/-- the notes of a finished message, with what they say -/
def allSaid (env : Env) (m : Msg) : Except Exn Unit × List (NoteId × Str × Dict Val) :=
  let r := (m.finishContent env none true []).1
  (r.2, (sel (fun c => c.origin == .contentType || c.origin == .charset || c.origin == .message) r.1.notes).map said)

/-- a response on its way -/
def exSaid (status ct cl content : Str) : Msg :=
  (Op.runAll contentEnv [.responseTopline (str "1.1") status none, .headers [(str "Content-Type", ct), (str "Content-Length", cl)], .feed content]
    ⟨fresh contentEnv .response none false false, none⟩).msg

example (status ct cl content : Str) : Reachable contentEnv (exSaid status ct cl content) := ⟨_, _, _, _, _, _, rfl⟩

example : allSaid contentEnv (exSaid (str "200") (str "text/a;charset=bad") (str "12") [200]) =
    (.ok (), [(.CL_INCORRECT, str "field-content-length", [(str "content_length", .str (str "1"))]),
      (.CONTENT_TYPE_MISMATCH, str "content-type", [(str "declared_type", .str (str "text/a")), (str "sniffed_type", .str (str "image/gif"))]),
      (.CHARSET_UNDECODABLE, str "content-type", [(str "declared_charset", .str (str "bad")), (str "detected_charset", .str (str "other"))])]) := by kernel_rfl
example : allSaid contentEnv (exSaid (str "200") (str "a/b+json") (str "1") [200]) =
    (.ok (), [(.CL_CORRECT, str "field-content-length", []),
      (.CONTENT_TYPE_MISMATCH, str "content-type", [(str "declared_type", .str (str "a/b+json")), (str "sniffed_type", .str (str "image/gif"))]),
      (.CHARSET_IMPLICIT_MISMATCH, str "content-type", [(str "media_type", .str (str "a/b+json")), (str "declared_charset", .str (str "utf-8")), (str "detected_charset", .str (str "other"))])]) := by kernel_rfl
example : allSaid contentEnv (exSaid (str "abc") (str "image/gif") (str "1") [200]) =
    (.ok (), [(.STATUS_CODE_NON_NUMERIC, str "status", []), (.CL_CORRECT, str "field-content-length", [])]) := by kernel_rfl

/-- the theorems apply to that history -/
example : ∃ m', Finishes contentEnv none true [] (exSaid (str "200") (str "text/a;charset=bad") (str "12") [200]) m' [] ∧
    ∃ added, m'.notes.map (·.cls) = (exSaid (str "200") (str "text/a;charset=bad") (str "12") [200]).notes.map (·.cls) ++ added ∧
      Staged responseStages added := by
  refine ⟨((exSaid (str "200") (str "text/a;charset=bad") (str "12") [200]).finishContent contentEnv none true []).1.1, ?_, ?_⟩
  · have h := finishes_of (env := contentEnv) (related := none) (co := true) (ts := []) (m := exSaid (str "200") (str "text/a;charset=bad") (str "12") [200]) (by decide +kernel)
    have e : ((exSaid (str "200") (str "text/a;charset=bad") (str "12") [200]).finishContent contentEnv none true []).2 = [] := by decide +kernel
    rwa [e] at h
  · exact C113_response_order (rn := _) ⟨_, _, _, _, _, _, rfl⟩ (by decide +kernel) (finishes_of (by decide +kernel))

end HL.Props
