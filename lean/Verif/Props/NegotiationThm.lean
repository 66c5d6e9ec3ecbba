import Verif.Props.ParamFields

/-!
# Accept, Accept-Language, Accept-Patch, Accept-Post: which elements are reported (C82, C83)
-/

namespace HL.Props
open HL.F Syntax

/-! ### media ranges -/

/-- `v` is `type/subtype`, where a `*` may only stand as `wild` allows (`*/*` and `type/*`), and, if `tok`, the other names are tokens -/
def IsRange (wild tok : Bool) (v : Str) : Prop :=
  ∃ t s, IsMediaType v t s ∧ ((t = str "*" ∨ s = str "*") → wild = true ∧ s = str "*") ∧
    (tok = true → ∀ n ∈ [t, s], n ≠ str "*" → tokenName n = true)

open Classical in
/-- the report of something that isn't a media range -/
noncomputable def rangeReports (bad : NoteId) (ref : Str) (wild tok : Bool) (v : Str) : List Report :=
  if IsRange wild tok v then [] else [{ cls := bad, vars := [(str "value", .str v), (str "ref_uri", .str ref)] }]

theorem rangeReports_clean {bad ref wild tok v} : ∀ r ∈ rangeReports bad ref wild tok v, r.Clean ∧ r.cls = bad := by
  intro r hr
  unfold rangeReports at hr
  split at hr
  · exact absurd hr (by simp)
  · rw [List.mem_singleton] at hr
    subst hr
    exact ⟨⟨by simp, by simp⟩, rfl⟩

theorem media_cases (add : AddNote) (v : Str) (b : NoteId) (r : Str) (wild tok : Bool) :
    checkMediaType add v (some b) (some r) wild tok = add.add b [(str "value", .str v), (str "ref_uri", .str r)] ∨
    ∃ x y : Bool, checkMediaType add v (some b) (some r) wild tok =
      (do W.when x (add.add .MEDIA_TYPE_LONG_NAME [(str "value", .str v)]); W.when y (add.add .MEDIA_TYPE_BAD_NAME [(str "value", .str v)])) := by
  unfold checkMediaType
  dsimp only
  split
  · exact .inl rfl
  · split
    · exact .inl rfl
    · generalize (if [(partition 47 v).1, (partition 47 v).2.2].contains (str "*") = true then _ else _) = names
      split
      · exact .inl rfl
      · exact .inr ⟨_, _, rfl⟩

theorem media_heard {Xs : List NoteId} (add : AddNote) (v : Str) (b : NoteId) (r : Str) (wild tok : Bool) (hb : Xs.contains b = true)
    (hX : Xs.contains .MEDIA_TYPE_LONG_NAME = false ∧ Xs.contains .MEDIA_TYPE_BAD_NAME = false) :
    Heard Xs add (checkMediaType add v (some b) (some r) wild tok) (rangeReports b r wild tok v) () := by
  have hne : b ≠ .MEDIA_TYPE_LONG_NAME ∧ b ≠ .MEDIA_TYPE_BAD_NAME :=
    ⟨fun e => (by rw [e, hX.1] at hb; cases hb), fun e => (by rw [e, hX.2] at hb; cases hb)⟩
  have hi : b ∈ (checkMediaType add v (some b) (some r) wild tok).notes.map (·.cls) ↔ ¬ IsRange wild tok v := by
    rw [C51_bad_iff add v b (some r) wild tok hne]
    unfold IsRange
    constructor
    · rintro h ⟨t, s, h1, h2, h3⟩
      rcases h t s h1 with ⟨h4, h5⟩ | ⟨h4, n, h5, h6, h7⟩
      · exact h5 (h2 h4)
      · rw [h3 h4 n h5 h6] at h7; exact nomatch h7
    · intro h t s h1
      refine Classical.byContradiction fun hn => h ⟨t, s, h1, ?_, ?_⟩
      · intro h4
        exact Classical.byContradiction fun h5 => hn (.inl ⟨h4, h5⟩)
      · intro h4 n h5 h6
        exact Classical.byContradiction fun h7 => hn (.inr ⟨h4, n, h5, h6, by simpa using h7⟩)
  unfold rangeReports
  rcases media_cases add v b r wild tok with e | ⟨x, y, e⟩
  · rw [e] at hi ⊢
    rw [if_neg (hi.1 (List.mem_map.2 ⟨_, List.mem_singleton.2 rfl, rfl⟩))]
    exact Heard.add hb
  · have hs : ∀ n ∈ (checkMediaType add v (some b) (some r) wild tok).notes, n.cls = .MEDIA_TYPE_LONG_NAME ∨ n.cls = .MEDIA_TYPE_BAD_NAME := by
      rw [e]
      have ht := Told.bind (add := add) (a := ()) (f := fun _ => W.when y (add.add .MEDIA_TYPE_BAD_NAME [(str "value", .str v)])) (x := W.when x (add.add .MEDIA_TYPE_LONG_NAME [(str "value", .str v)])) .when .when
      intro n hn
      replace hn := (congrArg (n ∈ ·) ht.notes).mp hn
      obtain ⟨r, hr, rfl⟩ := List.mem_map.1 hn
      rcases List.mem_append.1 hr with hr | hr <;> obtain ⟨_, rfl⟩ := mem_sayIf.1 hr
      · exact .inl rfl
      · exact .inr rfl
    have hr : IsRange wild tok v := by
      refine Classical.byContradiction fun h => ?_
      obtain ⟨n, h1, h2⟩ := List.mem_map.1 (hi.2 h)
      rcases hs n h1 with h3 | h3 <;> rw [h2] at h3
      · exact hne.1 h3
      · exact hne.2 h3
    rw [if_pos hr]
    refine Heard.silent ?_ ?_
    · intro n hn
      rcases hs n hn with h3 | h3 <;> rw [h3]
      · exact hX.1
      · exact hX.2
    · rw [e]; cases x <;> cases y <;> rfl

theorem parseMedia_eq (env : Env) (add : AddNote) (v : Str) (b : Option NoteId) (r : Option Str) (wild : Bool) (ns : NoStar) :
    parseMediaType env add v b r wild ns = (do
      checkMediaType add (lower (strip (beforeC 59 v))) b r wild
      let d ← parseParams env add (afterC 59 v) ns
      return (lower (strip (beforeC 59 v)), d)) := by
  have hs := splitSemi_eq v
  unfold splitSemi at hs
  unfold parseMediaType
  cases h : split1 59 v with
  | none => rw [h] at hs; injection hs with h1 h2; rw [← h1, ← h2]
  | some p => rw [h] at hs; injection hs with h1 h2; rw [← h1, ← h2]

theorem parseMedia_heard {Xs : List NoteId} (env : Env) (add : AddNote) (v : Str) (b : NoteId) (r : Str) (wild : Bool) (ns : NoStar) (hb : Xs.contains b = true)
    (hX : Xs.contains .MEDIA_TYPE_LONG_NAME = false ∧ Xs.contains .MEDIA_TYPE_BAD_NAME = false) (hP : ∀ X ∈ paramClasses, Xs.contains X = false) :
    ∃ d, Heard Xs add (parseMediaType env add v (some b) (some r) wild ns) (rangeReports b r wild false (lower (strip (beforeC 59 v)))) (lower (strip (beforeC 59 v)), d) ∧
      ∀ n, dget d n = (paramOf env ns (afterC 59 v) n).map Val.str := by
  obtain ⟨d, hd, hg, _⟩ := params_heard env add (afterC 59 v) ns Xs hP
  refine ⟨d, ?_, hg⟩
  rw [parseMedia_eq]
  exact Heard.of (Heard.bind (media_heard add _ b r wild false hb hX) (Heard.bind hd .pure)) (by rw [List.nil_append, List.append_nil])

/-! ### weights -/

/-- RFC 9110's qvalue: `0` or `1`, perhaps followed by a point and up to three digits, which are zeros after `1` -/
def IsWeight (s : Str) : Prop :=
  ∃ ds : Str, ds.length ≤ 3 ∧ (∀ d ∈ ds, 48 ≤ d ∧ d ≤ 57) ∧ (s = [48] ∨ s = [48, 46] ++ ds ∨ s = [49] ∨ (s = [49, 46] ++ ds ∧ ∀ d ∈ ds, d = 48))

/-- what httplint takes for a weight: at most five characters that Python reads as a number between 0 and 1 -/
def WeightOk (s : Str) : Prop := s.length ≤ 5 ∧ ∃ q, pyFloat s = some q ∧ 0 ≤ q ∧ q ≤ 1

theorem qValue_some (s : Str) : (qValue (.str s)).isSome = true ↔ WeightOk s := by
  unfold qValue WeightOk
  constructor
  · intro h
    dsimp only at h
    split at h
    · exact nomatch h
    · cases hp : pyFloat s with
      | none => rw [hp] at h; exact nomatch h
      | some q =>
        rw [hp] at h
        dsimp only at h
        split at h
        · exact ⟨by omega, q, rfl, by assumption⟩
        · exact nomatch h
  · rintro ⟨h1, q, h2, h3⟩
    dsimp only
    rw [if_neg (by omega), h2]
    dsimp only
    rw [if_pos h3]
    rfl

theorem weights0 : ∀ a, a < 10 → (qValue (.str [48, 46, 48 + a])).isSome = true := by decide +kernel

theorem weights1 : ∀ a, a < 10 → ∀ b, b < 10 → (qValue (.str [48, 46, 48 + a, 48 + b])).isSome = true := by decide +kernel

theorem weights2 : ∀ a, a < 10 → ∀ b, b < 10 → ∀ c, c < 10 → (qValue (.str [48, 46, 48 + a, 48 + b, 48 + c])).isSome = true := by decide +kernel

theorem weights3 : ∀ l ∈ [str "1.", str "1.0", str "1.00", str "1.000", str "0", str "1", str "0."], (qValue (.str l)).isSome = true := by decide +kernel

/-- every qvalue is taken for a weight -/
theorem weight_ok {s : Str} (h : IsWeight s) : WeightOk s := by
  rw [← qValue_some]
  obtain ⟨ds, h1, h2, rfl | rfl | rfl | ⟨rfl, h3⟩⟩ := h
  · exact weights3 _ (by decide)
  · match ds, h1, h2 with
    | [], _, _ => exact weights3 _ (by decide)
    | [a], _, h2 =>
      have ha := h2 a (by simp)
      have := weights0 (a - 48) (by omega)
      rwa [show 48 + (a - 48) = a by omega] at this
    | [a, b], _, h2 =>
      have ha := h2 a (by simp)
      have hb := h2 b (by simp)
      have := weights1 (a - 48) (by omega) (b - 48) (by omega)
      rwa [show 48 + (a - 48) = a by omega, show 48 + (b - 48) = b by omega] at this
    | [a, b, c], _, h2 =>
      have ha := h2 a (by simp)
      have hb := h2 b (by simp)
      have hc := h2 c (by simp)
      have := weights2 (a - 48) (by omega) (b - 48) (by omega) (c - 48) (by omega)
      rwa [show 48 + (a - 48) = a by omega, show 48 + (b - 48) = b by omega, show 48 + (c - 48) = c by omega] at this
    | _ :: _ :: _ :: _ :: _, h1, _ => exact absurd h1 (by simp)
  · exact weights3 _ (by decide)
  · match ds, h1, h3 with
    | [], _, _ => exact weights3 _ (by decide)
    | [a], _, h => rw [h a (by simp)]; exact weights3 _ (by decide)
    | [a, b], _, h => rw [h a (by simp), h b (by simp)]; exact weights3 _ (by decide)
    | [a, b, c], _, h => rw [h a (by simp), h b (by simp), h c (by simp)]; exact weights3 _ (by decide)
    | _ :: _ :: _ :: _ :: _, h1, _ => exact absurd h1 (by simp)

/-- the weight of an element: the last `q` among its parameters -/
def weightOf (env : Env) (e : Str) : Option Str := paramOf env (.names [str "q"]) (afterC 59 e) (str "q")

open Classical in
/-- the report of a bad weight -/
noncomputable def weightReports (env : Env) (r : Report) (e : Str) : List Report :=
  if ∃ s, weightOf env e = some s ∧ ¬ WeightOk s then [r] else []

theorem weightReports_mem {env r e x} (h : x ∈ weightReports env r e) : x = r := by
  unfold weightReports at h
  split at h
  · exact List.mem_singleton.1 h
  · exact absurd h (by simp)

theorem weight_says {env : Env} {e : Str} {d : Dict Val} (hg : dget d (str "q") = (weightOf env e).map Val.str) :
    (∃ s, weightOf env e = some s ∧ ¬ WeightOk s) ↔ ∃ v, dget d (str "q") = some v ∧ qValue v = none := by
  rw [hg]
  cases weightOf env e with
  | none => simp
  | some s =>
    simp only [Option.some.injEq, exists_eq_left', Option.map_some]
    rw [← qValue_some]
    cases qValue (Val.str s) <;> simp

/-! ### the fields -/

/-- what is reported on an element of `Accept` -/
noncomputable def acceptReports (env : Env) (e : Str) : List Report :=
  let mt := lower (strip (beforeC 59 e))
  rangeReports .ACCEPT_BAD_SYNTAX FieldId.accept_.info.reference true false mt ++
    weightReports env { cls := .BAD_Q_VALUE_accept, vars := [(str "media_type", .str mt)] } e

theorem accept_heard (env : Env) (add : AddNote) (e : Str) :
    ∃ a, Heard [.ACCEPT_BAD_SYNTAX, .BAD_Q_VALUE_accept] add (accept.parse env add e) (acceptReports env e) a := by
  obtain ⟨d, hd, hg⟩ := parseMedia_heard (Xs := [.ACCEPT_BAD_SYNTAX, .BAD_Q_VALUE_accept]) env add e .ACCEPT_BAD_SYNTAX FieldId.accept_.info.reference true (.names [str "q"]) rfl ⟨rfl, rfl⟩ (by decide)
  have hw := weight_says (hg (str "q"))
  unfold accept.parse acceptReports weightReports
  cases hq : dget d (str "q") with
  | none =>
    refine ⟨acceptValue (lower (strip (beforeC 59 e))) d none, Heard.bind hd ?_⟩
    dsimp only
    rw [hq, if_neg (by rw [hw, hq]; rintro ⟨_, h, _⟩; exact nomatch h)]
    exact .pure
  | some v =>
    cases hv : qValue v with
    | none =>
      refine ⟨acceptValue (lower (strip (beforeC 59 e))) (derase d (str "q")) none, Heard.bind hd ?_⟩
      dsimp only
      rw [hq, if_pos (by rw [hw, hq]; exact ⟨v, rfl, hv⟩)]
      dsimp only
      rw [hv]
      exact Heard.of (Heard.bind (Heard.add rfl) .pure) (List.append_nil _)
    | some q =>
      refine ⟨acceptValue (lower (strip (beforeC 59 e))) (derase d (str "q")) (some q), Heard.bind hd ?_⟩
      dsimp only
      rw [hq, if_neg (by rw [hw, hq]; rintro ⟨_, h, h'⟩; cases h; rw [hv] at h'; cases h')]
      dsimp only
      rw [hv]
      exact .pure

/-- what is reported on an element of `Accept-Language` -/
noncomputable def rangeLanguageReports (env : Env) (e : Str) : List Report :=
  weightReports env { cls := .BAD_Q_VALUE_accept_language, vars := [(str "language", .str (lower (beforeC 59 e)))] } e ++
    sayIf ((paramsOf env (.names [str "q"]) (afterC 59 e)).any fun p => p.1 != str "q") { cls := .ACCEPT_LANGUAGE_BAD_SYNTAX, vars := [(str "ref_uri", FieldId.accept_language_.ref)] }

theorem param_given (env : Env) (ns : NoStar) (s n : Str) : (paramOf env ns s n).isSome = true ↔ ∃ p ∈ paramsOf env ns s, p.1 = n := by
  unfold paramOf
  rw [Option.isSome_map, Option.isSome_iff_ne_none, ne_eq, List.getLast?_eq_none_iff, List.filter_eq_nil_iff]
  simp

theorem others_left {env : Env} {ns : NoStar} {s : Str} {d : Dict Val} (hg : ∀ n, dget d n = (paramOf env ns s n).map Val.str) (q : Str) :
    (!(derase d q).isEmpty) = (paramsOf env ns s).any fun p => p.1 != q := by
  have hh : ∀ n, dhas d n = true ↔ ∃ p ∈ paramsOf env ns s, p.1 = n := by
    intro n
    rw [← param_given, ← dget_isSome, hg, Option.isSome_map]
  rw [Bool.eq_iff_iff, List.any_eq_true]
  unfold derase
  constructor
  · intro h
    cases hf : d.filter (fun p => p.1 != q) with
    | nil => rw [hf] at h; cases h
    | cons x r =>
      obtain ⟨h1, h2⟩ := List.mem_filter.1 (show x ∈ d.filter (fun p => p.1 != q) by rw [hf]; simp)
      obtain ⟨p, hp, e⟩ := (hh x.1).1 ((dhas_iff_mem_keys d x.1).2 (List.mem_map.2 ⟨x, h1, rfl⟩))
      exact ⟨p, hp, by rw [e]; exact h2⟩
  · rintro ⟨p, hp, hq⟩
    obtain ⟨x, h1, e⟩ := List.mem_map.1 ((dhas_iff_mem_keys d p.1).1 ((hh p.1).2 ⟨p, hp, rfl⟩))
    have : x ∈ d.filter (fun p => p.1 != q) := List.mem_filter.2 ⟨h1, by rw [e]; exact hq⟩
    cases hf : d.filter (fun p => p.1 != q) with
    | nil => rw [hf] at this; cases this
    | cons _ _ => rfl

theorem language_heard (env : Env) (add : AddNote) (e : Str) :
    ∃ a, Heard [.BAD_Q_VALUE_accept_language, .ACCEPT_LANGUAGE_BAD_SYNTAX] add (accept_language.parse env add e) (rangeLanguageReports env e) a := by
  obtain ⟨d, hd, hg, _⟩ := params_heard env add (afterC 59 e) (.names [str "q"]) [.BAD_Q_VALUE_accept_language, .ACCEPT_LANGUAGE_BAD_SYNTAX] (by decide)
  have hw := weight_says (e := e) (hg (str "q"))
  unfold accept_language.parse rangeLanguageReports weightReports
  rw [splitSemi_eq]
  dsimp only
  rw [← others_left hg]
  cases hq : dget d (str "q") with
  | none =>
    refine ⟨.tuple [.str (lower (beforeC 59 e)), .none], Heard.of (Heard.bind hd ?_) (List.nil_append _)⟩
    rw [hq, if_neg (by rw [hw, hq]; rintro ⟨_, h, _⟩; exact nomatch h)]
    exact Heard.of (Heard.bind (l := []) (a := Option.none) .pure (Heard.bind (.when rfl) .pure)) (by rw [List.append_nil])
  | some v =>
    cases hv : qValue v with
    | none =>
      refine ⟨.tuple [.str (lower (beforeC 59 e)), .none], Heard.of (Heard.bind hd ?_) (List.nil_append _)⟩
      rw [hq, if_pos (by rw [hw, hq]; exact ⟨v, rfl, hv⟩)]
      dsimp only
      rw [hv]
      exact Heard.bind (Heard.add rfl) (Heard.of (Heard.bind (l := []) (a := Option.none) .pure (Heard.bind (.when rfl) .pure)) (List.append_nil _))
    | some q =>
      refine ⟨.tuple [.str (lower (beforeC 59 e)), .num q], Heard.of (Heard.bind hd ?_) (List.nil_append _)⟩
      rw [hq, if_neg (by rw [hw, hq]; rintro ⟨_, h, h'⟩; cases h; rw [hv] at h'; cases h')]
      dsimp only
      rw [hv]
      exact Heard.of (Heard.bind (l := []) (a := some q) .pure (Heard.bind (.when rfl) .pure)) (by rw [List.append_nil])

section
variable {env : Env} {related : Option Msg} {t : Bool} {ls : List Line} {m m' : Msg}

/-- **C82** `Accept`, in full: each element whose media range isn't `*/*`, `type/*` or `type/subtype`, and each whose weight isn't a number
between 0 and 1 of at most five characters, is reported at its line -/
theorem C82_accept (P : Processed env related t ls m m') (hk : m.kind = .request) :
    Reported [.ACCEPT_BAD_SYNTAX, .BAD_Q_VALUE_accept] m m'
      ((linesFor m.kind .accept_ ls).flatMap fun p => (lineElements p.2.2).flatMap fun e => (acceptReports env e).map (offsetSubject p.1, ·)) := by
  refine P.elements_reports (Xs := [.ACCEPT_BAD_SYNTAX, .BAD_Q_VALUE_accept]) (f := .accept_) (by only_these) rfl (by rw [hk]; rfl) ?_ (acceptReports env) ?_ ?_
  · intro c add hd hf; unfold Handler.evaluate; rw [hf]; rfl
  · intro e r hr
    rcases List.mem_append.1 hr with hr | hr
    · exact (rangeReports_clean r hr).1
    · rw [weightReports_mem hr]; exact ⟨by simp, by simp⟩
  · intro add hd v hf
    obtain ⟨a, ha⟩ := accept_heard env add v
    unfold Handler.parse
    rw [hf]
    exact ha.notes

/-- **C82** `Accept-Language`, in full: each element with a bad weight and each with another parameter is reported at its line -/
theorem C82_accept_language (P : Processed env related t ls m m') (hk : m.kind = .request) :
    Reported [.BAD_Q_VALUE_accept_language, .ACCEPT_LANGUAGE_BAD_SYNTAX] m m'
      ((linesFor m.kind .accept_language_ ls).flatMap fun p => (lineElements p.2.2).flatMap fun e => (rangeLanguageReports env e).map (offsetSubject p.1, ·)) := by
  refine P.elements_reports (Xs := [.BAD_Q_VALUE_accept_language, .ACCEPT_LANGUAGE_BAD_SYNTAX]) (f := .accept_language_) (by only_these) rfl (by rw [hk]; rfl) ?_ (rangeLanguageReports env) ?_ ?_
  · intro c add hd hf; unfold Handler.evaluate; rw [hf]; rfl
  · intro e r hr
    rcases List.mem_append.1 hr with hr | hr
    · rw [weightReports_mem hr]; exact ⟨by simp, by simp⟩
    · obtain ⟨_, rfl⟩ := mem_sayIf.1 hr; exact ⟨by simp, by simp⟩
  · intro add hd v hf
    obtain ⟨a, ha⟩ := language_heard env add v
    unfold Handler.parse
    rw [hf]
    exact ha.notes

/-- **C82** an element whose weight is one that RFC 9110 allows is not reported for its weight -/
theorem C82_weight (env : Env) (r : Report) (e : Str) (h : ∀ s, weightOf env e = some s → IsWeight s) : weightReports env r e = [] := by
  unfold weightReports
  exact if_neg fun ⟨s, h1, h2⟩ => h2 (weight_ok (h s h1))

/-- **C83** `Accept-Patch`: each element that isn't `type/subtype` without a wildcard is reported at its line -/
theorem C83_accept_patch (P : Processed env related t ls m m') (hk : m.kind = .response) :
    Reported [.ACCEPT_PATCH_BAD_SYNTAX] m m' ((linesFor m.kind .accept_patch_ ls).flatMap fun p => (lineElements p.2.2).flatMap fun e =>
      (rangeReports .ACCEPT_PATCH_BAD_SYNTAX FieldId.accept_patch_.info.reference false false (lower (strip (beforeC 59 e)))).map (offsetSubject p.1, ·)) := by
  refine P.elements_reports (Xs := [.ACCEPT_PATCH_BAD_SYNTAX]) (f := .accept_patch_) (by only_these) rfl (by rw [hk]; rfl) ?_
    (fun e => rangeReports .ACCEPT_PATCH_BAD_SYNTAX FieldId.accept_patch_.info.reference false false (lower (strip (beforeC 59 e)))) (fun e r hr => (rangeReports_clean r hr).1) ?_
  · intro c add hd hf; unfold Handler.evaluate; rw [hf]; rfl
  · intro add hd v hf
    obtain ⟨d, hd, _⟩ := parseMedia_heard (Xs := [.ACCEPT_PATCH_BAD_SYNTAX]) env add v .ACCEPT_PATCH_BAD_SYNTAX FieldId.accept_patch_.info.reference false .none rfl ⟨rfl, rfl⟩ (by decide)
    unfold Handler.parse
    rw [hf]
    exact (Heard.of (Heard.bind (f := fun p => pure (mediaPair p)) hd .pure) (List.append_nil _)).notes

/-- **C83** `Accept-Post`: each element that isn't `*/*`, `type/*` or `type/subtype` is reported at its line -/
theorem C83_accept_post (P : Processed env related t ls m m') (hk : m.kind = .response) :
    Reported [.ACCEPT_POST_BAD_SYNTAX] m m' ((linesFor m.kind .accept_post_ ls).flatMap fun p => (lineElements p.2.2).flatMap fun e =>
      (rangeReports .ACCEPT_POST_BAD_SYNTAX FieldId.accept_post_.info.reference true false (lower (strip (beforeC 59 e)))).map (offsetSubject p.1, ·)) := by
  refine P.elements_reports (Xs := [.ACCEPT_POST_BAD_SYNTAX]) (f := .accept_post_) (by only_these) rfl (by rw [hk]; rfl) ?_
    (fun e => rangeReports .ACCEPT_POST_BAD_SYNTAX FieldId.accept_post_.info.reference true false (lower (strip (beforeC 59 e)))) (fun e r hr => (rangeReports_clean r hr).1) ?_
  · intro c add hd hf; unfold Handler.evaluate; rw [hf]; rfl
  · intro add hd v hf
    obtain ⟨d, hd, _⟩ := parseMedia_heard (Xs := [.ACCEPT_POST_BAD_SYNTAX]) env add v .ACCEPT_POST_BAD_SYNTAX FieldId.accept_post_.info.reference true .none rfl ⟨rfl, rfl⟩ (by decide)
    unfold Handler.parse
    rw [hf]
    exact (Heard.of (Heard.bind (f := fun p => pure (mediaPair p)) hd .pure) (List.append_nil _)).notes

end

end HL.Props
