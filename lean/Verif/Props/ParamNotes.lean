import Verif.Props.JsonThm
import Verif.Props.HopEx

/-!
# Notes several fields share: parameters and media type names (C115, C116)
-/

namespace HL.Props
open HL.F Syntax

/-! ### what a section reports on fields of several classes -/

/-- the lines of these field classes that count, with their offsets -/
def linesAmong (kind : MsgKind) (fs : List FieldId) (ls : List Line) : List (Nat × Line) :=
  (numbered kind 0 ls).filter fun p => accepted kind p.2 && fs.contains (classOf (decodeName p.2.1))

/-- the field names of these classes, of those allowed in this kind of message -/
def allowedAmong (kind : MsgKind) (fs : List FieldId) (ls : List Line) : List Str :=
  (namesAmong fs ls).filter fun n => (classOf n).validIn kind

/-- classes of note that `parse` of the classes `lists` and `singles`, and `evaluate` of the classes `evals` add, and no others -/
structure Shared (Xs : List NoteId) (lists singles evals : List FieldId) : Prop where
  origin : ∀ X ∈ Xs, X.origin = .field
  parse : ∀ g, g ∉ lists → g ∉ singles → ∀ X ∈ Xs, (parseOwn g).contains X = false
  evaluate : ∀ g, g ∉ evals → ∀ X ∈ Xs, (evalOwn g).contains X = false
  list : ∀ g ∈ lists, g.info.kind = .list
  single : ∀ g ∈ singles, g.info.kind = .singleton
  known : FieldId.unknownField ∉ lists ∧ FieldId.unknownField ∉ singles ∧ FieldId.unknownField ∉ evals

/-- closes the above -/
macro "shared_by" : tactic => `(tactic| exact ⟨by decide, fun g => by cases g <;> decide, fun g => by cases g <;> decide, by decide, by decide, by decide⟩)

section
variable {env : Env} {related : Option Msg} {t : Bool} {ls : List Line} {m m' : Msg}

theorem Processed.shared_reports (P : Processed env related t ls m m') {Xs : List NoteId} {lists singles evals : List FieldId} (hX : Shared Xs lists singles evals)
    (specP : FieldId → Str → List Report) (specE : Str → List Report)
    (hcP : ∀ f v, ∀ r ∈ specP f v, r.Clean) (hcE : ∀ n ∈ namesOf ls, ∀ r ∈ specE n, r.Clean)
    (hP : ∀ (add : AddNote) (hd : Handler) v, hd.fid ∈ lists ∨ hd.fid ∈ singles →
      amongClass Xs (hd.parse ⟨env, m, related⟩ add v).2.notes = (specP hd.fid v).map (Report.note add))
    (hE : ∀ (c : Ctx) (add : AddNote) (hd : Handler), ∀ n ∈ namesOf ls, classOf n ∈ evals → During env related t m c →
      hd.fid = classOf n → hd.value = valueOf env related m (classOf n) ls n → valueOf env related m (classOf n) ls n ≠ .none →
      (hd.evaluate c add).2.res = .ok () →
      amongClass Xs (hd.evaluate c add).2.notes = (specE n).map (Report.note add)) :
    Reported Xs m m' (((linesAmong m.kind lists ls).flatMap fun p => (lineElements p.2.2).flatMap fun e =>
        (specP (classOf (decodeName p.2.1)) e).map (offsetSubject p.1, ·)) ++
      (allowedAmong m.kind (singles ++ evals) ls).flatMap fun n =>
        ((if classOf n ∈ singles then specP (classOf n) (textOf ls n) else []) ++
          (if classOf n ∈ evals ∧ valueOf env related m (classOf n) ls n ≠ .none then specE n else [])).map (fieldSubject n, ·)) := by
  have := P.reports_full_ok hX.origin (fun p => if p.cls ∈ lists ∨ p.cls ∈ singles then specP p.cls p.text else []) (fun n => if classOf n ∈ evals then specE n else [])
    (fun p r hr => by
      split at hr
      · exact hcP _ _ r hr
      · exact absurd hr (by simp))
    (fun n hn r hr => by
      split at hr
      · exact hcE n hn r hr
      · exact absurd hr (by simp))
    (fun p add hd hf => by
      split
      · rename_i h
        have := hP add hd p.text (by rw [hf]; exact h)
        rwa [hf] at this
      · rename_i h
        exact parse_among (hX.parse _ (by rw [hf]; exact fun h' => h (.inl h')) (by rw [hf]; exact fun h' => h (.inr h'))))
    (by
      intro c add hd n hn hok hne h1 h2 h3 h4 h5 h6
      by_cases hc : classOf n ∈ evals
      · rw [if_pos hc]
        exact hE c add hd n hn hc h1 h4 h5 hne h6
      · rw [if_neg hc]
        exact evaluate_among (setup_aux hn h3) (hX.evaluate _ (by rw [h4]; exact hc)))
  refine (congrArg (Reported Xs m m') ?_).mp this
  apply append_both
  · unfold sectionPieces linesAmong
    rw [List.flatMap_assoc, flatMap_filter_if]
    apply flatMap_congr_mem
    intro p _
    unfold linePieces
    by_cases ha : accepted m.kind p.2 = true
    · rw [if_pos ha, ha, Bool.true_and]
      unfold elementPieces
      by_cases hl : classOf (decodeName p.2.1) ∈ lists
      · rw [if_pos (c := lists.contains _ = true) (by simpa using hl), hX.list _ hl]
        dsimp only
        unfold lineElements
        rw [List.flatMap_map, List.flatMap_map]
        apply flatMap_congr_mem
        intro v _
        dsimp only
        rw [if_pos (Or.inl hl)]
      · rw [if_neg (c := lists.contains _ = true) (by simpa using hl), List.flatMap_eq_nil_iff]
        intro q hq
        split at hq
        · rename_i hk
          obtain ⟨x, _, rfl⟩ := List.mem_map.1 hq
          dsimp only
          rw [if_neg]
          · rfl
          · rintro (h | h)
            · exact hl h
            · have := hX.single _ h
              rw [hk] at this
              exact nomatch this
        · exact absurd hq (by simp)
    · rw [if_neg ha, Bool.eq_false_iff.2 ha]
      rfl
  · unfold allowedAmong namesAmong
    rw [flatMap_filter_if, flatMap_filter_if]
    apply flatMap_congr_mem
    intro n hn
    by_cases hc : classOf n ∈ singles ++ evals
    · rw [if_pos (c := (singles ++ evals).contains _ = true) (by simpa using hc)]
      have hne : classOf n ≠ .unknownField := by
        intro e
        rw [e] at hc
        rcases List.mem_append.1 hc with h | h
        · exact hX.known.2.1 h
        · exact hX.known.2.2 h
      rw [okName_class rfl hne]
      cases hv : (classOf n).validIn m.kind with
      | false => rfl
      | true =>
        rw [if_pos rfl, if_pos rfl, List.map_append]
        apply append_both
        · by_cases hs : classOf n ∈ singles
          · rw [if_pos hs]
            unfold finishPieces
            rw [hX.single _ hs]
            dsimp only
            have ht : textOf ls n = strip (((sent m.kind n ls).map (·.2)).headD []) := by rw [sent_snd]; rfl
            cases hx : sent m.kind n ls with
            | nil => exact absurd hx (sent_ne_nil hn)
            | cons p ps =>
              rw [ht, hx, List.flatMap_cons, List.flatMap_nil, List.append_nil]
              dsimp only
              rw [if_pos (Or.inr hs)]
              rfl
          · rw [if_neg hs, List.map_nil, List.flatMap_eq_nil_iff]
            intro q hq
            have hq : q.cls ∉ lists ∧ q.cls ∉ singles := by
              unfold finishPieces at hq
              split at hq
              · rename_i hk
                have hl : classOf n ∉ lists := fun h => by have := hX.list _ h; rw [hk] at this; exact nomatch this
                split at hq
                · rw [List.mem_singleton] at hq; rw [hq]; exact ⟨hl, hs⟩
                · exact absurd hq (by simp)
              · rename_i hk
                have hl : classOf n ∉ lists := fun h => by have := hX.list _ h; rw [hk] at this; exact nomatch this
                obtain ⟨x, _, rfl⟩ := List.mem_map.1 hq; exact ⟨hl, hs⟩
              · exact absurd hq (by simp)
            rw [if_neg]
            · rfl
            · rintro (h | h)
              · exact hq.1 h
              · exact hq.2 h
        · by_cases h0 : valueOf env related m (classOf n) ls n = .none
          · rw [if_pos h0, if_neg (c := classOf n ∈ evals ∧ valueOf env related m (classOf n) ls n ≠ .none) (fun h => h.2 h0)]; rfl
          · rw [if_neg h0]
            by_cases he : classOf n ∈ evals
            · rw [if_pos he, if_pos ⟨he, h0⟩]
            · rw [if_neg he, if_neg fun h => he h.1]
    · rw [if_neg (c := (singles ++ evals).contains _ = true) (by simpa using hc)]
      have hs : classOf n ∉ singles := fun h => hc (List.mem_append.2 (.inl h))
      have he : classOf n ∉ evals := fun h => hc (List.mem_append.2 (.inr h))
      rw [if_neg he]
      split
      · have : ((finishPieces (classOf n) (fieldSubject n) (sent m.kind n ls)).flatMap fun p => (if p.cls ∈ lists ∨ p.cls ∈ singles then specP p.cls p.text else []).map (p.subject, ·)) = [] := by
          rw [List.flatMap_eq_nil_iff]
          intro q hq
          have hq : q.cls ∉ lists ∧ q.cls ∉ singles := by
            unfold finishPieces at hq
            split at hq
            · rename_i hk
              have hl : classOf n ∉ lists := fun h => by have := hX.list _ h; rw [hk] at this; exact nomatch this
              split at hq
              · rw [List.mem_singleton] at hq; rw [hq]; exact ⟨hl, hs⟩
              · exact absurd hq (by simp)
            · rename_i hk
              have hl : classOf n ∉ lists := fun h => by have := hX.list _ h; rw [hk] at this; exact nomatch this
              obtain ⟨x, _, rfl⟩ := List.mem_map.1 hq; exact ⟨hl, hs⟩
            · exact absurd hq (by simp)
          rw [if_neg]
          · rfl
          · rintro (h | h)
            · exact hq.1 h
            · exact hq.2 h
        rw [this]
        simp
      · rfl

end

/-! ### C115: parameters -/

/-- what is wrong with the extended value `v` (`charset'language'value`) of the parameter `name*` -/
def extendedReports (name v : Str) : List Report :=
  match splitOn 39 v with
  | [enc, _, _] =>
    if enc = [] then [{ cls := .PARAM_STAR_NOCHARSET, vars := [(str "param", .str name)] }]
    else sayIf (lower enc != str "utf-8") { cls := .PARAM_STAR_CHARSET, vars := [(str "param", .str name), (str "enc", .str (lower enc))] }
  | _ => [{ cls := .PARAM_STAR_ERROR, vars := [(str "param", .str name)] }]

/-- what is reported on a parameter `p.1=p.2`, after others -/
def pieceReports (env : Env) (ns : NoStar) (before : List (Str × Str)) (p : Str × Str) : List Report :=
  let name := lower p.1
  sayIf (((valued env ns before).map (·.1)).contains name) { cls := .PARAM_REPEATS, vars := [(str "param", .str name)] } ++
  (sayIf (p.2.head? == some 39 && p.2.getLast? == some 39)
    { cls := .PARAM_SINGLE_QUOTED, vars := [(str "param", .str name), (str "param_val", .str p.2), (str "param_val_unquoted", .str ((p.2.drop 1).dropLast))] } ++
  (if p.1.getLast? ≠ some 42 then []
  else if starForbidden ns name then [{ cls := .PARAM_STAR_BAD, vars := [(str "param", .str name.dropLast)] }]
  else sayIf (p.2.head? == some 34 && p.2.getLast? == some 34) { cls := .PARAM_STAR_QUOTED, vars := [(str "param", .str name)] } ++
    extendedReports name (unwrapped p.2)))

/-- what is reported on the parameters of a text, in order -/
def paramReports (env : Env) (ns : NoStar) (s : Str) : List Report :=
  (piecesOf s).zipIdx.flatMap fun p => pieceReports env ns ((piecesOf s).take p.2) p.1

theorem extendedReports_clean {name v r} (h : r ∈ extendedReports name v) : r.Clean ∧ paramClasses.contains r.cls = true := by
  unfold extendedReports at h
  split at h
  · split at h
    · rw [List.mem_singleton] at h; subst h; exact ⟨⟨by simp, by simp⟩, rfl⟩
    · obtain ⟨_, rfl⟩ := mem_sayIf.1 h
      exact ⟨⟨by show ([str "param", str "enc"] : List Str).Nodup; decide, by simp⟩, rfl⟩
  · rw [List.mem_singleton] at h; subst h; exact ⟨⟨by simp, by simp⟩, rfl⟩

theorem pieceReports_clean {env ns b p r} (h : r ∈ pieceReports env ns b p) : r.Clean ∧ paramClasses.contains r.cls = true := by
  unfold pieceReports at h
  dsimp only at h
  rcases List.mem_append.1 h with h | h
  · obtain ⟨_, rfl⟩ := mem_sayIf.1 h; exact ⟨⟨by simp, by simp⟩, rfl⟩
  · rcases List.mem_append.1 h with h | h
    · obtain ⟨_, rfl⟩ := mem_sayIf.1 h
      exact ⟨⟨by show ([str "param", str "param_val", str "param_val_unquoted"] : List Str).Nodup; decide, by simp⟩, rfl⟩
    · split at h
      · exact absurd h (by simp)
      · split at h
        · rw [List.mem_singleton] at h; subst h; exact ⟨⟨by simp, by simp⟩, rfl⟩
        · rcases List.mem_append.1 h with h | h
          · obtain ⟨_, rfl⟩ := mem_sayIf.1 h; exact ⟨⟨by simp, by simp⟩, rfl⟩
          · exact extendedReports_clean h

theorem paramReports_clean {env ns s r} (h : r ∈ paramReports env ns s) : r.Clean ∧ paramClasses.contains r.cls = true := by
  obtain ⟨p, _, h⟩ := List.mem_flatMap.1 h
  exact pieceReports_clean h

theorem param_told (env : Env) (add : AddNote) (ns : NoStar) (pre : List (Str × Str)) (d : Dict Val) {k v : Str} (hk : IsTok k) (hv : IsTok v ∨ IsQuoted v)
    (hd : d = (valued env ns pre).foldl (fun d p => dset d p.1 (.str p.2)) []) :
    Told add (parseParam env add ns d (k ++ [61] ++ v)) (pieceReports env ns pre (k, v)) (record d (lower k) (paramOutcome env ns k v).2) := by
  have hres := (param_step env add ns d hk hv).res
  refine ⟨?_, hres⟩
  suffices h : ∃ a, Told add (parseParam env add ns d (k ++ [61] ++ v)) (pieceReports env ns pre (k, v)) a by
    obtain ⟨_, h⟩ := h; exact h.notes
  have hrep : ((valued env ns pre).map (·.1)).contains (lower k) = dhas d (lower k) := by
    rw [Bool.eq_iff_iff, List.contains_iff_mem, hd]
    exact (dhas_fold _ _).symm
  unfold parseParam pieceReports
  dsimp only
  rw [split1_tok hk, hrep]
  dsimp only
  obtain ⟨c, r, rfl⟩ : ∃ c r, v = c :: r := by
    cases v with
    | nil => exact absurd rfl (value_ne_nil hv)
    | cons c r => exact ⟨c, r, rfl⟩
  obtain ⟨p, l, hkl, _⟩ := (tok_ends hk).2
  have hlast : k.getLast? = some l := by rw [hkl]; simp
  rw [hlast]
  dsimp only
  have hq : ∀ x, (decide (c = x) && decide ((c :: r).getLast? = some x)) = ((c :: r).head? == some x && (c :: r).getLast? == some x) := by
    intro x
    rw [Bool.eq_iff_iff]
    simp
  suffices h : ∃ a, Told add _ _ a by
    obtain ⟨a, h⟩ := h
    exact ⟨a, Told.bind (a := ()) .when (Told.bind (a := ()) (Told.of .when (by rw [hq])) h)⟩
  by_cases hl : l = 42
  · rw [if_pos hl, if_neg (c := some l ≠ some 42) (by simp [hl])]
    show ∃ a, Told add (if starForbidden ns (lower k) = true then _ else _) _ a
    cases hb : starForbidden ns (lower k) with
    | true =>
      rw [if_pos rfl, if_pos rfl]
      exact ⟨_, Told.of (Told.bind .add .pure) (List.append_nil _)⟩
    | false =>
      rw [if_neg (c := false = true) (by decide), if_neg (c := false = true) (by decide)]
      suffices h : ∃ a, Told add _ _ a by
        obtain ⟨a, h⟩ := h
        exact ⟨a, Told.bind (a := ()) (Told.of .when (by rw [hq])) h⟩
      have hq2 : (decide (c = 34) && decide ((c :: r).getLast? = some 34)) = true ↔ (c :: r).head? = some 34 ∧ (c :: r).getLast? = some 34 := by simp
      have hu : (if (decide (c = 34) && decide ((c :: r).getLast? = some 34)) = true then ((c :: r).drop 1).dropLast else (c :: r)) = unwrapped (c :: r) := if_congr' hq2
      rw [hu]
      unfold extendedReports split3
      generalize splitOn 39 (unwrapped (c :: r)) = xs
      have one : ∀ {X vrs}, ∃ a, Told add (do add.add X vrs; return d) [⟨X, vrs, []⟩] a := fun {X vrs} => ⟨_, Told.of (Told.bind .add .pure) (List.append_nil _)⟩
      match xs with
      | [] => exact one
      | [_] => exact one
      | [_, _] => exact one
      | _ :: _ :: _ :: _ :: _ => exact one
      | [enc, _, x] =>
        dsimp only
        by_cases he : enc = []
        · rw [if_pos (show lower enc = [] by rw [he]; rfl), if_pos he]
          exact one
        · rw [if_neg (show ¬ lower enc = [] from fun h => he (lower_ne_nil.1 h)), if_neg he]
          by_cases hu : lower enc = str "utf-8"
          · rw [if_neg (by simp [hu]), hu]
            exact ⟨_, .pure⟩
          · rw [if_pos hu]
            have : (lower enc != str "utf-8") = true := by simpa using hu
            rw [this]
            exact one
  · rw [if_neg hl, if_pos (c := some l ≠ some 42) (by simp [hl])]
    exact ⟨_, .pure⟩

theorem loop_told (env : Env) (add : AddNote) (ns : NoStar) : ∀ (ps pre : List (Str × Str)) (d : Dict Val),
    (∀ p ∈ ps, IsTok p.1 ∧ (IsTok p.2 ∨ IsQuoted p.2)) → d = (valued env ns pre).foldl (fun d p => dset d p.1 (.str p.2)) [] →
    Told add (parseParamsLoop env add ns d (ps.map fun p => p.1 ++ [61] ++ p.2))
      (ps.zipIdx.flatMap fun p => pieceReports env ns (pre ++ ps.take p.2) p.1)
      ((valued env ns (pre ++ ps)).foldl (fun d p => dset d p.1 (.str p.2)) []) := by
  intro ps
  induction ps with
  | nil => intro pre d _ hd; rw [List.append_nil, ← hd]; exact .pure
  | cons p ps ih =>
    intro pre d hp hd
    rw [List.map_cons, parseParamsLoop, zipIdx_flatMap_cons (pieceReports env ns) pre p ps]
    refine Told.bind (param_told env add ns pre d (hp p (by simp)).1 (hp p (by simp)).2 hd) ?_
    have := ih (pre ++ [p]) _ (fun q hq => hp q (by simp [hq])) (valued_snoc env ns pre p.1 p.2 d hd)
    rw [List.append_assoc] at this
    exact this

/-- all that `parse_params` reports, and the dictionary it returns -/
theorem params_told (env : Env) (add : AddNote) (s : Str) (ns : NoStar) :
    Told add (parseParams env add s ns) (paramReports env ns s) ((paramsOf env ns s).foldl (fun d p => dset d p.1 (Val.str p.2)) []) := by
  obtain ⟨e, hps⟩ := pieces_split _ (pieces_are s (delimRE 59))
  have hl := loop_told env add ns _ [] [] hps rfl
  rw [← e, List.nil_append] at hl
  exact hl

/-- which parameters of a field may not be given in the extended form: the parser's table -/
def starRule : FieldId → NoStar
  | .accept_ | .accept_language_ | .accept_encoding_ | .te_ => .names [str "q"]
  | .server_timing_ => .names [str "desc"]
  | .link_ => .names [str "rel", str "rev", str "anchor", str "hreflang", str "type", str "media"]
  | .content_type_ => .names [str "charset"]
  | .transfer_encoding_ => .all
  | _ => .none

/-- the list-based fields with parameters -/
def paramLists : List FieldId := [.accept_, .accept_encoding_, .accept_language_, .accept_patch_, .accept_post_, .link_, .server_timing_, .te_, .transfer_encoding_]
/-- the others -/
def paramSingles : List FieldId := [.content_disposition_, .content_type_]

/-- then code that adds no notes of these classes -/
theorem among_first {α β} {Xs : List NoteId} {add : AddNote} {x : W α} {f : α → W β} {a} {l : List Report} (h : x.res = .ok a)
    (hx : amongClass Xs x.notes = l.map (Report.note add)) (hs : amongClass Xs (f a).notes = []) : amongClass Xs (x >>= f).notes = l.map (Report.note add) := by
  rw [W.bind_ok h]
  show amongClass Xs (x.notes ++ (f a).notes) = _
  rw [amongClass_append, hx, hs, List.append_nil]

/-- code that adds none, first -/
theorem among_after {α β} {Xs : List NoteId} {add : AddNote} {x : W α} {f : α → W β} {a} {l : List Report} (h : x.res = .ok a) (hs : amongClass Xs x.notes = [])
    (hf : amongClass Xs (f a).notes = l.map (Report.note add)) : amongClass Xs (x >>= f).notes = l.map (Report.note add) := by
  rw [W.bind_ok h]
  show amongClass Xs (x.notes ++ (f a).notes) = _
  rw [amongClass_append, hs, hf, List.nil_append]

theorem among_emits {α} {Xs L : List NoteId} {s} {w : W α} (h : Emits (Of s L) w) (hX : ∀ X ∈ Xs, L.contains X = false) : amongClass Xs w.notes = [] := by
  unfold amongClass
  rw [List.filter_eq_nil_iff]
  intro x hx hc
  have := (h x hx).cls
  rw [hX x.cls (by simpa using hc)] at this
  exact nomatch this

/-! ### C116: media type names -/

/-- `n` is one of the two names of the media type `v`, and not `*` -/
def MediaName (v n : Str) : Prop := ∃ t s, IsMediaType v t s ∧ (n = t ∨ n = s) ∧ n ≠ str "*"

open Classical in
/-- what is reported on the names of a media type (or range): those that are tokens should be at most 127 characters, and of the
form RFC 6838 gives. Nothing is said of the names of something that isn't a media range. -/
noncomputable def nameReports (wild tok : Bool) (v : Str) : List Report :=
  sayIf (decide (IsRange wild tok v ∧ ∃ n, MediaName v n ∧ tokenName n = true ∧ n.length > 127)) { cls := .MEDIA_TYPE_LONG_NAME, vars := [(str "value", .str v)] } ++
  sayIf (decide (IsRange wild tok v ∧ ∃ n, MediaName v n ∧ tokenName n = true ∧ restrictedName n = false)) { cls := .MEDIA_TYPE_BAD_NAME, vars := [(str "value", .str v)] }

/-- their classes of note -/
def nameClasses : List NoteId := [.MEDIA_TYPE_LONG_NAME, .MEDIA_TYPE_BAD_NAME]

theorem nameReports_clean {wild tok v r} (h : r ∈ nameReports wild tok v) : r.Clean ∧ nameClasses.contains r.cls = true := by
  unfold nameReports at h
  rcases List.mem_append.1 h with h | h <;> obtain ⟨_, rfl⟩ := mem_sayIf.1 h
  · exact ⟨⟨by simp, by simp⟩, rfl⟩
  · exact ⟨⟨by simp, by simp⟩, rfl⟩

/-- the note about bad syntax, if there is to be one -/
def sayBad (add : AddNote) (bad : Option NoteId) (vrs : Dict Val) : W Unit := match bad with | none => pure () | some b => add.add b vrs

theorem media_shape (add : AddNote) (v : Str) (bad : Option NoteId) (ref : Option Str) (wild tok : Bool) :
    (∃ vrs, checkMediaType add v bad ref wild tok = sayBad add bad vrs) ∨
    ∃ x y : Bool, checkMediaType add v bad ref wild tok =
      (do W.when x (add.add .MEDIA_TYPE_LONG_NAME [(str "value", .str v)]); W.when y (add.add .MEDIA_TYPE_BAD_NAME [(str "value", .str v)])) := by
  unfold checkMediaType
  dsimp only
  split
  · exact .inl ⟨_, by unfold sayBad; cases bad <;> rfl⟩
  · split
    · exact .inl ⟨_, by unfold sayBad; cases bad <;> rfl⟩
    · generalize (if [(partition 47 v).1, (partition 47 v).2.2].contains (str "*") = true then _ else _) = names
      split
      · exact .inl ⟨_, by unfold sayBad; cases bad <;> rfl⟩
      · exact .inr ⟨_, _, rfl⟩

theorem does_classes {w : W Unit} {s cs} (h : Does w s cs ()) : w.notes.map (·.cls) = cs := by
  have := congrArg (List.map Prod.fst) h.notes
  rw [List.map_map, List.map_map] at this
  exact this.trans (List.map_id' cs)

theorem mediaType_unique {v t s t' s'} (h : IsMediaType v t s) (h' : IsMediaType v t' s') : t' = t ∧ s' = s := by
  have := (partition_found h'.2.2.2.1 h'.1).symm.trans (partition_found h.2.2.2.1 h.1)
  simp at this
  exact this

/-- which of the two is noted, by C51 -/
theorem media_says (add : AddNote) (v : Str) (bad : Option NoteId) (ref : Option Str) (wild tok : Bool) (hb : ∀ b, bad = some b → b ∉ nameClasses) :
    (.MEDIA_TYPE_LONG_NAME ∈ (checkMediaType add v bad ref wild tok).notes.map (·.cls) ↔ IsRange wild tok v ∧ ∃ n, MediaName v n ∧ tokenName n = true ∧ n.length > 127) ∧
    (.MEDIA_TYPE_BAD_NAME ∈ (checkMediaType add v bad ref wild tok).notes.map (·.cls) ↔ IsRange wild tok v ∧ ∃ n, MediaName v n ∧ tokenName n = true ∧ restrictedName n = false) := by
  have hbad : ∀ X ∈ nameClasses, X ∉ badNotes bad := by
    intro X hX h
    unfold badNotes at h
    exact hb X (Option.mem_toList.1 h) hX
  have hl := hbad .MEDIA_TYPE_LONG_NAME (by decide)
  have hn := hbad .MEDIA_TYPE_BAD_NAME (by decide)
  by_cases h : ∃ t s, IsMediaType v t s
  · obtain ⟨t, s, h⟩ := h
    rw [does_classes (C51_media_type add v t s bad ref wild tok h)]
    have hname : ∀ q : Str → Bool, (∃ n, MediaName v n ∧ tokenName n = true ∧ q n = true) ↔ ([t, s].filter (· != str "*")).any (fun n => tokenName n && q n) = true := by
      intro q
      rw [List.any_eq_true]
      constructor
      · rintro ⟨n, ⟨t', s', h1, h2, h3⟩, h4, h5⟩
        obtain ⟨rfl, rfl⟩ := mediaType_unique h h1
        exact ⟨n, List.mem_filter.2 ⟨by simpa using h2, by simpa using h3⟩, by rw [h4, h5]; rfl⟩
      · rintro ⟨n, h1, h2⟩
        obtain ⟨h1, h3⟩ := List.mem_filter.1 h1
        rw [Bool.and_eq_true] at h2
        exact ⟨n, ⟨t, s, h, by simpa using h1, by simpa using h3⟩, h2⟩
    have hrange : IsRange wild tok v ↔ ¬ ((t = str "*" ∨ s = str "*") ∧ ¬ (wild = true ∧ s = str "*")) ∧ ¬ (tok = true ∧ ([t, s].filter (· != str "*")).any (fun n => !tokenName n) = true) := by
      unfold IsRange
      constructor
      · rintro ⟨t', s', h1, h2, h3⟩
        obtain ⟨rfl, rfl⟩ := mediaType_unique h h1
        refine ⟨fun hx => hx.2 (h2 hx.1), ?_⟩
        rintro ⟨hx, hy⟩
        obtain ⟨n, hn, hz⟩ := List.any_eq_true.1 hy
        obtain ⟨hn, hs⟩ := List.mem_filter.1 hn
        rw [h3 hx n hn (by simpa using hs)] at hz
        exact nomatch hz
      · rintro ⟨h1, h2⟩
        refine ⟨t, s, h, fun hx => Classical.byContradiction fun hy => h1 ⟨hx, hy⟩, ?_⟩
        intro hx n hn hs
        refine Classical.byContradiction fun hy => h2 ⟨hx, List.any_eq_true.2 ⟨n, List.mem_filter.2 ⟨hn, by simpa using hs⟩, by simpa using hy⟩⟩
    have h127 : ∀ n : Str, n.length > 127 ↔ decide (n.length > 127) = true := fun n => by simp
    have hr : ∀ n : Str, restrictedName n = false ↔ (!restrictedName n) = true := fun n => by simp
    conv => lhs; rhs; rhs; rhs; ext n; rw [h127]
    conv => rhs; rhs; rhs; rhs; ext n; rw [hr]
    rw [hname fun n => decide (n.length > 127), hname fun n => !restrictedName n, hrange]
    unfold mediaTypeNotes
    dsimp only
    by_cases h1 : (t = str "*" ∨ s = str "*") ∧ ¬ (wild = true ∧ s = str "*")
    · rw [if_pos h1]
      exact ⟨⟨fun h => absurd h hl, fun h => absurd h1 h.1.1⟩, ⟨fun h => absurd h hn, fun h => absurd h1 h.1.1⟩⟩
    · rw [if_neg h1]
      by_cases h2 : tok = true ∧ ([t, s].filter (· != str "*")).any (fun n => !tokenName n) = true
      · rw [if_pos h2]
        exact ⟨⟨fun h => absurd h hl, fun h => absurd h2 h.1.2⟩, ⟨fun h => absurd h hn, fun h => absurd h2 h.1.2⟩⟩
      · rw [if_neg h2]
        generalize ([t, s].filter (· != str "*")).any (fun n => tokenName n && decide (n.length > 127)) = a
        generalize ([t, s].filter (· != str "*")).any (fun n => tokenName n && !restrictedName n) = b
        cases a <;> cases b <;> simp only [h1, h2, not_false_eq_true, and_self, true_and] <;> decide
  · rw [does_classes (C51_bad_syntax add v bad ref wild tok h)]
    have hr : ¬ IsRange wild tok v := fun ⟨t, s, h1, _⟩ => h ⟨t, s, h1⟩
    exact ⟨⟨fun h => absurd h hl, fun h => absurd h.1 hr⟩, ⟨fun h => absurd h hn, fun h => absurd h.1 hr⟩⟩

open Classical in
/-- what `check_media_type` says of names -/
theorem names_heard (add : AddNote) (v : Str) (bad : Option NoteId) (ref : Option Str) (wild tok : Bool) (hb : ∀ b, bad = some b → b ∉ nameClasses) :
    Heard nameClasses add (checkMediaType add v bad ref wild tok) (nameReports wild tok v) () := by
  obtain ⟨h1, h2⟩ := media_says add v bad ref wild tok hb
  unfold nameReports
  rcases media_shape add v bad ref wild tok with ⟨vrs, e⟩ | ⟨x, y, e⟩
  · rw [e] at h1 h2 ⊢
    have hno : ∀ X ∈ nameClasses, X ∉ (sayBad add bad vrs).notes.map (·.cls) := by
      intro X hX
      cases bad with
      | none => exact fun h => nomatch h
      | some b =>
        intro h
        have : X = b := List.mem_singleton.1 h
        exact hb b rfl (this ▸ hX)
    rw [decide_eq_false (fun h => hno _ (by decide) (h1.2 h)), decide_eq_false (fun h => hno _ (by decide) (h2.2 h))]
    refine Heard.silent ?_ ?_
    · intro n hn
      rw [Bool.eq_false_iff]
      intro hc
      exact hno n.cls (by simpa using hc) (List.mem_map_of_mem (f := Note.cls) hn)
    · cases bad <;> rfl
  · rw [e] at h1 h2 ⊢
    have hc : ((do W.when x (add.add .MEDIA_TYPE_LONG_NAME [(str "value", .str v)]); W.when y (add.add .MEDIA_TYPE_BAD_NAME [(str "value", .str v)])) : W Unit).notes.map (·.cls) =
        (if x then [NoteId.MEDIA_TYPE_LONG_NAME] else []) ++ (if y then [NoteId.MEDIA_TYPE_BAD_NAME] else []) := by cases x <;> cases y <;> rfl
    rw [hc] at h1 h2
    have hx : (decide (IsRange wild tok v ∧ ∃ n, MediaName v n ∧ tokenName n = true ∧ n.length > 127)) = x := by
      rw [Bool.eq_iff_iff, decide_eq_true_iff, ← h1]
      cases x <;> cases y <;> decide
    have hy : (decide (IsRange wild tok v ∧ ∃ n, MediaName v n ∧ tokenName n = true ∧ restrictedName n = false)) = y := by
      rw [Bool.eq_iff_iff, decide_eq_true_iff, ← h2]
      cases x <;> cases y <;> decide
    rw [hx, hy]
    exact Heard.bind (Heard.when rfl) (Heard.when rfl)

theorem media_res (add : AddNote) (v : Str) (bad : Option NoteId) (ref : Option Str) (wild tok : Bool) : (checkMediaType add v bad ref wild tok).res = .ok () := by
  rcases media_shape add v bad ref wild tok with ⟨vrs, e⟩ | ⟨x, y, e⟩
  · rw [e]; cases bad <;> rfl
  · rw [e]; cases x <;> cases y <;> rfl

/-! ### the parsers -/

/-- what `parse_media_type` reports on parameters, and what it returns -/
theorem parseMedia_params (env : Env) (add : AddNote) (v : Str) (b : Option NoteId) (r : Option Str) (wild : Bool) (ns : NoStar) (hb : ∀ x, b = some x → x ∉ paramClasses) :
    Heard paramClasses add (parseMediaType env add v b r wild ns) (paramReports env ns (afterC 59 v))
      (lower (strip (beforeC 59 v)), (paramsOf env ns (afterC 59 v)).foldl (fun d p => dset d p.1 (Val.str p.2)) []) := by
  rw [parseMedia_eq]
  have h1 : Heard paramClasses add (checkMediaType add (lower (strip (beforeC 59 v))) b r wild) [] () := by
    refine Heard.silent ?_ (media_res ..)
    intro n hn
    rcases media_shape add (lower (strip (beforeC 59 v))) b r wild false with ⟨vrs, e⟩ | ⟨x, y, e⟩ <;> rw [e] at hn
    · cases b with
      | none => exact nomatch hn
      | some b =>
        have : n.cls = b := by rw [List.mem_singleton.1 hn]; rfl
        rw [this, Bool.eq_false_iff]
        intro hc
        exact hb b rfl (by simpa using hc)
    · have : n.cls = .MEDIA_TYPE_LONG_NAME ∨ n.cls = .MEDIA_TYPE_BAD_NAME := by
        cases x <;> cases y
        · exact nomatch hn
        · rw [List.mem_singleton.1 hn]; exact .inr rfl
        · rw [List.mem_singleton.1 hn]; exact .inl rfl
        · rcases List.mem_cons.1 hn with rfl | hn
          · exact .inl rfl
          · rw [List.mem_singleton.1 hn]; exact .inr rfl
      rcases this with e | e <;> rw [e] <;> rfl
  exact Heard.of (Heard.bind h1 (Heard.bind ((params_told env add _ ns).heard fun r hr => (paramReports_clean hr).2) .pure)) (by rw [List.nil_append, List.append_nil])

/-- what `parse_media_type` reports on names, and what it returns -/
theorem parseMedia_names (env : Env) (add : AddNote) (v : Str) (b : Option NoteId) (r : Option Str) (wild : Bool) (ns : NoStar) (hb : ∀ x, b = some x → x ∉ nameClasses) :
    Heard nameClasses add (parseMediaType env add v b r wild ns) (nameReports wild false (lower (strip (beforeC 59 v))))
      (lower (strip (beforeC 59 v)), (paramsOf env ns (afterC 59 v)).foldl (fun d p => dset d p.1 (Val.str p.2)) []) := by
  rw [parseMedia_eq]
  have h2 : Heard nameClasses add (parseParams env add (afterC 59 v) ns) [] ((paramsOf env ns (afterC 59 v)).foldl (fun d p => dset d p.1 (Val.str p.2)) []) := by
    have h := params_told env add (afterC 59 v) ns
    refine Heard.silent ?_ h.res
    intro n hn
    rw [h.notes] at hn
    obtain ⟨r, hr, rfl⟩ := List.mem_map.1 hn
    have h1 := (paramReports_clean hr).2
    have e : (Report.note add r).cls = r.cls := by rw [Report.note, foldl_addChild]; rfl
    rw [e, Bool.eq_false_iff]
    intro hc
    have : ∀ X ∈ nameClasses, X ∉ paramClasses := by decide
    exact this r.cls (by simpa using hc) (by simpa using h1)
  exact Heard.of (Heard.bind (names_heard add _ b r wild false hb) (Heard.bind h2 .pure)) (by rw [List.append_nil, List.append_nil])

theorem Tells.notes_ok {α} {Xs add} {w : W α} {l p a} (h : Tells Xs add w l p) (ha : w.res = .ok a) : amongClass Xs w.notes = l.map (Report.note add) := (h a ha).1

theorem quiet_pure {α} {Xs : List NoteId} {a : α} : amongClass Xs (pure a : W α).notes = [] := rfl

theorem param_parse (c : Ctx) (add : AddNote) (hd : Handler) (v : Str) (hf : hd.fid ∈ paramLists ∨ hd.fid ∈ paramSingles) :
    amongClass paramClasses (hd.parse c add v).2.notes = (paramReports c.env (starRule hd.fid) (afterC 59 v)).map (Report.note add) := by
  have told : ∀ ns, (parseParams c.env add (afterC 59 v) ns).res = .ok ((paramsOf c.env ns (afterC 59 v)).foldl (fun d p => dset d p.1 (Val.str p.2)) []) ∧
      amongClass paramClasses (parseParams c.env add (afterC 59 v) ns).notes = (paramReports c.env ns (afterC 59 v)).map (Report.note add) := fun ns =>
    ⟨(params_told ..).res, (params_told ..).among fun r hr => (paramReports_clean hr).2⟩
  have none' : ∀ x, (none : Option NoteId) = some x → x ∉ paramClasses := fun x h => nomatch h
  have some' : ∀ {y}, y ∉ paramClasses → ∀ x, some y = some x → x ∉ paramClasses := fun h x e => by injection e with e; exact e ▸ h
  have hl : hd.fid ∈ paramLists ++ paramSingles := List.mem_append.2 hf
  unfold paramLists paramSingles at hl
  simp only [List.cons_append, List.nil_append, List.mem_cons, List.not_mem_nil, or_false] at hl
  unfold Handler.parse
  rcases hl with h | h | h | h | h | h | h | h | h | h | h <;> rw [h]
  · show amongClass paramClasses (accept.parse c.env add v).notes = _
    unfold accept.parse
    have hm := parseMedia_params c.env add v (some .ACCEPT_BAD_SYNTAX) (some FieldId.accept_.info.reference) true (.names [str "q"]) (some' (by decide))
    refine among_first hm.res hm.notes ?_
    refine among_emits (L := [.BAD_Q_VALUE_accept]) (s := some add.subject) ?_ (by decide)
    repeat' own_step
  · show amongClass paramClasses (codingParse c.env add v).notes = _
    unfold codingParse
    rw [splitSemi_eq]
    exact among_first (told _).1 (told _).2 rfl
  · show amongClass paramClasses (accept_language.parse c.env add v).notes = _
    unfold accept_language.parse
    rw [splitSemi_eq]
    refine among_first (told _).1 (told _).2 ?_
    refine among_emits (L := [.BAD_Q_VALUE_accept_language, .ACCEPT_LANGUAGE_BAD_SYNTAX]) (s := some add.subject) ?_ (by decide)
    repeat' own_step
  · have hm := parseMedia_params c.env add v (some .ACCEPT_PATCH_BAD_SYNTAX) (some FieldId.accept_patch_.info.reference) false .none (some' (by decide))
    exact among_first hm.res hm.notes rfl
  · have hm := parseMedia_params c.env add v (some .ACCEPT_POST_BAD_SYNTAX) (some FieldId.accept_post_.info.reference) true .none (some' (by decide))
    exact among_first hm.res hm.notes rfl
  · show amongClass paramClasses (link.parse c add v).notes = _
    unfold link.parse
    rw [splitSemi_eq]
    refine among_first (told _).1 (told _).2 ?_
    refine among_emits (L := [.LINK_REV, .LINK_BAD_ANCHOR, .LINK_BAD_TYPE]) (s := some add.subject) ?_ (by decide)
    repeat' own_step
  · show amongClass paramClasses (server_timing.parse c add v).notes = _
    unfold server_timing.parse
    rw [splitSemi_eq]
    exact among_first (told _).1 (told _).2 rfl
  · show amongClass paramClasses (codingParse c.env add v).notes = _
    unfold codingParse
    rw [splitSemi_eq]
    exact among_first (told _).1 (told _).2 rfl
  · show amongClass paramClasses (transfer_encoding.parse c.env add v).notes = _
    unfold transfer_encoding.parse
    rw [splitSemi_eq]
    refine among_first (told _).1 (told _).2 ?_
    refine among_emits (L := [.TRANSFER_CODING_PARAM]) (s := some add.subject) ?_ (by decide)
    repeat' own_step
  · show amongClass paramClasses (content_disposition.parse c.env add v).notes = _
    unfold content_disposition.parse
    rw [splitSemi_eq]
    refine among_first (told _).1 (told _).2 ?_
    refine among_emits (L := [.DISPOSITION_UNKNOWN, .DISPOSITION_OMITS_FILENAME, .DISPOSITION_FILENAME_PERCENT, .DISPOSITION_FILENAME_PATH_CHAR]) (s := some add.subject) ?_ (by decide)
    repeat' own_step
  · have hm := parseMedia_params c.env add v none none false (.names [str "charset"]) none'
    exact among_first hm.res hm.notes rfl

/-- the fields that take a media type, or a list of them: are wild-cards allowed? -/
def wildcards : FieldId → Bool
  | .accept_ | .accept_post_ => true
  | _ => false

theorem name_parse (c : Ctx) (add : AddNote) (hd : Handler) (v : Str) (hf : hd.fid ∈ [.accept_, .accept_patch_, .accept_post_] ∨ hd.fid ∈ [FieldId.content_type_]) :
    amongClass nameClasses (hd.parse c add v).2.notes = (nameReports (wildcards hd.fid) false (lower (strip (beforeC 59 v)))).map (Report.note add) := by
  have none' : ∀ x, (none : Option NoteId) = some x → x ∉ nameClasses := fun x h => nomatch h
  have some' : ∀ {y}, y ∉ nameClasses → ∀ x, some y = some x → x ∉ nameClasses := fun h x e => by injection e with e; exact e ▸ h
  have hl : hd.fid ∈ [FieldId.accept_, .accept_patch_, .accept_post_] ++ [FieldId.content_type_] := List.mem_append.2 hf
  simp only [List.cons_append, List.nil_append, List.mem_cons, List.not_mem_nil, or_false] at hl
  unfold Handler.parse
  rcases hl with h | h | h | h <;> rw [h]
  · show amongClass nameClasses (accept.parse c.env add v).notes = _
    unfold accept.parse
    have hm := parseMedia_names c.env add v (some .ACCEPT_BAD_SYNTAX) (some FieldId.accept_.info.reference) true (.names [str "q"]) (some' (by decide))
    refine among_first hm.res hm.notes ?_
    refine among_emits (L := [.BAD_Q_VALUE_accept]) (s := some add.subject) ?_ (by decide)
    repeat' own_step
  · have hm := parseMedia_names c.env add v (some .ACCEPT_PATCH_BAD_SYNTAX) (some FieldId.accept_patch_.info.reference) false .none (some' (by decide))
    exact among_first hm.res hm.notes rfl
  · have hm := parseMedia_names c.env add v (some .ACCEPT_POST_BAD_SYNTAX) (some FieldId.accept_post_.info.reference) true .none (some' (by decide))
    exact among_first hm.res hm.notes rfl
  · have hm := parseMedia_names c.env add v none none false (.names [str "charset"]) none'
    exact among_first hm.res hm.notes rfl

/-! ### the theorems -/

section
variable {env : Env} {related : Option Msg} {t : Bool} {ls : List Line} {m m' : Msg}

/-- **C115.** The notes about parameters in a header or trailer section are exactly these: those on each element of the lists that
take parameters, line by line, about that line; then those on the first line of `Content-Disposition` and `Content-Type`, about
the field. -/
theorem C115_params (P : Processed env related t ls m m') :
    Reported paramClasses m m' (((linesAmong m.kind paramLists ls).flatMap fun p => (lineElements p.2.2).flatMap fun e =>
        (paramReports env (starRule (classOf (decodeName p.2.1))) (afterC 59 e)).map (offsetSubject p.1, ·)) ++
      (namesAmong paramSingles ls).flatMap fun n =>
        (paramReports env (starRule (classOf n)) (afterC 59 (textOf ls n))).map (fieldSubject n, ·)) := by
  have hX : Shared paramClasses paramLists paramSingles [] := by shared_by
  have := P.shared_reports hX (fun f v => paramReports env (starRule f) (afterC 59 v)) (fun _ => []) (fun f v r hr => (paramReports_clean hr).1)
    (fun n _ r hr => absurd hr (by simp)) (fun add hd v hf => param_parse ⟨env, m, related⟩ add hd v hf) (fun c add hd n _ h => absurd h (by simp))
  refine (congrArg (Reported paramClasses m m') ?_).mp this
  apply append_both rfl
  have e : allowedAmong m.kind (paramSingles ++ []) ls = namesAmong paramSingles ls := by
    unfold allowedAmong
    rw [List.append_nil, List.filter_eq_self]
    intro n hn
    have := (mem_namesAmong.1 hn).2
    have hv : ∀ f ∈ paramSingles, ∀ k, f.validIn k = true := by intro f hf k; revert f; cases k <;> decide
    exact hv _ this _
  rw [e]
  apply flatMap_congr_mem
  intro n hn
  rw [if_pos (mem_namesAmong.1 hn).2]
  simp

/-- what is reported on the names of the members of an `Accept-Query` -/
noncomputable def queryNames (v : Val) : List Report :=
  match v with
  | .token s => nameReports true true (lower s)
  | .str s => nameReports true true (lower s)
  | _ => []

theorem queryNames_clean {v r} (h : r ∈ queryNames v) : r.Clean := by
  unfold queryNames at h
  split at h
  · exact (nameReports_clean h).1
  · exact (nameReports_clean h).1
  · exact absurd h (by simp)

theorem queryNames_tells {c : Ctx} {add : AddNote} {v p : Val} : Tells nameClasses add (accept_query.item c add (.tuple [v, p])) (queryNames v) (fun _ => True) := by
  have hb : ∀ b, some NoteId.ACCEPT_QUERY_BAD_SYNTAX = some b → b ∉ nameClasses := by intro b e; injection e with e; subst e; decide
  unfold accept_query.item
  refine Tells.silent fun q hq => ?_
  injection hq with hq
  subst hq
  dsimp only
  unfold queryNames
  split
  · exact (((names_heard add _ _ _ true true hb).tells).bind (l' := []) fun _ _ => Tells.pure trivial).of (List.append_nil _)
  · exact (((names_heard add _ _ _ true true hb).tells).bind (l' := []) fun _ _ => Tells.pure trivial).of (List.append_nil _)
  · rename_i h1 h2
    split
    · exact absurd rfl (h1 _)
    · exact absurd rfl (h2 _)
    · refine Tells.silent fun s hs => ?_
      have hq : Heard nameClasses add (add.add .ACCEPT_QUERY_BAD_TYPE [(str "value", .str s)]) [] () := Heard.silent (fun x hx => by rw [List.mem_singleton.1 hx]; rfl) rfl
      exact (hq.tells.bind (l' := []) fun _ _ => Tells.pure trivial).of (List.append_nil _)

/-- **C116.** The notes about the names of media types in a header or trailer section are exactly these: those on each element of
`Accept`, `Accept-Patch` and `Accept-Post`, line by line, about that line; then those on the first line of `Content-Type`, and on
each member of `Accept-Query`, about the field. -/
theorem C116_media_names (P : Processed env related t ls m m') (hi : ListShape env) :
    Reported nameClasses m m' (((linesAmong m.kind [.accept_, .accept_patch_, .accept_post_] ls).flatMap fun p => (lineElements p.2.2).flatMap fun e =>
        (nameReports (wildcards (classOf (decodeName p.2.1))) false (lower (strip (beforeC 59 e)))).map (offsetSubject p.1, ·)) ++
      (allowedAmong m.kind [.content_type_, .accept_query_] ls).flatMap fun n =>
        (if classOf n = .content_type_ then nameReports false false (lower (strip (beforeC 59 (textOf ls n))))
          else onParsed (listOf env ls n) fun l => l.flatMap fun e => queryNames e.1).map (fieldSubject n, ·)) := by
  have hX : Shared nameClasses [.accept_, .accept_patch_, .accept_post_] [.content_type_] [.accept_query_] := by shared_by
  have := P.shared_reports hX (fun f v => nameReports (wildcards f) false (lower (strip (beforeC 59 v)))) (fun n => onParsed (listOf env ls n) fun l => l.flatMap fun e => queryNames e.1)
    (fun f v r hr => (nameReports_clean hr).1)
    (fun n _ r hr => by
      unfold onParsed at hr
      split at hr
      · obtain ⟨e, _, hr⟩ := List.mem_flatMap.1 hr
        exact queryNames_clean hr
      · exact absurd hr (by simp)) (fun add hd v hf => name_parse ⟨env, m, related⟩ add hd v hf)
    (by
      intro c add hd n _ hc hdur hf hval hne hok
      rw [List.mem_singleton] at hc
      rw [hc] at hf hval hne
      have hv := list_value (related := related) (m := m) (ls := ls) (f := .accept_query_) rfl hi n
      cases hl : listOf env ls n with
      | none => rw [hl] at hv; exact absurd hv hne
      | some l =>
        rw [hl] at hv
        dsimp only at hv
        rw [hv] at hval
        refine Tells.notes_ok (p := fun _ => True) ?_ hok
        unfold Handler.evaluate
        rw [hf]
        refine assign_tells (w := accept_query.evaluate c add hd) (p := fun _ => True) ?_
        unfold accept_query.evaluate
        refine Tells.silent fun items hi => ?_
        rw [hval] at hi
        injection hi with hi
        subst hi
        refine ((Tells.mapM (p := fun _ _ => True) (g := fun i => match i with | .tuple [v, _] => queryNames v | _ => []) _ ?_).bind (l' := []) fun _ _ => Tells.pure trivial).of ?_
        · intro x hx
          obtain ⟨e, _, rfl⟩ := List.mem_map.1 hx
          exact queryNames_tells
        · rw [List.append_nil, List.flatMap_map]
          rfl)
  refine (congrArg (Reported nameClasses m m') ?_).mp this
  apply append_both rfl
  apply flatMap_congr_mem
  intro n hn
  have hc := (mem_namesAmong.1 (List.mem_filter.1 hn).1).2
  simp only [List.cons_append, List.nil_append, List.mem_cons, List.not_mem_nil, or_false] at hc ⊢
  rcases hc with hc | hc <;> rw [hc]
  · rw [if_pos rfl, if_pos rfl, if_neg (fun h => nomatch h.1), List.append_nil]
    rfl
  · rw [if_neg (c := FieldId.accept_query_ = .content_type_) (by decide), if_neg (c := FieldId.accept_query_ = .content_type_) (by decide), List.nil_append]
    congr 1
    by_cases h0 : valueOf env related m .accept_query_ ls n = .none
    · rw [if_neg (fun h => h.2 h0)]
      have hv := list_value (related := related) (m := m) (ls := ls) (f := .accept_query_) rfl hi n
      cases hl : listOf env ls n with
      | none => rfl
      | some l => rw [hl, h0] at hv; exact nomatch hv
    · rw [if_pos ⟨rfl, h0⟩]

/-- **C116** (the value) what a processed section records of `Content-Type` is the media type, without white space around it and
in lower case, and its parameters: the last value of each, by lower-case name -/
theorem C116_content_type (P : Processed env related t ls m m') (hu : Unpadded ls) {n : Str} (hn : n ∈ namesFor .content_type_ ls) :
    ∃ d, dget (m'.section t).parsed n = some (.tuple [.str (lower (strip (beforeC 59 (textOf ls n)))), Val.ofDict d]) ∧
      ∀ k, dget d k = (paramOf env (.names [str "charset"]) (afterC 59 (textOf ls n)) k).map Val.str := by
  have hv : FieldId.validIn .content_type_ m.kind = true := by cases m.kind <;> rfl
  rw [P.recorded hu (f := .content_type_) (by decide) hv (fun _ => rfl) hn]
  obtain ⟨d, hd, hg, _⟩ := params_heard env ⟨[], [], []⟩ (afterC 59 (textOf ls n)) (.names [str "charset"]) [] (by simp)
  refine ⟨d, congrArg some ?_, hg⟩
  have hp : parseText ⟨env, m, related⟩ .content_type_ (textOf ls n) = .ok (.tuple [.str (lower (strip (beforeC 59 (textOf ls n)))), Val.ofDict d]) := by
    have hr : (parseMediaType env ⟨[], [], []⟩ (textOf ls n) none none false (.names [str "charset"])).res = .ok (lower (strip (beforeC 59 (textOf ls n))), d) := by
      rw [parseMedia_eq, W.bind_ok (media_res ..)]
      show (parseParams env ⟨[], [], []⟩ (afterC 59 (textOf ls n)) (.names [str "charset"]) >>= _ : W _).res = _
      rw [W.bind_ok hd.res]
      rfl
    show (content_type.parse env ⟨[], [], []⟩ (textOf ls n)).res = _
    unfold content_type.parse
    rw [W.bind_ok hr]
    rfl
  have hne := valuesOf_ne (mem_namesFor.1 hn).1
  unfold valueOf lineValue
  unfold textOf at hp ⊢
  cases hx : valuesOf ls n with
  | nil => exact absurd hx hne
  | cons v vs =>
    rw [hx] at hp
    show (parseText ⟨env, m, related⟩ .content_type_ (strip v)).toOption.getD Val.none = _
    rw [show strip v = strip ((v :: vs).headD []) from rfl, hp]
    rfl

end

/-- **C115** (well-formed parameters) those of a text of the form `a=1 ; b="2"` are the ones written there -/
theorem C115_written (env : Env) (ns : NoStar) (ps : List Piece) (tr : Str) (h : GoodPieces ps tr) :
    paramReports env ns (paramsText ps tr) = (ps.map (·.2)).zipIdx.flatMap fun p => pieceReports env ns ((ps.map (·.2)).take p.2) p.1 := by
  unfold paramReports
  rw [pieces_written ps tr h]

/-! ### examples -/

/-- the notes of these classes, with the variables given -/
def paramSayings (env : Env) (kind : MsgKind) (ls : List Line) (Xs : List NoteId) : List (NoteId × Str × List (Option Val)) :=
  ((processSection env none false ls (fresh env kind none false false)).1.notes.filter fun x => Xs.contains x.cls).map fun x =>
    (x.cls, x.subject, [str "param", str "param_val", str "enc", str "value"].map (dget x.vars))

example : paramSayings toyEnv .response [(str "Link", str "<a>; rel=x; rel=y, <b>; rel*=UTF-8''x"), (str "Content-Type", str "text/html; charset='utf-8'; CHARSET=x; foo*=latin-1''x")] paramClasses =
    [(.PARAM_REPEATS, str "offset-0", [some (.str (str "rel")), none, none, none]), (.PARAM_STAR_BAD, str "offset-0", [some (.str (str "rel")), none, none, none]),
     (.PARAM_SINGLE_QUOTED, str "field-content-type", [some (.str (str "charset")), some (.str (str "'utf-8'")), none, none]),
     (.PARAM_REPEATS, str "field-content-type", [some (.str (str "charset")), none, none, none]),
     (.PARAM_STAR_CHARSET, str "field-content-type", [some (.str (str "foo*")), none, some (.str (str "latin-1")), none])] := by kernel_rfl

example : paramSayings toyEnv .request [(str "Accept", str "text/a'b;q*=1, text/*"), (str "Content-Type", str "Te'xt/" ++ List.replicate 128 97)] (paramClasses ++ nameClasses) =
    [(.MEDIA_TYPE_BAD_NAME, str "offset-0", [none, none, none, some (.str (str "text/a'b"))]), (.PARAM_STAR_BAD, str "offset-0", [some (.str (str "q")), none, none, none]),
     (.MEDIA_TYPE_LONG_NAME, str "field-content-type", [none, none, none, some (.str (str "te'xt/" ++ List.replicate 128 97))]),
     (.MEDIA_TYPE_BAD_NAME, str "field-content-type", [none, none, none, some (.str (str "te'xt/" ++ List.replicate 128 97))])] := by kernel_rfl

/-- `text/a'b` is a media range, and `a'b` a token but not a restricted name -/
example : IsRange true false (str "text/a'b") ∧ MediaName (str "text/a'b") (str "a'b") ∧ tokenName (str "a'b") = true ∧ restrictedName (str "a'b") = false :=
  ⟨⟨str "text", str "a'b", by unfold IsMediaType; decide +kernel, by decide, fun h => nomatch h⟩, ⟨str "text", str "a'b", by unfold IsMediaType; decide +kernel, by decide, by decide⟩,
    by decide +kernel, by decide +kernel⟩

/-- a section to which `C115_params` applies, with lines and names for it to speak of -/
example : let ls : List Line := [(str "Link", str "<a>; rel=x; rel=y"), (str "Content-Type", str "text/html")]
    (∃ m', Processed toyEnv none false ls (fresh toyEnv .response none false false) m') ∧ (linesAmong .response paramLists ls).length = 1 ∧ namesAmong paramSingles ls = [str "content-type"] ∧
      paramReports toyEnv (starRule .link_) (afterC 59 (str "<a>; rel=x; rel=y")) = [{ cls := .PARAM_REPEATS, vars := [(str "param", .str (str "rel"))] }] :=
  ⟨⟨(processSection toyEnv none false [(str "Link", str "<a>; rel=x; rel=y"), (str "Content-Type", str "text/html")] (fresh toyEnv .response none false false)).1, exLinting, rfl, by
    have : (processSection toyEnv none false [(str "Link", str "<a>; rel=x; rel=y"), (str "Content-Type", str "text/html")] (fresh toyEnv .response none false false)).2 = .ok () := by kernel_rfl
    exact Prod.ext rfl this⟩, by decide +kernel, by decide +kernel, by kernel_rfl⟩

end HL.Props
