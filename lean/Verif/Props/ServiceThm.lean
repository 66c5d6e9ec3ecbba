import Verif.Props.NegotiationThm
import Verif.Props.CspThm

/-!
# Server-Timing, Alt-Svc, Link, Content-Encoding: what is reported, in full (C84, C85, C86, C87)
-/

namespace HL.Props
open HL.F Syntax

section
variable {env : Env} {related : Option Msg} {t : Bool} {ls : List Line} {m m' : Msg}

/-- a list field whose elements are all read, reports on the whole -/
theorem Processed.read_reports (P : Processed env related t ls m m') {Xs : List NoteId} {f : FieldId} (hX : EvalAmong Xs [f]) (hk : f.info.kind = .list)
    (hv : f.validIn m.kind = true) (read : Str → Option Val) (hg : ∀ x, (parseText ⟨env, m, related⟩ f x).toOption = read x) (g : List Str → List Report)
    (hcl : ∀ es, ∀ r ∈ g es, r.Clean ∧ Xs.contains r.cls = true)
    (hs : ∀ (c : Ctx) (add : AddNote) (hd : Handler) es, During env related t m c → hd.fid = f → hd.value = .list (es.filterMap read) → Told add (hd.evaluate c add).2 (g es) ()) :
    Reported Xs m m' ((namesFor f ls).flatMap fun n => (g (elementsOf ls n)).map (fieldSubject n, ·)) := by
  have hval : ∀ n, valueOf env related m f ls n = .list ((elementsOf ls n).filterMap read) := valueOf_elements hk _ hg
  refine P.full_reports hX hv (fun n _ => by rw [hval]; simp) (fun n => g (elementsOf ls n)) (fun n => hcl _) ?_
  intro c add hd n _ hdur _ _ hf hvv
  exact (hs c add hd _ hdur hf (hvv.trans (hval n))).notes

end

theorem Heard.then {α β} {Xs add} {x : W α} {y : W β} {l l' a b} (h : Heard Xs add x l a) (h' : Heard Xs add y l' b) : Heard Xs add (x >>= fun _ => y) (l ++ l') b := h.bind h'

/-! ### Server-Timing -/

/-- a parameter of a metric: `dur`, `desc`, … -/
def metricParam (env : Env) (e n : Str) : Option Str := paramOf env (.names [str "desc"]) (afterC 59 e) n

/-- what is reported on a metric: that it has no duration, that its duration isn't a number, that it has no description -/
def metricReports (env : Env) (e : Str) : List Report :=
  let metric := Val.str (strip (beforeC 59 e))
  (match metricParam env e (str "dur") with
    | none => [{ cls := .SERVER_TIMING_MISSING_DUR, vars := [(str "metric", metric)] }]
    | some d => sayIf (!isFloat d) { cls := .SERVER_TIMING_BAD_PARAM, vars := [(str "metric", metric), (str "param", .str (str "dur")), (str "value", .str d)] }) ++
  sayIf (metricParam env e (str "desc")).isNone { cls := .SERVER_TIMING_MISSING_DESC, vars := [(str "metric", metric)] }

/-- its classes of note -/
def timingClasses : List NoteId := [.SERVER_TIMING_MISSING_DUR, .SERVER_TIMING_BAD_PARAM, .SERVER_TIMING_MISSING_DESC]

theorem metricReports_clean (env : Env) (e : Str) : ∀ r ∈ metricReports env e, r.Clean ∧ timingClasses.contains r.cls = true := by
  intro r hr
  unfold metricReports at hr
  rcases List.mem_append.1 hr with hr | hr
  · split at hr
    · rw [List.mem_singleton] at hr; subst hr; exact ⟨⟨by simp, by simp⟩, rfl⟩
    · obtain ⟨_, rfl⟩ := mem_sayIf.1 hr
      exact ⟨⟨show ([str "metric", str "param", str "value"] : List Str).Nodup by decide, by simp⟩, rfl⟩
  · obtain ⟨_, rfl⟩ := mem_sayIf.1 hr
    exact ⟨⟨by simp, by simp⟩, rfl⟩

theorem timing_parse (c : Ctx) (add : AddNote) (e : Str) :
    ∃ d, (server_timing.parse c add e).res = .ok (.tuple [.str (strip (beforeC 59 e)), Val.ofDict d]) ∧ ∀ n, dget d n = (metricParam c.env e n).map Val.str := by
  obtain ⟨d, hd, hg, _⟩ := params_heard c.env add (afterC 59 e) (.names [str "desc"]) [] (by simp)
  refine ⟨d, ?_, hg⟩
  unfold server_timing.parse
  rw [splitSemi_eq]
  exact (Heard.bind (l' := []) (f := fun d => pure (Val.tuple [.str (strip (beforeC 59 e)), Val.ofDict d])) hd .pure).res

theorem timing_told (env : Env) (add : AddNote) (hd : Handler) (ds : Str → Dict Val) (hg : ∀ e n, dget (ds e) n = (metricParam env e n).map Val.str)
    (es : List Str) (hv : hd.value = .list (es.map fun e => .tuple [.str (strip (beforeC 59 e)), Val.ofDict (ds e)])) :
    Told add (server_timing.evaluate add hd) (es.flatMap (metricReports env)) () := by
  unfold server_timing.evaluate
  refine Told.of (Told.bind (l := []) (a := es.map fun e => .tuple [.str (strip (beforeC 59 e)), Val.ofDict (ds e)]) (.lift (by rw [hv]; rfl)) ?_) (List.nil_append _)
  have : es.flatMap (metricReports env) = (es.map fun e => (e, Val.tuple [.str (strip (beforeC 59 e)), Val.ofDict (ds e)])).flatMap fun p => metricReports env p.1 := by
    rw [List.flatMap_map]
  have hgen : ∀ l : List Str, Told add (W.forEach (l.map fun e => Val.tuple [.str (strip (beforeC 59 e)), Val.ofDict (ds e)]) fun x => do
      let (metric, params) ← W.lift x.unpack2
      match params.get (str "dur") with
      | none | some .none => add.add .SERVER_TIMING_MISSING_DUR [(str "metric", metric)]
      | some d =>
        W.when (!isFloat d.asStr) (add.add .SERVER_TIMING_BAD_PARAM
          [(str "metric", metric), (str "param", .str (str "dur")), (str "value", d)])
      W.when (params.get (str "desc")).isNone (add.add .SERVER_TIMING_MISSING_DESC [(str "metric", metric)])) (l.flatMap (metricReports env)) () := by
    intro l
    induction l with
    | nil => exact .pure
    | cons e l ih =>
      rw [List.map_cons, List.flatMap_cons]
      unfold W.forEach
      refine Told.bind (a := ()) ?_ ih
      refine Told.of (Told.bind (l := []) (a := (.str (strip (beforeC 59 e)), Val.ofDict (ds e))) (.lift rfl) ?_) (List.nil_append _)
      dsimp only
      unfold Val.get metricReports
      rw [Val.entries_ofDict, hg, hg]
      have h2 : ((metricParam env e (str "desc")).map Val.str).isNone = (metricParam env e (str "desc")).isNone := by
        cases metricParam env e (str "desc") <;> rfl
      rw [h2]
      cases metricParam env e (str "dur") with
      | none => exact Told.bind (a := ()) .add .when
      | some d => exact Told.bind (a := ()) .when .when
  exact hgen es

section
variable {env : Env} {related : Option Msg} {t : Bool} {ls : List Line} {m m' : Msg}

/-- **C84** `Server-Timing`, in full: each metric without a duration, with a duration that isn't a number, or without a description is
named, on the field, in order -/
theorem C84_server_timing (P : Processed env related t ls m m') (hk : m.kind = .response) :
    Reported timingClasses m m' ((namesFor .server_timing_ ls).flatMap fun n => ((elementsOf ls n).flatMap (metricReports env)).map (fieldSubject n, ·)) := by
  obtain ⟨ds, hp, hg⟩ : ∃ ds : Str → Dict Val, (∀ x, parseText ⟨env, m, related⟩ .server_timing_ x = .ok (.tuple [.str (strip (beforeC 59 x)), Val.ofDict (ds x)])) ∧
      ∀ e n, dget (ds e) n = (metricParam env e n).map Val.str :=
    ⟨fun x => (timing_parse ⟨env, m, related⟩ ⟨[], [], []⟩ x).choose, fun x => (timing_parse ⟨env, m, related⟩ ⟨[], [], []⟩ x).choose_spec.1,
      fun x => (timing_parse ⟨env, m, related⟩ ⟨[], [], []⟩ x).choose_spec.2⟩
  refine P.read_reports (Xs := timingClasses) (f := .server_timing_) (by eval_among) rfl (by rw [hk]; rfl)
    (fun x => some (.tuple [.str (strip (beforeC 59 x)), Val.ofDict (ds x)])) (fun x => by rw [hp]; rfl) (fun es => es.flatMap (metricReports env)) ?_ ?_
  · intro es r hr
    obtain ⟨e, _, hr⟩ := List.mem_flatMap.1 hr
    exact metricReports_clean env e r hr
  · intro c add hd es _ hf hv
    unfold Handler.evaluate
    rw [hf]
    refine timing_told env add hd ds hg es (hv.trans ?_)
    rw [List.filterMap_eq_map']

end

/-! ### Alt-Svc -/

/-- an element of `Alt-Svc` that is read: `clear`, or one with an `=` -/
def isAlternative (e : Str) : Bool := e == str "clear" || e.contains 61

/-- what is reported on `Alt-Svc`: that `clear` isn't alone -/
def altSvcReports (es : List Str) : List Report :=
  let read := es.filter isAlternative
  sayIf (read.contains (str "clear") && decide (2 ≤ read.length)) { cls := .ALTSVC_CLEAR_LIST }

section
variable {env : Env} {related : Option Msg} {t : Bool} {ls : List Line} {m m' : Msg}

/-- **C85** in a response, it is reported that `clear` in an `Alt-Svc` isn't alone exactly when that is so, counting only what could
be an alternative -/
theorem C85_alt_svc (P : Processed env related t ls m m') (hk : m.kind = .response) :
    Reported [.ALTSVC_CLEAR_LIST] m m' ((namesFor .alt_svc_ ls).flatMap fun n => (altSvcReports (elementsOf ls n)).map (fieldSubject n, ·)) := by
  refine P.read_reports (Xs := [.ALTSVC_CLEAR_LIST]) (f := .alt_svc_) (by eval_among) rfl (by rw [hk]; rfl)
    (fun x => if isAlternative x then some (.str x) else none) ?_ altSvcReports ?_ ?_
  · intro x
    show (alt_svc.parse x).res.toOption = _
    unfold alt_svc.parse isAlternative
    by_cases h1 : x = str "clear"
    · rw [if_pos h1, h1]; rfl
    · rw [if_neg h1]
      have : (x == str "clear") = false := by simpa using h1
      rw [this, Bool.false_or]
      cases h2 : x.contains 61 <;> rfl
  · intro es r hr
    obtain ⟨_, rfl⟩ := mem_sayIf.1 hr
    exact ⟨⟨by simp, by simp⟩, rfl⟩
  · intro c add hd es _ hf hv
    unfold Handler.evaluate
    rw [hf]
    have e : es.filterMap (fun x => if isAlternative x then some (Val.str x) else none) = (es.filter isAlternative).map .str := by
      clear hv
      induction es with
      | nil => rfl
      | cons y es ih => by_cases h : isAlternative y = true <;> simp [h, ih]
    rw [e] at hv
    show Told add (alt_svc.evaluate add hd) _ ()
    unfold alt_svc.evaluate altSvcReports
    rw [hv]
    dsimp only
    have h1 : ((es.filter isAlternative).map Val.str).any (Val.pyEq (.str (str "clear"))) = (es.filter isAlternative).contains (str "clear") := by
      rw [List.any_map, Bool.eq_iff_iff, List.any_eq_true, List.contains_iff_mem]
      constructor
      · rintro ⟨x, h1, h2⟩
        have h2 : (str "clear" == x) = true := h2
        rw [beq_iff_eq.1 h2]; exact h1
      · intro h; exact ⟨_, h, show (str "clear" == str "clear") = true by simp⟩
    rw [h1, List.length_map]
    exact .when

end

/-! ### Link -/

/-- the parameters of a link that can't be in the extended form -/
def linkParams : NoStar := .names [str "rel", str "rev", str "anchor", str "hreflang", str "type", str "media"]

/-- the target of a link: what is between the angle brackets -/
def linkTarget (e : Str) : Str := ((strip (beforeC 59 e)).drop 1).dropLast

/-- a parameter of a link -/
def linkParam (env : Env) (e n : Str) : Option Str := paramOf env linkParams (afterC 59 e) n

/-- what is reported on a link: that it has `rev`, that its anchor isn't a URI reference, that its type isn't a media type -/
def linkReports (env : Env) (e : Str) : List Report :=
  let link := (str "link", Val.str (linkTarget e))
  (match linkParam env e (str "rev") with
    | some r => [{ cls := .LINK_REV, vars := [link, (str "rev", .str r)] }]
    | none => []) ++
  (match linkParam env e (str "anchor") with
    | some a => sayIf (a != [] && !rfc3986.URI_reference.spaced false a) { cls := .LINK_BAD_ANCHOR, vars := [link, (str "anchor", .str a)] }
    | none => []) ++
  (match linkParam env e (str "type") with
    | some a => sayIf (a != [] && !rfc9110.media_type.spaced false a) { cls := .LINK_BAD_TYPE, vars := [link, (str "type", .str a)] }
    | none => [])

/-- the scheme of the target `s` of a link in a document at `base`, in lower case -/
def schemeOf (env : Env) (base s : Str) : Option Str :=
  match env.urljoin base s with
  | .ok u => match env.urlsplit u with
    | .ok p => some (lower p.scheme)
    | .error _ => none
  | .error _ => none

/-- the relations that are resource hints -/
def hintRelations : List Str := [str "preload", str "preconnect", str "dns-prefetch"]

/-- the resource hints of a list of links: relation, target and scheme of the target -/
def hintsOf (env : Env) (base : Str) (es : List Str) : List (Str × Str × Str) :=
  es.flatMap fun e => ((wordsOf (lower ((linkParam env e (str "rel")).getD []))).filter hintRelations.contains).map fun t => (t, linkTarget e, (schemeOf env base (linkTarget e)).getD [])

/-- can a hint with this scheme be followed? -/
def usableScheme (s : Str) : Bool := s == [] || s == str "http" || s == str "https"

/-- what is reported on the hints of a `Link`: those that can't be followed, and, by relation, those that can -/
def hintReports (hs : List (Str × Str × Str)) : List Report :=
  let usable := hs.filter fun h => usableScheme h.2.2
  let present := hintRelations.filter fun t => usable.any fun h => h.1 == t
  ((hs.filter fun h => !usableScheme h.2.2).map fun h =>
    { cls := .LINK_BAD_HINT_TARGET, vars := [(str "rel", .str h.1), (str "link", .str h.2.1), (str "scheme", .str h.2.2)] }) ++
  sayIf (present != []) { cls := .LINK_RESOURCE_HINTS, vars := [(str "hints", .str (join (str ", ") present)),
    (str "detail_lines", .md (join [10] (present.map fun t => str "- `" ++ t ++ str "`: " ++ join (str ", ") ((usable.filter fun h => h.1 == t).map fun h => [96] ++ removeC 96 h.2.1 ++ [96]))))] }

/-- its classes of note -/
def linkClasses : List NoteId := [.LINK_REV, .LINK_BAD_ANCHOR, .LINK_BAD_TYPE, .LINK_BAD_HINT_TARGET, .LINK_RESOURCE_HINTS]

theorem linkReports_clean (env : Env) (e : Str) : ∀ r ∈ linkReports env e, r.Clean ∧ linkClasses.contains r.cls = true := by
  have hk : ∀ (X : NoteId) (k : Str) (a b : Val), linkClasses.contains X = true → str "link" ≠ k →
      (Report.mk X [(str "link", a), (k, b)] []).Clean ∧ linkClasses.contains (Report.mk X [(str "link", a), (k, b)] []).cls = true := by
    intro X k a b hX hk
    exact ⟨⟨show [str "link", k].Nodup by simpa using hk, by simp⟩, hX⟩
  intro r hr
  unfold linkReports at hr
  rcases List.mem_append.1 hr with hr | hr
  · rcases List.mem_append.1 hr with hr | hr
    · split at hr
      · rw [List.mem_singleton] at hr; subst hr; exact hk _ _ _ _ rfl (by decide)
      · exact absurd hr (by simp)
    · split at hr
      · obtain ⟨_, rfl⟩ := mem_sayIf.1 hr; exact hk _ _ _ _ rfl (by decide)
      · exact absurd hr (by simp)
  · split at hr
    · obtain ⟨_, rfl⟩ := mem_sayIf.1 hr; exact hk _ _ _ _ rfl (by decide)
    · exact absurd hr (by simp)

theorem hintReports_clean (hs : List (Str × Str × Str)) : ∀ r ∈ hintReports hs, r.Clean ∧ linkClasses.contains r.cls = true := by
  intro r hr
  rcases List.mem_append.1 hr with hr | hr
  · obtain ⟨h, _, rfl⟩ := List.mem_map.1 hr
    exact ⟨⟨show ([str "rel", str "link", str "scheme"] : List Str).Nodup by decide, by simp⟩, rfl⟩
  · obtain ⟨_, rfl⟩ := mem_sayIf.1 hr
    exact ⟨⟨show ([str "hints", str "detail_lines"] : List Str).Nodup by decide, by simp⟩, rfl⟩

theorem nonEmpty_param {d : Dict Val} {k : Str} {o : Option Str} (h : dget d k = o.map Val.str) :
    nonEmptyParam d k = o.filter fun s => s != [] := by
  unfold nonEmptyParam
  rw [h]
  cases o with
  | none => rfl
  | some s => cases s <;> rfl

theorem link_heard (c : Ctx) (add : AddNote) (e : Str) :
    ∃ d, Heard linkClasses add (link.parse c add e) (linkReports c.env e) (.tuple [.str (linkTarget e), Val.ofDict d]) ∧ ∀ n, dget d n = (linkParam c.env e n).map Val.str := by
  obtain ⟨d, hd, hg, _⟩ := params_heard c.env add (afterC 59 e) linkParams linkClasses (by decide)
  refine ⟨d, ?_, hg⟩
  unfold link.parse linkReports
  rw [splitSemi_eq]
  dsimp only
  refine Heard.of (Heard.bind hd ?_) (List.nil_append _)
  have h1 : dget d (str "rev") = (linkParam c.env e (str "rev")).map Val.str := hg _
  rw [h1, nonEmpty_param (o := linkParam c.env e (str "anchor")) (hg _), nonEmpty_param (o := linkParam c.env e (str "type")) (hg _)]
  have h3 : ∀ (o : Option Str) (X : NoteId) (k : Str) (ok : Str → Bool), linkClasses.contains X = true →
      Heard linkClasses add (match o.filter fun s => s != [] with
        | some a => W.when (!ok a) (add.add X [(str "link", .str (linkTarget e)), (k, .str a)])
        | none => pure ()) (match o with
        | some a => sayIf (a != [] && !ok a) { cls := X, vars := [(str "link", .str (linkTarget e)), (k, .str a)] }
        | none => []) () := by
    intro o X k ok hX
    cases o with
    | none => exact .pure
    | some a =>
      cases a with
      | nil => exact .pure
      | cons x xs => exact Heard.when hX
  have h2 : ∀ (o : Option Str), Heard linkClasses add (match o.map Val.str with
        | some r => do
          let s ← W.lift (c.env.render.toStr r)
          add.add .LINK_REV [(str "link", .str (linkTarget e)), (str "rev", .str s)]
        | none => pure ()) (match o with
        | some r => [{ cls := .LINK_REV, vars := [(str "link", .str (linkTarget e)), (str "rev", .str r)] }]
        | none => []) () := by
    intro o
    cases o with
    | none => exact .pure
    | some a => exact Heard.add rfl
  have key := Heard.then (h2 (linkParam c.env e (str "rev"))) (Heard.then (h3 (linkParam c.env e (str "anchor")) .LINK_BAD_ANCHOR (str "anchor") (rfc3986.URI_reference.spaced false) rfl)
    (Heard.then (h3 (linkParam c.env e (str "type")) .LINK_BAD_TYPE (str "type") (rfc9110.media_type.spaced false) rfl)
      (.pure (a := Val.tuple [.str (linkTarget e), Val.ofDict d]))))
  rw [List.append_nil, ← List.append_assoc] at key
  refine (congrArg (fun w => Heard linkClasses add w _ _) ?_).mp key
  generalize (linkParam c.env e (str "anchor")).filter (fun s => s != []) = o2
  generalize (linkParam c.env e (str "type")).filter (fun s => s != []) = o3
  cases linkParam c.env e (str "rev") <;> cases o2 <;> cases o3 <;> rfl

theorem tokens_of {c : Ctx} {s : Str} (ts : List Str) {l} (h : link.tokens c s ts = .ok l) :
    l = (ts.filter hintRelations.contains).map fun t => (t, s, (schemeOf c.env c.msg.baseUri s).getD []) := by
  induction ts generalizing l with
  | nil => injection h with h; exact h.symm
  | cons t ts ih =>
    unfold link.tokens at h
    rw [show linkHints = hintRelations from rfl] at h
    by_cases ht : hintRelations.contains t = true
    · rw [if_pos ht] at h
      rw [List.filter_cons_of_pos (p := hintRelations.contains) ht]
      have hs : ∀ u p, c.env.urljoin c.msg.baseUri s = .ok u → c.env.urlsplit u = .ok p → schemeOf c.env c.msg.baseUri s = some (lower p.scheme) := by
        intro u p h1 h2
        unfold schemeOf
        rw [h1]
        dsimp only
        rw [h2]
      cases h1 : c.env.urljoin c.msg.baseUri s with
      | error e => rw [h1] at h; exact nomatch h
      | ok u =>
        rw [h1] at h
        dsimp only [bind, Except.bind] at h
        cases h2 : c.env.urlsplit u with
        | error e => rw [h2] at h; exact nomatch h
        | ok p =>
          rw [h2] at h
          dsimp only at h
          cases h3 : link.tokens c s ts with
          | error e => rw [h3] at h; exact nomatch h
          | ok r =>
            rw [h3] at h
            injection h with h
            rw [← h, ih h3, hs _ _ h1 h2]
            rfl
    · rw [if_neg ht] at h
      rw [List.filter_cons_of_neg (p := hintRelations.contains) ht]
      exact ih h

theorem hints_of {c : Ctx} {ds : Str → Dict Val} (hg : ∀ e n, dget (ds e) n = (linkParam c.env e n).map Val.str) (es : List Str) {l}
    (h : link.hints c (es.map fun e => .tuple [.str (linkTarget e), Val.ofDict (ds e)]) = .ok l) : l = hintsOf c.env c.msg.baseUri es := by
  induction es generalizing l with
  | nil => injection h with h; exact h.symm
  | cons e es ih =>
    rw [List.map_cons] at h
    unfold link.hints at h
    have hget : (Val.ofDict (ds e)).get (str "rel") = (linkParam c.env e (str "rel")).map Val.str := by
      unfold Val.get; rw [Val.entries_ofDict, hg]
    have ih := fun l => @ih l
    generalize es.map (fun e => Val.tuple [.str (linkTarget e), Val.ofDict (ds e)]) = vs at *
    generalize Val.ofDict (ds e) = pd at *
    rw [show (Val.tuple [.str (linkTarget e), pd]).unpack2 = .ok (.str (linkTarget e), pd) from rfl] at h
    dsimp only [bind, Except.bind] at h
    rw [hget] at h
    unfold hintsOf
    rw [List.flatMap_cons]
    cases hl : linkParam c.env e (str "rel") with
    | none =>
      rw [hl] at h
      dsimp only [Option.map_none] at h
      cases h3 : link.hints c vs with
      | error e => rw [h3] at h; exact nomatch h
      | ok r =>
        rw [h3] at h
        injection h with h
        rw [← h, ih _ h3]
        rfl
    | some rel =>
      rw [hl] at h
      dsimp only [Option.map_some, Val.asStr] at h
      cases h4 : link.tokens c (linkTarget e) (words (lower rel)) with
      | error e => rw [h4] at h; exact nomatch h
      | ok ts =>
        rw [h4] at h
        dsimp only at h
        cases h3 : link.hints c vs with
        | error e => rw [h3] at h; exact nomatch h
        | ok r =>
          rw [h3] at h
          injection h with h
          rw [← h, ih _ h3, tokens_of _ h4, words_eq]
          rfl

theorem usable_eq (s : Str) : badHintScheme s = !usableScheme s := by
  unfold badHintScheme usableScheme
  cases s with
  | nil => rfl
  | cons a s => simp [bne]

theorem link_tells {c : Ctx} (add : AddNote) (hd : Handler) (ds : Str → Dict Val) (hg : ∀ e n, dget (ds e) n = (linkParam c.env e n).map Val.str)
    (es : List Str) (hv : hd.value = .list (es.map fun e => .tuple [.str (linkTarget e), Val.ofDict (ds e)])) :
    Tells linkClasses add (link.evaluate c add hd) (hintReports (hintsOf c.env c.msg.baseUri es)) (fun _ => True) := by
  unfold link.evaluate hintReports
  refine Tells.silent fun vs hvs => ?_
  rw [hv] at hvs
  injection hvs with hvs
  subst hvs
  refine Tells.silent fun hs hhs => ?_
  rw [← hints_of hg es hhs]
  simp only [usable_eq, Bool.not_not, isEmpty_bne]
  refine Tells.bind (p := fun _ => True) ((Tells.forEach (g := fun h : Str × Str × Str => [⟨.LINK_BAD_HINT_TARGET, [(str "rel", .str h.1), (str "link", .str h.2.1), (str "scheme", .str h.2.2)], []⟩]) fun _ _ => Tells.add rfl).of ?_) fun _ _ => Tells.when rfl
  exact List.map_eq_flatMap.symm

section
variable {env : Env} {related : Option Msg} {t : Bool} {ls : List Line} {m m' : Msg}

/-- **C86** `Link`, in full: each link with `rev`, with an anchor that isn't a URI reference or with a type that isn't a media type is
reported at its line; then, on the field, each resource hint whose target has a scheme other than `http` and `https`, and, if there are others,
these, by relation -/
theorem C86_link (P : Processed env related t ls m m') :
    Reported linkClasses m m' (((linesFor m.kind .link_ ls).flatMap fun p => (lineElements p.2.2).flatMap fun e => (linkReports env e).map (offsetSubject p.1, ·)) ++
      (namesFor .link_ ls).flatMap fun n => (hintReports (hintsOf env m.baseUri (elementsOf ls n))).map (fieldSubject n, ·)) := by
  obtain ⟨ds, hp, hg⟩ : ∃ ds : Str → Dict Val, (∀ x, parseText ⟨env, m, related⟩ .link_ x = .ok (.tuple [.str (linkTarget x), Val.ofDict (ds x)])) ∧
      ∀ e n, dget (ds e) n = (linkParam env e n).map Val.str :=
    ⟨fun x => (link_heard ⟨env, m, related⟩ ⟨[], [], []⟩ x).choose, fun x => (link_heard ⟨env, m, related⟩ ⟨[], [], []⟩ x).choose_spec.1.res,
      fun x => (link_heard ⟨env, m, related⟩ ⟨[], [], []⟩ x).choose_spec.2⟩
  have hX : Only linkClasses [.link_] := by only_these
  have hV : FieldId.validIn .link_ m.kind = true := by cases m.kind <;> rfl
  have hP : ∀ (add : AddNote) (hd : Handler) v, hd.fid = .link_ → amongClass linkClasses (hd.parse ⟨env, m, related⟩ add v).2.notes = (linkReports env v).map (Report.note add) := by
    intro add hd v hf
    unfold Handler.parse
    rw [hf]
    exact (link_heard ⟨env, m, related⟩ add v).choose_spec.1.notes
  have hval : ∀ n, valueOf env related m .link_ ls n = .list ((elementsOf ls n).map fun e => .tuple [.str (linkTarget e), Val.ofDict (ds e)]) := by
    intro n
    rw [valueOf_list rfl _ hp]
    unfold elementsOf
    rw [List.map_map]
    rfl
  have hE : ∀ (c : Ctx) (add : AddNote) (hd : Handler), ∀ n ∈ namesFor .link_ ls,
      During env related t m c → Seen env related t ls m (before n (namesOf ls)) c →
      (add, hd) = evalSetup m t c related ls n → hd.fid = .link_ → hd.value = valueOf env related m .link_ ls n →
      (hd.evaluate c add).2.res = .ok () →
      amongClass linkClasses (hd.evaluate c add).2.notes = (hintReports (hintsOf env m.baseUri (elementsOf ls n))).map (Report.note add) := by
    intro c add hd n hn hdur _ _ hf hv hok
    have hb : c.msg.baseUri = m.baseUri := by
      obtain ⟨ns, s, e⟩ := hdur.ext
      rw [e]; cases t <;> rfl
    have := link_tells (c := c) add hd ds (by rw [hdur.env]; exact hg) (elementsOf ls n) (hv.trans (hval n))
    rw [hdur.env, hb] at this
    unfold Handler.evaluate at hok ⊢
    rw [hf] at hok ⊢
    exact (this () hok).1
  have := P.list_reports_ok hX rfl hV (linkReports env) (fun n => hintReports (hintsOf env m.baseUri (elementsOf ls n))) (fun v r hr => (linkReports_clean env v r hr).1)
    (fun n _ r hr => (hintReports_clean _ r hr).1) hP hE
  exact this

end

/-! ### Content-Encoding -/

/-- what is reported on an element of `Content-Encoding`, given the codings the client accepts -/
def encodingReports (accepted : List Str) (e : Str) : List Report :=
  sayIf (!accepted.contains (lower e)) { cls := .ENCODING_UNWANTED, vars := [(str "coding", .str e)] }

/-- the codings of the request `q` that its `Accept-Encoding` lists -/
def AcceptsCodings (q : Msg) (aes : List (Str × Val)) : Prop :=
  q.kind = .request ∧ (dget q.headers.parsed (str "accept-encoding")).getD (.list []) = .list (aes.map fun p => .tuple [.str p.1, p.2])

theorem encoding_told {env : Env} {m q : Msg} {aes : List (Str × Val)} (hm : m.kind = .response) (hq : AcceptsCodings q aes) (add : AddNote) (e : Str) :
    Told add (content_encoding.parse ⟨env, m, some q⟩ add e) (encodingReports (aes.map (·.1)) e) (.str (lower e)) := by
  unfold content_encoding.parse Ctx.isRequest Ctx.request
  dsimp only
  rw [hm]
  rw [show decide (MsgKind.response = MsgKind.request) = false from rfl]
  dsimp only
  rw [if_pos hq.1, hq.2]
  have hmap : Told add ((aes.map fun p => Val.tuple [.str p.1, p.2]).mapM fun a => W.lift (a.idx 0)) [] (aes.map fun p => .str p.1) := by
    have := Told.mapM (add := add) (f := fun a : Val => W.lift (a.idx 0)) (g := fun _ => []) (h := fun x => match x with | .tuple (s :: _) => s | _ => .none) (aes.map fun p => Val.tuple [.str p.1, p.2]) (by
      intro x hx
      obtain ⟨p, _, rfl⟩ := List.mem_map.1 hx
      exact .lift rfl)
    rw [List.map_map] at this
    exact this.of (by simp)
  refine Told.of (Told.bind (a := aes.map fun p => .tuple [.str p.1, p.2]) (l := []) (.lift rfl) (Told.of (Told.bind hmap (l' := encodingReports (aes.map (·.1)) e) ?_) (List.nil_append _))) (List.nil_append _)
  have : ((aes.map fun p => Val.str p.1).any (Val.pyEq (.str (lower e)))) = (aes.map (·.1)).contains (lower e) := by
    rw [List.any_map, Bool.eq_iff_iff, List.any_eq_true, List.contains_iff_mem, List.mem_map]
    constructor
    · rintro ⟨p, h1, h2⟩
      have h2 : (lower e == p.1) = true := h2
      exact ⟨p, h1, (beq_iff_eq.1 h2).symm⟩
    · rintro ⟨p, h1, h2⟩
      exact ⟨p, h1, show (lower e == p.1) = true by rw [h2]; simp⟩
  rw [this]
  exact Told.of (Told.bind (a := ()) .when .pure) (List.append_nil _)

theorem encodingReports_clean (acc : List Str) (e : Str) : ∀ r ∈ encodingReports acc e, r.Clean ∧ r.cls = .ENCODING_UNWANTED := by
  intro r hr
  obtain ⟨_, rfl⟩ := mem_sayIf.1 hr
  exact ⟨⟨by simp, by simp⟩, rfl⟩

section
variable {env : Env} {related : Option Msg} {t : Bool} {ls : List Line} {m m' : Msg}

/-- **C87** in a response to a known request, each content coding that the request's `Accept-Encoding` doesn't list is reported, at its line -/
theorem C87_content_encoding {q : Msg} (P : Processed env (some q) t ls m m') (hm : m.kind = .response) {aes : List (Str × Val)} (hq : AcceptsCodings q aes) :
    Reported [.ENCODING_UNWANTED] m m' ((linesFor m.kind .content_encoding_ ls).flatMap fun p => (lineElements p.2.2).flatMap fun e =>
      (encodingReports (aes.map (·.1)) e).map (offsetSubject p.1, ·)) := by
  have hX : Only [.ENCODING_UNWANTED] [.content_encoding_] := by only_these
  have hV : FieldId.validIn .content_encoding_ m.kind = true := by cases m.kind <;> rfl
  have hE : ∀ (c : Ctx) (add : AddNote) (hd : Handler), hd.fid = .content_encoding_ → amongClass [.ENCODING_UNWANTED] (hd.evaluate c add).2.notes = [] := by
    intro c add hd hf; unfold Handler.evaluate; rw [hf]; rfl
  have hs : ∀ (add : AddNote) (hd : Handler) v, hd.fid = .content_encoding_ →
      amongClass [.ENCODING_UNWANTED] (hd.parse ⟨env, m, some q⟩ add v).2.notes = (encodingReports (aes.map (·.1)) v).map (Report.note add) := by
    intro add hd v hf
    unfold Handler.parse
    rw [hf]
    exact (encoding_told (env := env) hm hq add v).among fun r hr => by rw [(encodingReports_clean _ v r hr).2]; rfl
  exact P.elements_reports hX rfl hV hE _ (fun e r hr => (encodingReports_clean _ e r hr).1) hs

/-- **C87** in a request, and in a response whose request isn't known, no content coding is reported as unwanted -/
theorem C87_unknown_request (P : Processed env related t ls m m') (h : m.kind = .request ∨ related = none) : Reported [.ENCODING_UNWANTED] m m' [] := by
  have hX : Only [.ENCODING_UNWANTED] [.content_encoding_] := by only_these
  have hV : FieldId.validIn .content_encoding_ m.kind = true := by cases m.kind <;> rfl
  have hE : ∀ (c : Ctx) (add : AddNote) (hd : Handler), hd.fid = .content_encoding_ → amongClass [.ENCODING_UNWANTED] (hd.evaluate c add).2.notes = [] := by
    intro c add hd hf; unfold Handler.evaluate; rw [hf]; rfl
  have hs : ∀ (add : AddNote) (hd : Handler) v, hd.fid = .content_encoding_ →
      amongClass [.ENCODING_UNWANTED] (hd.parse ⟨env, m, related⟩ add v).2.notes = ([] : List Report).map (Report.note add) := by
    intro add hd v hf
    unfold Handler.parse
    rw [hf]
    show amongClass _ (content_encoding.parse ⟨env, m, related⟩ add v).notes = _
    unfold content_encoding.parse Ctx.isRequest Ctx.request
    dsimp only
    rcases h with h | h
    · rw [h]; rfl
    · rw [h]; cases m.kind <;> rfl
  have := P.elements_reports hX rfl hV hE (fun _ => []) (fun e r hr => absurd hr (by simp)) hs
  exact this.congr (by simp)

/-- the codings a linted request accepts are those its `Accept-Encoding` lists -/
theorem accepted_recorded {envq : Env} {relq : Option Msg} {lq : List Line} {q0 q : Msg} (Pq : Processed envq relq false lq q0 q) (hq : q0.kind = .request)
    (hn : dget q0.headers.parsed (str "accept-encoding") = none) (hu : Unpadded lq) :
    ∃ aes, AcceptsCodings q aes ∧ aes.map (·.1) = codingsOf lq (str "accept-encoding") := by
  obtain ⟨ds, hp⟩ : ∃ ds : Str → Val, ∀ x, parseText ⟨envq, q0, relq⟩ .accept_encoding_ x = .ok (.tuple [.str (lower (beforeC 59 x)), ds x]) := by
    have : ∀ x, ∃ d, Heard [] ⟨[], [], []⟩ (codingParse envq ⟨[], [], []⟩ x) [] (.tuple [.str (lower (beforeC 59 x)), d]) := by
      intro x
      obtain ⟨d, hd, _⟩ := params_heard envq ⟨[], [], []⟩ (afterC 59 x) (.names [str "q"]) [] (by simp)
      refine ⟨Val.ofDict d, ?_⟩
      unfold codingParse
      rw [splitSemi_eq]
      exact Heard.bind hd .pure
    exact ⟨fun x => (this x).choose, fun x => (this x).choose_spec.res⟩
  refine ⟨(elementsOf lq (str "accept-encoding")).map fun e => (lower (beforeC 59 e), ds e), ⟨?_, ?_⟩, by rw [List.map_map]; rfl⟩
  · have := (processSection_ext envq relq false lq q0).kind
    rw [Pq.ok] at this
    exact this.trans hq
  by_cases h : str "accept-encoding" ∈ namesOf lq
  · have hte : str "accept-encoding" ∈ namesFor .accept_encoding_ lq := mem_namesFor.2 ⟨h, by decide +kernel⟩
    have := Pq.recorded hu (f := .accept_encoding_) (by decide) (by rw [hq]; rfl) (fun _ => rfl) hte
    have e : (q.section false).parsed = q.headers.parsed := rfl
    rw [e] at this
    rw [this, valueOf_list rfl _ hp]
    unfold elementsOf
    rw [List.map_map, List.map_map]
    rfl
  · have := section_values Pq.linting Pq.new hu Pq.ok (str "accept-encoding")
    rw [if_neg h] at this
    have e : dget q.headers.parsed (str "accept-encoding") = none := this.trans hn
    have : valuesOf lq (str "accept-encoding") = [] := by
      unfold valuesOf
      rw [List.map_eq_nil_iff, List.filter_eq_nil_iff]
      intro l hl he
      refine h (mem_dedup.2 (List.mem_map.2 ⟨l, hl, ?_⟩))
      exact beq_iff_eq.1 he
    rw [e]
    unfold elementsOf
    rw [this]
    rfl

/-- **C87** (response to a linted request) the codings reported are those that are not among the elements of the request's `Accept-Encoding` -/
theorem C87_content_encoding_response {envq : Env} {relq : Option Msg} {lq : List Line} {q0 q : Msg} (Pq : Processed envq relq false lq q0 q) (hq : q0.kind = .request)
    (hn : dget q0.headers.parsed (str "accept-encoding") = none) (hu : Unpadded lq) (P : Processed env (some q) t ls m m') (hm : m.kind = .response) :
    Reported [.ENCODING_UNWANTED] m m' ((linesFor m.kind .content_encoding_ ls).flatMap fun p => (lineElements p.2.2).flatMap fun e =>
      (encodingReports (codingsOf lq (str "accept-encoding")) e).map (offsetSubject p.1, ·)) := by
  obtain ⟨aes, h1, h2⟩ := accepted_recorded Pq hq hn hu
  rw [← h2]
  exact C87_content_encoding P hm h1

end

end HL.Props
