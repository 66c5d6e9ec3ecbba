import Verif.Props.FullReports
import Verif.Props.CookieThm
import Verif.Props.TypesThm

/-!
# What is reported on Set-Cookie, in full (C60, C61)

`CookieThm` says which notes are added and about which line; here also what they say and their order.
-/

namespace HL.Props
open HL.F

/-! ### notes determined by their class -/

/-- each note is the one `F` gives for its class -/
def SaysBy {α} (add : AddNote) (F : NoteId → Report) (w : W α) : Prop := ∀ x ∈ w.notes, x = Report.note add (F x.cls)

theorem SaysBy.pure {α add F} {a : α} : SaysBy add F (pure a : W α) := fun _ h => nomatch h
theorem SaysBy.throw {α add F} {e} : SaysBy add F (W.throw e : W α) := fun _ h => nomatch h

theorem SaysBy.bind {α β add F} {x : W α} {f : α → W β} (h : SaysBy add F x) (h' : ∀ a, SaysBy add F (f a)) : SaysBy add F (x >>= f) := by
  cases hr : x.res with
  | error e => rw [W.bind_err hr]; exact h
  | ok a =>
    rw [W.bind_ok hr]
    intro y hy
    rcases List.mem_append.1 hy with hy | hy
    · exact h y hy
    · exact h' a y hy

theorem SaysBy.add {add : AddNote} {F X vrs} (h : F X = ⟨X, vrs, []⟩) : SaysBy add F (add.add X vrs) := by
  intro x hx
  have hx : x = add.mk1 X vrs := by simpa [AddNote.add_notes] using hx
  subst hx
  rw [AddNote.mk1_cls, h]
  rfl

theorem SaysBy.when {add : AddNote} {F} {b : Bool} {w : W Unit} (h : b = true → SaysBy add F w) : SaysBy add F (W.when b w) := by
  cases b
  · exact SaysBy.pure
  · exact h rfl

theorem SaysBy.notes {α} {add F} {w : W α} (h : SaysBy add F w) {cs : List NoteId} (hc : w.notes.map (·.cls) = cs) : w.notes = (cs.map F).map (Report.note add) := by
  subst hc
  rw [List.map_map, List.map_map]
  have : ∀ l : List Note, (∀ x ∈ l, x = Report.note add (F x.cls)) → l = l.map ((Report.note add ∘ F) ∘ fun x => x.cls) := by
    intro l hl
    induction l with
    | nil => rfl
    | cons x l ih => rw [List.map_cons, ← ih fun y hy => hl y (by simp [hy])]; congr 1; exact hl x (by simp)
  exact this _ h

theorem tag_cls {ns : List Note} {cs : List NoteId} {s : Str} (h : ns.map tag = cs.map (·, s)) : ns.map (·.cls) = cs := by
  have := congrArg (List.map Prod.fst) h
  rw [List.map_map, List.map_map] at this
  refine this.trans ?_
  exact List.map_id' cs

/-! ### specification -/

/-- how long a cookie is asked to be kept -/
def attrDuration (now : Option Rat) (a : Str × Str) : Val :=
  if attrIs a (str "expires") then (match looseDateParse a.2, now with | .ok t, some now => .rel t now 0 | _, _ => .none)
  else match pyInt a.2 with | some d => .rel d 0 0 | none => .none

/-- what is wrong with a date, in words -/
def dateComplaint (v : Str) : Str := match looseDateParse v with | .error why => why | .ok _ => []

/-- what a note of class `X` on an attribute of the cookie `ck` says -/
def attrReport (ck : Str) (now : Option Rat) (a : Str × Str) (X : NoteId) : Report :=
  { cls := X, vars := match X with
    | .SET_COOKIE_BAD_DATE => [(str "why", .str (dateComplaint a.2)), (str "cookie_name", .str ck)]
    | .SET_COOKIE_LIFETIME_TOO_LONG => [(str "cookie_name", .str ck), (str "duration", attrDuration now a)]
    | .SET_COOKIE_UNKNOWN_ATTRIBUTE_VALUE => [(str "cookie_name", .str ck), (str "attribute_name", .str a.1), (str "attribute_value", .str a.2)]
    | .SET_COOKIE_UNKNOWN_ATTRIBUTE => [(str "cookie_name", .str ck), (str "attribute", .str a.1)]
    | .SET_COOKIE_ATTRIBUTE_DUP => [(str "cookie_name", .str ck), (str "attribute", .str a.1)]
    | _ => [(str "cookie_name", .str ck)] }

/-- a note that says no more than the name of the cookie -/
def cookieNamed (ck : Str) (X : NoteId) : Report := { cls := X, vars := [(str "cookie_name", .str ck)] }

/-- what is reported on the attributes, in order -/
def attrReports (ck : Str) (now : Option Rat) (as : List (Str × Str)) : List Report :=
  as.zipIdx.flatMap fun p => (attrNotes now (as.take p.2) p.1).map (attrReport ck now p.1)

/-- what is reported on a `Set-Cookie` line: on its size, on the attributes up to the first that can't be read and, if there is no such, on the whole -/
def cookieLineReports (now : Option Rat) (uriPath : Str) (s : Str) : List Report :=
  let attrs := (cookieAttrs s).filterMap (attrRecord uriPath)
  let secure := attrs.contains (str "Secure", .str [])
  if cookieName s = [] ∧ cookieValue s = [] then [{ cls := .SET_COOKIE_NO_NAME }]
  else
    sayIf (decide ((cookieName s).length + (cookieValue s).length > 4096)) (cookieNamed (cookieName s) .SET_COOKIE_TOO_LARGE) ++
    sayIf (decide ((cookieValue s).length > 128)) { cls := .SET_COOKIE_VALUE_TOO_LARGE, vars := [(str "cookie_name", .str (cookieName s)),
      (str "set_cookie_value_length", .str (commaNum (cookieValue s).length ++ str " bytes"))] } ++
    attrReports (cookieName s) now (attrsRead (cookieAttrs s)) ++
    if (cookieAttrs s).any attrUnreadable then []
    else
      sayIf (attrs.contains (str "SameSite", .str (str "None")) && !secure) (cookieNamed (cookieName s) .SET_COOKIE_NOT_SECURE) ++
      sayIf (attrs.contains (str "Partitioned", .str []) && !secure) (cookieNamed (cookieName s) .SET_COOKIE_PARTITIONED_NO_SECURE) ++
      (prefixProblems (cookieName s) attrs).map (cookieNamed (cookieName s))

/-- `l` lists in alphabetical order, each once, the names given more than once -/
def ListsRepeatedSorted (names l : List Str) : Prop := l.Pairwise (fun a b => strLe a b = true) ∧ ListsRepeated names l

/-- what is reported on a whole `Set-Cookie` field: the names, in order, of its cookies that are repeated (`rep`), and those that are hardened -/
def cookieFieldReports (cookies : List Str) (rep : List Str) : List Report :=
  let good := (cookies.filter hardened).map cookieName
  sayIf (rep != []) { cls := .SET_COOKIE_NAME_DUP, vars := [(str "cookie_names", .str (join (str ", ") rep))] } ++
  sayIf (good != []) { cls := .SET_COOKIE_HARDENED, vars := [(str "cookie_names", .md (join (str ", ") (good.map fun n => [96] ++ removeC 96 n ++ [96])))] }

/-! ### the attributes -/

theorem attr_says (a : Str × Str) (ck : Str) (attrs : Attrs) (uriPath : Str) (now : Option Rat) (add : AddNote) (lt : Bool) :
    SaysBy add (attrReport ck now a) (processCookieAttribute a.1 a.2 ck attrs uriPath now add lt) := by
  obtain ⟨nm, v⟩ := a
  unfold processCookieAttribute
  dsimp only
  by_cases h1 : lower nm = str "expires"
  · rw [if_pos h1]
    cases hd : looseDateParse v with
    | error why =>
      dsimp only
      refine SaysBy.bind (SaysBy.add ?_) fun _ => SaysBy.pure
      unfold attrReport dateComplaint
      dsimp only
      rw [hd]
    | ok t =>
      dsimp only
      cases now with
      | none => exact SaysBy.pure
      | some now =>
        dsimp only
        split
        · refine SaysBy.bind (SaysBy.add ?_) fun _ => SaysBy.pure
          unfold attrReport attrDuration attrIs
          dsimp only
          rw [if_pos (by rw [h1]; rfl), hd]
          rfl
        · exact SaysBy.pure
  rw [if_neg h1]
  by_cases h2 : lower nm = str "max-age"
  · rw [if_pos h2]
    split
    · exact SaysBy.bind (SaysBy.add rfl) fun _ => SaysBy.pure
    · refine SaysBy.bind (SaysBy.when fun _ => SaysBy.add rfl) fun _ => ?_
      split
      · exact SaysBy.bind (SaysBy.add rfl) fun _ => SaysBy.pure
      · cases hp : pyInt v with
        | none => exact SaysBy.throw
        | some d =>
          dsimp only
          split
          · refine SaysBy.bind (SaysBy.add ?_) fun _ => SaysBy.pure
            unfold attrReport attrDuration attrIs
            dsimp only
            rw [if_neg (by rw [h2]; decide), hp]
            rfl
          · exact SaysBy.pure
  rw [if_neg h2]
  split
  · split
    · exact SaysBy.bind (SaysBy.add rfl) fun _ => SaysBy.pure
    · exact SaysBy.pure
  split
  · exact SaysBy.pure
  split
  · exact SaysBy.pure
  split
  · exact SaysBy.pure
  split
  · split
    · exact SaysBy.pure
    split
    · exact SaysBy.pure
    split
    · exact SaysBy.pure
    · exact SaysBy.bind (SaysBy.add rfl) fun _ => SaysBy.pure
  split
  · exact SaysBy.pure
  split
  · exact SaysBy.bind (SaysBy.add rfl) fun _ => SaysBy.pure
  split
  · exact SaysBy.bind (SaysBy.add rfl) fun _ => SaysBy.pure
  · exact SaysBy.bind (SaysBy.add rfl) fun _ => SaysBy.pure

/-- an attribute whose value can't be read -/
theorem attr_bad (a : Str × Str) (ck : Str) (attrs : Attrs) (uriPath : Str) (now : Option Rat) (add : AddNote) (lt : Bool) (h : attrUnreadable a = true) :
    (processCookieAttribute a.1 a.2 ck attrs uriPath now add lt).res = .error .valueError ∧
    (processCookieAttribute a.1 a.2 ck attrs uriPath now add lt).notes.map tag =
      (attrProblems a ++ if attrTooLong now a && !lt then [NoteId.SET_COOKIE_LIFETIME_TOO_LONG] else []).map (·, add.subject) := by
  unfold attrUnreadable attrIs at h
  simp only [Bool.and_eq_true, beq_iff_eq] at h
  obtain ⟨⟨h1, h2⟩, h3⟩ := h
  have hne : a.2 ≠ [] := by intro h; rw [h] at h2; exact nomatch h2
  have hn : pyInt a.2 = none := by simpa using h3
  obtain ⟨nm, v⟩ := a
  dsimp only at *
  have e1 : attrProblems (nm, v) = if (v.head? == some 48 && decide (v.length > 1)) then [.SET_COOKIE_LEADING_ZERO_MAX_AGE] else [] := by
    cases v with
    | nil => exact absurd rfl hne
    | cons c v => simp [attrProblems, attrIs, h1, knownAttrs, h2]
  have e3 : attrTooLong now (nm, v) = false := by
    simp only [attrTooLong, attrIs, h1, hn]; simp
  unfold processCookieAttribute
  dsimp only
  have hw : Does (W.when (v.head? == some 48 && decide (v.length > 1)) (add.add .SET_COOKIE_LEADING_ZERO_MAX_AGE [(str "cookie_name", .str ck)]))
      add.subject (if (v.head? == some 48 && decide (v.length > 1)) then [.SET_COOKIE_LEADING_ZERO_MAX_AGE] else []) () := Does.when (Does.add1 _ _ _)
  rw [if_neg (by rw [h1]; decide), if_pos h1, if_neg hne, W.bind_ok hw.res]
  dsimp only
  rw [List.map_append, hw.notes, h2, hn, e1, e3]
  refine ⟨rfl, ?_⟩
  simp [W.throw]

theorem attrsRead_cons_bad {a : Str × Str} {as} (h : attrUnreadable a = true) : attrsRead (a :: as) = [a] := by
  unfold attrsRead
  rw [List.takeWhile_cons_of_neg (by simp [h]), List.dropWhile_cons_of_neg (by simp [h])]
  rfl

theorem attrsRead_cons {a : Str × Str} {as} (h : attrUnreadable a = false) : attrsRead (a :: as) = a :: attrsRead as := by
  unfold attrsRead
  rw [List.takeWhile_cons_of_pos (by simp [h]), List.dropWhile_cons_of_pos (by simp [h])]
  rfl

theorem loop_reports (ck uriPath : Str) (now : Option Rat) (add : AddNote) (ps : List Str) : ∀ (pre : List (Str × Str)) (seen : List Str) (attrs : Attrs),
    (∀ n, seen.contains n = pre.any (fun b => lower b.1 == n)) →
    (cookieAttrLoop ck uriPath now add ps seen attrs (pre.any (attrTooLong now))).notes =
      ((attrsRead (ps.map attrOf)).zipIdx.flatMap fun p => (attrNotes now (pre ++ (attrsRead (ps.map attrOf)).take p.2) p.1).map (attrReport ck now p.1)).map (Report.note add) := by
  induction ps with
  | nil => intro pre seen attrs _; rfl
  | cons p ps ih =>
    intro pre seen attrs hs
    unfold cookieAttrLoop
    rw [splitAttr_eq]
    dsimp only
    have hw : Told add (W.when (seen.contains (lower (attrOf p).1)) (add.add .SET_COOKIE_ATTRIBUTE_DUP [(str "cookie_name", .str ck), (str "attribute", .str (attrOf p).1)]))
        ((if pre.any (fun b => lower b.1 == lower (attrOf p).1) then [NoteId.SET_COOKIE_ATTRIBUTE_DUP] else []).map (attrReport ck now (attrOf p))) () := by
      rw [hs]
      refine Told.when.of ?_
      cases pre.any (fun b => lower b.1 == lower (attrOf p).1) <;> rfl
    rw [W.bind_ok hw.res]
    dsimp only
    rw [hw.notes, List.map_cons]
    have hsay := attr_says (attrOf p) ck attrs uriPath now add (pre.any (attrTooLong now))
    cases hb : attrUnreadable (attrOf p) with
    | true =>
      have hx := attr_bad (attrOf p) ck attrs uriPath now add (pre.any (attrTooLong now)) hb
      rw [W.bind_err hx.1, attrsRead_cons_bad hb]
      dsimp only
      rw [hsay.notes (tag_cls hx.2)]
      rw [show ([attrOf p].zipIdx.flatMap fun q => (attrNotes now (pre ++ [attrOf p].take q.2) q.1).map (attrReport ck now q.1)) =
        (attrNotes now pre (attrOf p)).map (attrReport ck now (attrOf p)) by simp]
      unfold attrNotes
      simp only [List.append_assoc, List.map_append]
    | false =>
      have hst := attr_step (attrOf p) ck attrs uriPath now add (pre.any (attrTooLong now)) hb
      rw [W.bind_ok hst.res, attrsRead_cons hb, zipIdx_flatMap_cons (fun pre a => (attrNotes now pre a).map (attrReport ck now a))]
      dsimp only
      have hrec := ih (pre ++ [attrOf p]) (lower (attrOf p).1 :: seen) (attrs ++ (attrRecord uriPath (attrOf p)).toList) (by
        intro n
        rw [List.any_append, List.contains_cons, hs]
        simp only [List.any_cons, List.any_nil, Bool.or_false]
        rw [Bool.or_comm, Bool.beq_comm])
      rw [List.any_append, List.any_cons, List.any_nil, Bool.or_false] at hrec
      rw [hrec, hsay.notes (tag_cls hst.notes)]
      have e : attrNotes now pre (attrOf p) = (if pre.any (fun b => lower b.1 == lower (attrOf p).1) then [NoteId.SET_COOKIE_ATTRIBUTE_DUP] else []) ++
        attrProblems (attrOf p) ++ (if attrTooLong now (attrOf p) && !pre.any (attrTooLong now) then [NoteId.SET_COOKIE_LIFETIME_TOO_LONG] else []) := rfl
      rw [e]
      simp only [List.append_assoc, List.map_append]

theorem sayIf_list {b : Bool} {r : Report} : sayIf b r = if b then [r] else [] := rfl

theorem prefixes_told (name : Str) (attrs : Attrs) (add : AddNote) : (checkPrefixes name attrs add).notes = ((prefixProblems name attrs).map (cookieNamed name)).map (Report.note add) := by
  have hs : SaysBy add (cookieNamed name) (checkPrefixes name attrs add) := by
    unfold checkPrefixes
    dsimp only
    refine SaysBy.bind (SaysBy.when fun _ => SaysBy.add rfl) fun _ => SaysBy.when fun _ => SaysBy.bind (SaysBy.when fun _ => SaysBy.add rfl) fun _ =>
      SaysBy.bind (SaysBy.when fun _ => SaysBy.add rfl) fun _ => ?_
    induction attrs with
    | nil => exact SaysBy.pure
    | cons p ps ih =>
      unfold W.forEach
      exact SaysBy.bind (SaysBy.when fun _ => SaysBy.add rfl) fun _ => ih
  exact hs.notes (tag_cls (checkPrefixes_does name attrs add).notes)

theorem looseParse_reports (s uriPath : Str) (now : Option Rat) (add : AddNote) :
    (looseParse s uriPath now add).notes = (cookieLineReports now uriPath s).map (Report.note add) := by
  unfold looseParse cookieLineReports
  rw [splitCookie_eq]
  dsimp only
  by_cases h1 : cookieName s = [] ∧ cookieValue s = []
  · rw [if_pos h1, if_pos h1]; rfl
  · rw [if_neg h1, if_neg h1, List.append_assoc, List.append_assoc]
    refine notes_bind_when (notes_bind_when ?_)
    have hl := loop_reports (cookieName s) uriPath now add (cookieAvs (afterC 59 s)) [] [] [] (fun _ => rfl)
    simp only [List.nil_append, ← cookieAttrs_eq, List.any_nil] at hl
    rw [List.map_append]
    cases hu : (cookieAttrs s).any attrUnreadable with
    | true =>
      have hbad := attrLoop_bad (cookieName s) uriPath now add (cookieAvs (afterC 59 s)) [] [] [] (fun _ => rfl) (by
        obtain ⟨a, ha, hu⟩ := List.any_eq_true.1 hu
        rw [cookieAttrs_eq] at ha
        obtain ⟨p, hp, rfl⟩ := List.mem_map.1 ha
        exact ⟨p, hp, hu⟩)
      simp only [List.any_nil] at hbad
      rw [W.bind_err hbad.1]
      rw [if_pos rfl, List.map_nil, List.append_nil]
      exact hl
    | false =>
      have hgood := attrLoop (cookieName s) uriPath now add (cookieAvs (afterC 59 s)) [] [] [] (fun _ => rfl) (by
        intro p hp
        rw [cookieAttrs_eq] at hu
        simpa using List.any_eq_false.1 hu (attrOf p) (List.mem_map.2 ⟨p, hp, rfl⟩))
      simp only [List.any_nil, List.nil_append, ← cookieAttrs_eq] at hgood
      rw [W.bind_ok hgood.res]
      dsimp only
      rw [if_neg (by simp), hl]
      refine congrArg (_ ++ ·) ?_
      rw [hasStr_contains, hasStr_contains, secure_contains, List.append_assoc]
      refine notes_bind_when (notes_bind_when ?_)
      have hp := prefixes_told (cookieName s) ((cookieAttrs s).filterMap (attrRecord uriPath)) add
      rw [W.bind_ok (checkPrefixes_does (cookieName s) ((cookieAttrs s).filterMap (attrRecord uriPath)) add).res, hp]
      exact List.append_nil _

/-! ### clean -/

theorem attrReport_clean (ck now a X) : (attrReport ck now a X).Clean := by
  refine ⟨?_, fun k hk => absurd hk (by simp [attrReport])⟩
  unfold attrReport
  dsimp only
  split <;> (dsimp only [List.map]; decide)

theorem cookieLineReports_clean (now uriPath s) : ∀ r ∈ cookieLineReports now uriPath s, r.Clean := by
  have hn : ∀ ck X, (cookieNamed ck X).Clean := fun ck X => ⟨by simp [cookieNamed], by simp [cookieNamed]⟩
  intro r hr
  unfold cookieLineReports at hr
  dsimp only at hr
  split at hr
  · rw [List.mem_singleton] at hr; subst hr; exact ⟨by simp, by simp⟩
  · rcases List.mem_append.1 hr with hr | hr
    · rcases List.mem_append.1 hr with hr | hr
      · rcases List.mem_append.1 hr with hr | hr
        · obtain ⟨_, rfl⟩ := mem_sayIf.1 hr; exact hn _ _
        · obtain ⟨_, rfl⟩ := mem_sayIf.1 hr; exact ⟨by dsimp only [List.map]; decide, by simp⟩
      · obtain ⟨p, _, hr⟩ := List.mem_flatMap.1 hr
        obtain ⟨X, _, rfl⟩ := List.mem_map.1 hr
        exact attrReport_clean _ _ _ _
    · split at hr
      · exact absurd hr (by simp)
      · rcases List.mem_append.1 hr with hr | hr
        · rcases List.mem_append.1 hr with hr | hr
          · obtain ⟨_, rfl⟩ := mem_sayIf.1 hr; exact hn _ _
          · obtain ⟨_, rfl⟩ := mem_sayIf.1 hr; exact hn _ _
        · obtain ⟨X, _, rfl⟩ := List.mem_map.1 hr
          exact hn _ _

/-- the same classes as `cookieLineNotes` -/
theorem cookieLineReports_cls (now uriPath s) : (cookieLineReports now uriPath s).map (·.cls) = cookieLineNotes now uriPath s := by
  have h1 := looseParse_reports s uriPath now ⟨[], [], []⟩
  have h2 := tag_cls (looseParse_spec s uriPath now ⟨[], [], []⟩).2
  rw [h1, List.map_map] at h2
  rw [← h2]
  apply List.map_congr_left
  intro r _
  show r.cls = (Report.note _ r).cls
  rw [Report.note, foldl_addChild]
  rfl

/-! ### in a section -/

section
variable {env : Env} {related : Option Msg} {t : Bool} {ls : List Line} {m m' : Msg}

theorem brokenLoop_reports {c : Ctx} {u : UrlParts} (hu : c.env.urlsplit c.msg.baseUri = .ok u) (rs : List (Str × Nat)) :
    ∀ (h : Handler) (acc : List Val) (L : List (Str × Report)), h.fid = .set_cookie_ → Each (fun (x : Note) p => Reports x p.1 p.2) h.aux.notes L →
      Each (fun (x : Note) p => Reports x p.1 p.2) (h.brokenLoop c rs acc).1.aux.notes
        (L ++ rs.flatMap fun p => (cookieLineReports c.msg.startTime u.path (strip p.1)).map (offsetSubject p.2, ·)) := by
  induction rs with
  | nil => intro h acc L _ hL; rw [List.flatMap_nil, List.append_nil]; exact hL
  | cons r rs ih =>
    intro h acc L hf hL
    obtain ⟨raw, o⟩ := r
    unfold Handler.brokenLoop
    dsimp only
    have hp : h.parse c (h.offsetAdd c.msg.defaults o) (strip raw) = set_cookie.parse c (h.offsetAdd c.msg.defaults o) h.aux (strip raw) := by
      unfold Handler.parse; rw [hf]
    have h3 := (set_cookie_parse_spec hu (h.offsetAdd c.msg.defaults o) h.aux (strip raw)).2.2
    have h1 : (set_cookie.parse c (h.offsetAdd c.msg.defaults o) h.aux (strip raw)).1.notes =
        h.aux.notes ++ (cookieLineReports c.msg.startTime u.path (strip raw)).map (Report.note (h.offsetAdd c.msg.defaults o)) := by
      unfold set_cookie.parse
      rw [hu]
      exact congrArg (_ ++ ·) (looseParse_reports _ _ _ _)
    have hL' : Each (fun (x : Note) p => Reports x p.1 p.2) (set_cookie.parse c (h.offsetAdd c.msg.defaults o) h.aux (strip raw)).1.notes
        (L ++ (cookieLineReports c.msg.startTime u.path (strip raw)).map (offsetSubject o, ·)) := by
      rw [h1]
      exact hL.append (Each.map fun r hr => Report.note_reports (cookieLineReports_clean _ _ _ r hr) rfl (show ([str "field_name"] : List Str).Nodup by decide))
    rw [hp]
    generalize set_cookie.parse c (h.offsetAdd c.msg.defaults o) h.aux (strip raw) = q at *
    obtain ⟨aux, r⟩ := q
    dsimp only at *
    rw [List.flatMap_cons, ← List.append_assoc]
    cases hr : cookieRecord u.path (strip raw) with
    | some x =>
      rw [hr] at h3
      rw [h3]
      exact ih { h with aux } (acc ++ [x]) _ hf hL'
    | none =>
      rw [hr] at h3
      rw [h3]
      dsimp only
      rw [if_pos (by rfl)]
      exact ih { h with aux } acc _ hf hL'

/-- what `evaluate` finds of the notes of the lines -/
theorem cookie_setup_reports {c : Ctx} {n : Str} {u : UrlParts} (hu : env.urlsplit m.baseUri = .ok u) (hd : During env related t m c)
    (hn : n ∈ namesFor .set_cookie_ ls) :
    Each (fun (x : Note) p => Reports x p.1 p.2) (evalSetup m t c related ls n).2.aux.notes
      ((sent m.kind n ls).flatMap fun p => (cookieLineReports m.startTime u.path (strip p.2)).map (offsetSubject p.1, ·)) := by
  obtain ⟨hn, hc⟩ := mem_namesFor.1 hn
  have hc' : classOf (spelling ls n) = .set_cookie_ := by rw [classOf_spelling hn, hc]
  have hk : (classOf (spelling ls n)).info.kind = .broken := by rw [hc']; rfl
  have haux : (mkHandler (classOf (spelling ls n)) (spelling ls n)).aux = {} := by unfold mkHandler; dsimp only; split <;> rfl
  obtain ⟨d1, d2⟩ := during_same hd
  have hu' : c.env.urlsplit c.msg.baseUri = .ok u := by rw [hd.env, d1, hu]
  have hfid := fed_id ⟨c.env, m, related⟩ (spelling ls n) (sent m.kind n ls)
  have hv := fed_broken (c := ⟨c.env, m, related⟩) hk (sent m.kind n ls)
  unfold evalSetup evalHandler
  dsimp only
  rw [hk]
  dsimp only
  have := brokenLoop_reports hu' ((sent m.kind n ls).map fun p => (p.2, p.1)) (fedLines ⟨c.env, m, related⟩ (spelling ls n) (sent m.kind n ls)) [] [] (by rw [hfid.fid, mkHandler_fid, hc']) (by
    rw [hv]
    dsimp only
    rw [haux]
    exact .nil)
  rw [List.nil_append, List.flatMap_map, d2] at this
  rw [hv] at this ⊢
  exact this

/-- the cookies of a field that are recorded, as they were sent -/
def cookiesKept (ls : List Line) (n : Str) : List Str := ((valuesOf ls n).map strip).filter cookieReadable

theorem kept_names (uriPath : Str) (vs : List Str) :
    (vs.filterMap fun v => cookieRecord uriPath (strip v)).map cookieOf = ((vs.map strip).filter cookieReadable).map fun s =>
      (cookieName s, cookieValue s, (cookieAttrs s).filterMap (attrRecord uriPath)) := by
  induction vs with
  | nil => rfl
  | cons v vs ih =>
    rw [List.filterMap_cons, List.map_cons]
    cases h : cookieReadable (strip v)
    · rw [List.filter_cons_of_neg (by simp [h]), show cookieRecord uriPath (strip v) = none by unfold cookieRecord; rw [h]; rfl]
      exact ih
    · rw [List.filter_cons_of_pos h, List.map_cons, ← ih, cookieRecord, if_pos h]
      dsimp only
      rw [List.map_cons]
      congr 1
      exact congrArg (fun z => (cookieName (strip v), cookieValue (strip v), z)) (attrs_roundtrip _)

theorem dups_ne_nil (names : List Str) : hasDups names = (pySorted strLe (duplicatesOf names) != []) := by
  have hm : ∀ x, x ∈ pySorted strLe (duplicatesOf names) ↔ x ∈ duplicatesOf names := by
    intro x
    have := (pySorted_spec strLe_total (fun a b c => strLe_trans) (duplicatesOf names) [] List.Pairwise.nil).2.1 x
    unfold pySorted
    rw [this]; simp
  rw [Bool.eq_iff_iff, hasDups_iff, bne_iff_ne]
  constructor
  · intro h h0
    apply h
    rw [List.nodup_iff_count]
    intro x
    apply Classical.byContradiction
    intro hc
    have : x ∈ pySorted strLe (duplicatesOf names) := (hm x).2 (((duplicates_list names).2 x).2 (by omega))
    rw [h0] at this
    exact absurd this (by simp)
  · intro h hn
    apply h
    cases hl : pySorted strLe (duplicatesOf names) with
    | nil => rfl
    | cons x l =>
      have : x ∈ duplicatesOf names := (hm x).1 (by rw [hl]; simp)
      have h2 := ((duplicates_list names).2 x).1 this
      have h3 := List.nodup_iff_count.1 hn x
      omega

theorem dups_sorted (names : List Str) : ListsRepeatedSorted names (pySorted strLe (duplicatesOf names)) := by
  obtain ⟨h1, h2, _⟩ := pySorted_spec strLe_total (fun a b c => strLe_trans) (duplicatesOf names) [] List.Pairwise.nil
  refine ⟨h1, pySorted_perm_nodup (duplicates_list names).1, fun x => ?_⟩
  rw [← (duplicates_list names).2 x]
  unfold pySorted
  rw [h2]; simp

theorem cookie_field_notes (add : AddNote) (h : Handler) (uriPath : Str) (vs : List Str) (hv : h.value = .list (vs.filterMap fun v => cookieRecord uriPath (strip v))) :
    (set_cookie.evaluate add h).notes =
      (cookieFieldReports ((vs.map strip).filter cookieReadable) (pySorted strLe (duplicatesOf (((vs.map strip).filter cookieReadable).map cookieName)))).map (Report.note add) ++ h.aux.notes := by
  unfold set_cookie.evaluate cookieFieldReports
  rw [hv, W.bind_ok (a := vs.filterMap fun v => cookieRecord uriPath (strip v)) rfl]
  dsimp only
  show [] ++ _ = _
  rw [List.nil_append, kept_names]
  generalize (vs.map strip).filter cookieReadable = cs
  rw [List.map_map, List.filter_map, List.map_map, isEmpty_bne]
  have e1 : (((fun x : Str × Str × Attrs => x.1) ∘ fun s => (cookieName s, cookieValue s, (cookieAttrs s).filterMap (attrRecord uriPath))) : Str → Str) = cookieName := rfl
  have e2 : ((fun ck : Str × Str × Attrs => isHardened ck.2.2) ∘ fun s => (cookieName s, cookieValue s, (cookieAttrs s).filterMap (attrRecord uriPath))) = hardened := by
    funext s; exact hardened_eq _ _
  rw [e1, e2, dups_ne_nil]
  have h1 : ∀ (b : Bool) X vrs, Told add (W.when b (add.add X vrs)) (sayIf b ⟨X, vrs, []⟩) () := fun _ _ _ => .when
  rw [W.bind_ok (h1 _ _ _).res]
  dsimp only
  rw [W.bind_ok (h1 _ _ _).res]
  dsimp only
  rw [(h1 _ _ _).notes, (h1 _ _ _).notes, List.map_append, List.append_assoc]

/-- the notes of these classes a section adds, when only `evaluate` of one class uses them -/
theorem evals_among {Xs : List NoteId} {f : FieldId} (hX : EvalAmong Xs [f]) (P : Processed env related t ls m m') (hv : f.validIn m.kind = true) :
    ∃ (added : List Note) (ctx : Str → Ctx), m'.notes = m.notes ++ added ∧ (∀ n ∈ namesOf ls, During env related t m (ctx n)) ∧
      amongClass Xs added = (namesFor f ls).flatMap fun n =>
        amongClass Xs (evalNotes (ctx n) (evalSetup m t (ctx n) related ls n).1 (evalSetup m t (ctx n) related ls n).2) := by
  obtain ⟨added, lines, fin, ctx, e, hd, ha, hl, hf, _⟩ := section_pieces P.linting P.new P.ok
  refine ⟨added, ctx, e, fun n hn => (hd n hn).1, ?_⟩
  have hnil : ∀ {ns : List Note} {ps : List Snippet}, ParsedNotes ⟨env, m, related⟩ ns ps → amongClass Xs ns = [] := by
    intro ns ps h
    have := (parsed_reports (Xs := Xs) (fun _ => []) (fun _ _ _ hr => absurd hr (by simp)) (fun p _ add hd _ => parse_among (hX.parse _)) h).length
    rw [← List.length_eq_zero_iff, this, List.length_eq_zero_iff, List.flatMap_eq_nil_iff]
    exact fun _ _ => rfl
  have h2 : amongClass Xs ((namesOf ls).flatMap fin) = (namesOf ls).flatMap fun n => amongClass Xs (fin n) := List.filter_flatMap ..
  rw [among_isField hX.origin, ha, amongClass_append, hnil hl, List.nil_append, h2]
  unfold namesFor
  rw [flatMap_filter_if]
  apply flatMap_congr_mem
  intro n hn
  have hfn := hf n hn
  have hknown : f ≠ .unknownField := fun e => hX.known (by simp [e])
  by_cases hc : classOf n = f
  · rw [if_pos (by rw [okName_class hc hknown]; exact hv)] at hfn
    obtain ⟨pre, e1, e2, _⟩ := hfn
    rw [e1, amongClass_append, hnil e2, List.nil_append, if_pos (decide_eq_true hc)]
  · rw [if_neg (by simpa using hc)]
    by_cases hok : okName m.kind n = true
    · rw [if_pos hok] at hfn
      obtain ⟨pre, e1, e2, _⟩ := hfn
      rw [e1, amongClass_append, hnil e2, List.nil_append]
      unfold evalNotes
      split
      · rfl
      · refine evaluate_among (setup_aux hn rfl) (hX.evaluate _ ?_)
        rw [evalSetup_fid hn]
        simpa using hc
    · rw [if_neg hok] at hfn
      rw [hfn]; rfl

/-- the classes of note `Set-Cookie` uses -/
def cookieClasses : List NoteId := .SET_COOKIE_NAME_DUP :: .SET_COOKIE_HARDENED :: cookieNotes

theorem line_classes (now uriPath s) : ∀ r ∈ cookieLineReports now uriPath s, cookieClasses.contains r.cls = true := by
  intro r hr
  have : r.cls ∈ cookieLineNotes now uriPath s := by rw [← cookieLineReports_cls]; exact List.mem_map.2 ⟨r, hr, rfl⟩
  rw [List.contains_iff_mem]
  exact List.mem_cons_of_mem _ (List.mem_cons_of_mem _ (cookieLineNotes_class _ _ _ _ this))

theorem each_among {Xs : List NoteId} {ns : List Note} {L : List (Str × Report)} (h : Each (fun (x : Note) p => Reports x p.1 p.2) ns L)
    (hX : ∀ p ∈ L, Xs.contains p.2.cls = true) : Each (fun (x : Note) p => Reports x p.1 p.2) (amongClass Xs ns) L := by
  induction h with
  | nil => exact .nil
  | @cons a b as bs h _ ih =>
    unfold amongClass
    rw [List.filter_cons_of_pos (by rw [h.cls]; exact hX b (by simp))]
    exact .cons h (ih fun p hp => hX p (by simp [hp]))

theorem fieldReports_clean (cs rep : List Str) : ∀ r ∈ cookieFieldReports cs rep, r.Clean ∧ cookieClasses.contains r.cls = true := by
  intro r hr
  unfold cookieFieldReports at hr
  dsimp only at hr
  simp only [List.mem_append, mem_sayIf] at hr
  rcases hr with ⟨_, rfl⟩ | ⟨_, rfl⟩ <;> exact ⟨⟨by simp, by simp⟩, rfl⟩

/-- **C60** (notes in full) in a response each `Set-Cookie` field is reported on as a whole — the names of the cookies that are repeated, in alphabetical order, and
of those that are hardened — and then line by line; each note on a line says which cookie it is on, with the attribute and value or date at fault -/
theorem C60_report (P : Processed env related t ls m m') (hk : m.kind = .response) {u : UrlParts} (hurl : env.urlsplit m.baseUri = .ok u) :
    ∃ rep : Str → List Str, (∀ n, ListsRepeatedSorted ((cookiesKept ls n).map cookieName) (rep n)) ∧
    Reported cookieClasses m m' ((namesFor .set_cookie_ ls).flatMap fun n =>
      (cookieFieldReports (cookiesKept ls n) (rep n)).map (fieldSubject n, ·) ++
      (sent m.kind n ls).flatMap fun p => (cookieLineReports m.startTime u.path (strip p.2)).map (offsetSubject p.1, ·)) := by
  refine ⟨fun n => pySorted strLe (duplicatesOf ((cookiesKept ls n).map cookieName)), fun n => dups_sorted _, ?_⟩
  have hX : EvalAmong cookieClasses [.set_cookie_] := by eval_among
  obtain ⟨added, ctx, e, hd, h⟩ := evals_among hX P (by rw [hk]; rfl)
  refine ⟨added, e, ?_⟩
  show Each _ (amongClass cookieClasses added) _
  rw [h]
  apply Each.flatMap
  intro n hn
  have hn' := (mem_namesFor.1 hn).1
  have hdn := hd n hn'
  obtain ⟨_, a2, a3⟩ := cookie_setup (t := t) hurl hdn hn
  have aux := cookie_setup_reports (t := t) hurl hdn hn
  have hsub := evalSetup_subject (t := t) (m := m) (related := related) (c := ctx n) hn'
  unfold evalNotes
  rw [if_neg (by rw [a2]; simp)]
  have he : ((evalSetup m t (ctx n) related ls n).2.evaluate (ctx n) (evalSetup m t (ctx n) related ls n).1).2 =
      set_cookie.evaluate (evalSetup m t (ctx n) related ls n).1 (evalSetup m t (ctx n) related ls n).2 := by
    unfold Handler.evaluate; rw [a3]; rfl
  rw [he, cookie_field_notes _ _ _ _ a2]
  refine each_among (Each.append (Each.map fun r hr => Report.note_reports (fieldReports_clean _ _ r hr).1 hsub
    (show ([str "field_name", str "field_type"] : List Str).Nodup by decide)) aux) ?_
  intro p hp
  rcases List.mem_append.1 hp with hp | hp
  · obtain ⟨r, hr, rfl⟩ := List.mem_map.1 hp
    exact (fieldReports_clean _ _ r hr).2
  · obtain ⟨q, _, hp⟩ := List.mem_flatMap.1 hp
    obtain ⟨r, hr, rfl⟩ := List.mem_map.1 hp
    exact line_classes _ _ _ r hr

end

/-- non-vacuity: two lines with the same cookie, one with bad attributes -/
example : let ls : List Line := [(str "Set-Cookie", str "a=b; Foo=1; Max-Age=01; max-age=9"), (str "set-cookie", str "a=c; SameSite=None; Priority=odd")]
    let r := processSection toyEnv none false ls (fresh toyEnv .response none false false)
    r.2 = .ok () ∧ cookiesKept ls (str "set-cookie") = [str "a=b; Foo=1; Max-Age=01; max-age=9", str "a=c; SameSite=None; Priority=odd"] ∧
    r.1.notes.map (fun x => (x.cls, dget x.vars (str "cookie_name"), dget x.vars (str "attribute"))) =
      [(.SET_COOKIE_NAME_DUP, none, none), (.SET_COOKIE_UNKNOWN_ATTRIBUTE, some (.str (str "a")), some (.str (str "Foo"))),
       (.SET_COOKIE_LEADING_ZERO_MAX_AGE, some (.str (str "a")), none), (.SET_COOKIE_ATTRIBUTE_DUP, some (.str (str "a")), some (.str (str "max-age"))),
       (.SET_COOKIE_PRIORITY, some (.str (str "a")), none), (.SET_COOKIE_NOT_SECURE, some (.str (str "a")), none)] := by
  decide +kernel

end HL.Props
