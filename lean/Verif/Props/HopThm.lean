import Verif.Props.PolicyThm

/-!
# Fields about the way a message travels: Expect, Max-Forwards, Via, Pragma, Content-Language, Server, Accept-Ranges, Location (C78, C79)
-/

namespace HL.Props
open HL.F Syntax

section
variable {env : Env} {related : Option Msg} {t : Bool} {ls : List Line} {m m' : Msg}

/-- what stays the same while a section is processed -/
theorem during_frame {c : Ctx} (hd : During env related t m c) :
    c.msg.version = m.version ∧ c.msg.method = m.method ∧ c.msg.statusCode = m.statusCode ∧ c.msg.uri = m.uri := by
  obtain ⟨ns, s, e⟩ := hd.ext
  rw [e]; cases t <;> exact ⟨rfl, rfl, rfl, rfl⟩

/-- a field whose value is a list of strings, reports on the whole -/
theorem Processed.strings_reports (P : Processed env related t ls m m') {Xs : List NoteId} {f : FieldId} (hX : EvalAmong Xs [f]) (hk : f.info.kind = .list)
    (hv : f.validIn m.kind = true) (norm : Str → Str) (hg : ∀ x, parseText ⟨env, m, related⟩ f x = .ok (.str (norm x))) (g : List Str → List Report)
    (hcl : ∀ es, ∀ r ∈ g es, r.Clean ∧ Xs.contains r.cls = true)
    (hs : ∀ (c : Ctx) (add : AddNote) (hd : Handler) es, During env related t m c → hd.fid = f → hd.value = .list (es.map .str) → Told add (hd.evaluate c add).2 (g es) ()) :
    Reported Xs m m' ((namesFor f ls).flatMap fun n => (g ((elementsOf ls n).map norm)).map (fieldSubject n, ·)) := by
  have hval : ∀ n, valueOf env related m f ls n = .list (((elementsOf ls n).map norm).map .str) := by
    intro n
    rw [valueOf_list hk _ hg]
    unfold elementsOf
    rw [List.map_map, List.map_map]
    rfl
  refine P.full_reports hX hv (fun n _ => by rw [hval]; simp) (fun n => g ((elementsOf ls n).map norm)) (fun n => hcl _) ?_
  intro c add hd n _ hdur _ _ hf hvv
  exact (hs c add hd _ hdur hf (hvv.trans (hval n))).notes

end

/-! ### Expect -/

/-- what is reported on a list of expectations: that HTTP/1.0 has none, and those that are not `100-continue` -/
def expectReports (version : Str) (es : List Str) : List Report :=
  let unknown := es.filter fun e => lower e != str "100-continue"
  sayIf (version == str "1.0") { cls := .EXPECT_HTTP_1_0 } ++
  sayIf (unknown != []) { cls := .EXPECT_UNKNOWN, vars := [(str "expectation", .str (join (str ", ") unknown))] }

/-- what is reported on `Via`: the list of intermediaries -/
def viaReports (es : List Str) : List Report :=
  [{ cls := .VIA_PRESENT, vars := [(str "via_list", .str (str "<ul>" ++ join [10] (es.map fun v => str "<li><code>" ++ v ++ str "</code></li>") ++ str "</ul>"))] }]

/-- what is reported on `Pragma` -/
def pragmaReports (es : List Str) : List Report := sayIf (es.any (· != str "no-cache")) { cls := .PRAGMA_OTHER }

/-- `l` lists the elements given more than once, each once -/
def ListsRepeated (es l : List Str) : Prop := l.Nodup ∧ ∀ x, x ∈ l ↔ 2 ≤ es.count x

/-- what is reported on `Content-Language`, given those that are repeated -/
def languageReports (rep : List Str) : List Report := rep.map fun l => { cls := .CONTENT_LANGUAGE_DUP, vars := [(str "lang", .str l)] }

theorem duplicates_list (es : List Str) : ListsRepeated es (duplicatesOf es) := by
  refine ⟨dedup_nodup _, fun x => ?_⟩
  unfold duplicatesOf
  rw [mem_dedup, List.mem_filter, decide_eq_true_iff]
  refine ⟨fun h => h.2, fun h => ⟨?_, h⟩⟩
  rw [← List.count_pos_iff]
  omega

theorem isEmpty_bne {α} [BEq α] [LawfulBEq α] (l : List α) : (!l.isEmpty) = (l != []) := by cases l <;> simp

theorem expect_told {c : Ctx} (add : AddNote) (hd : Handler) (es : List Str) (hv : hd.value = .list (es.map .str)) :
    Told add (expect.evaluate c add hd) (expectReports c.msg.version es) () := by
  unfold expect.evaluate expectReports
  refine Told.bind (a := ()) .when (Told.of (Told.bind (a := es.map Val.str) (l := []) (.lift (by rw [hv]; rfl)) ?_) (List.nil_append _))
  dsimp only
  rw [asStr_map, isEmpty_bne]
  exact .when

theorem via_told (add : AddNote) (hd : Handler) (es : List Str) (hv : hd.value = .list (es.map .str)) : Told add (via.evaluate add hd) (viaReports es) () := by
  unfold via.evaluate viaReports
  refine Told.of (Told.bind (a := es.map Val.str) (l := []) (.lift (by rw [hv]; rfl)) ?_) (List.nil_append _)
  rw [List.map_map]
  exact .add

theorem pragma_told (add : AddNote) (hd : Handler) (es : List Str) (hv : hd.value = .list (es.map .str)) : Told add (pragma.evaluate add hd) (pragmaReports es) () := by
  unfold pragma.evaluate pragmaReports
  refine Told.of (Told.bind (a := es.map Val.str) (l := []) (.lift (by rw [hv]; rfl)) ?_) (List.nil_append _)
  rw [List.any_map]
  exact .when

theorem language_told (add : AddNote) (hd : Handler) (es : List Str) (hv : hd.value = .list (es.map .str)) :
    Told add (content_language.evaluate add hd) (languageReports (duplicatesOf es)) () := by
  unfold content_language.evaluate languageReports
  refine Told.of (Told.bind (a := es.map Val.str) (l := []) (.lift (by rw [hv]; rfl)) ?_) (List.nil_append _)
  rw [asStr_map]
  refine (Told.forEach (g := fun l => [⟨.CONTENT_LANGUAGE_DUP, [(str "lang", .str l)], []⟩]) fun _ _ => .add).of ?_
  rw [List.map_eq_flatMap]

/-! ### Server, Accept-Ranges, Location -/

/-- what is reported on an element of `Server`: that it is long -/
def serverReports (v : Str) : List Report :=
  sayIf (decide (64 < v.length)) { cls := .SERVER_TOO_LONG, vars := [(str "server_string", .str v), (str "server_length", .str (commaNum v.length ++ str " bytes"))] }

/-- what is reported on an element of `Accept-Ranges`: that it is no known range unit, in any case -/
def rangeUnitReports (v : Str) : List Report :=
  sayIf (lower v != str "bytes" && lower v != str "none") { cls := .UNKNOWN_RANGE, vars := [(str "range", .str (lower v))] }

/-- the statuses whose semantics use `Location` -/
def locationStatuses : List Int := [201, 300, 301, 302, 303, 305, 307, 308]

/-- what is reported on `Location` -/
def locationReports (env : Env) (base : Str) (status : Option Int) (v : Str) : List Report :=
  sayIf (status.all fun s => !locationStatuses.contains s) { cls := .LOCATION_UNDEFINED } ++
  if rfc3986.URI.spaced false v then []
  else match env.urljoin base v with
    | .ok u => [{ cls := .LOCATION_NOT_ABSOLUTE, vars := [(str "full_uri", .str u)] }]
    | .error _ => []

section
variable {env : Env} {related : Option Msg} {t : Bool} {ls : List Line} {m m' : Msg}

/-- **C78** (Expect) in a request, each `Expect` is reported on as its expectations deserve -/
theorem C78_expect (P : Processed env related t ls m m') (hk : m.kind = .request) :
    Reported [.EXPECT_HTTP_1_0, .EXPECT_UNKNOWN] m m' ((namesFor .expect_ ls).flatMap fun n => (expectReports m.version (elementsOf ls n)).map (fieldSubject n, ·)) := by
  have := P.strings_reports (Xs := [.EXPECT_HTTP_1_0, .EXPECT_UNKNOWN]) (f := .expect_) (by eval_among) rfl (by rw [hk]; rfl) id (fun _ => rfl) (expectReports m.version)
    (by
      intro es r hr
      unfold expectReports at hr
      simp only [List.mem_append, mem_sayIf] at hr
      rcases hr with ⟨_, rfl⟩ | ⟨_, rfl⟩ <;> exact ⟨⟨by simp, by simp⟩, rfl⟩)
    (by
      intro c add hd es hdur hf hv
      unfold Handler.evaluate
      rw [hf, ← (during_frame hdur).1]
      exact expect_told add hd es hv)
  simpa using this

/-- **C78** (Via) each `Via` is described, with its intermediaries in order -/
theorem C78_via (P : Processed env related t ls m m') :
    Reported [.VIA_PRESENT] m m' ((namesFor .via_ ls).flatMap fun n => (viaReports (elementsOf ls n)).map (fieldSubject n, ·)) := by
  have := P.strings_reports (Xs := [.VIA_PRESENT]) (f := .via_) (by eval_among) rfl (by cases m.kind <;> rfl) id (fun _ => rfl) viaReports
    (by
      intro es r hr
      unfold viaReports at hr
      rw [List.mem_singleton] at hr
      subst hr
      exact ⟨⟨by simp, by simp⟩, rfl⟩)
    (by
      intro c add hd es _ hf hv
      unfold Handler.evaluate
      rw [hf]
      exact via_told add hd es hv)
  simpa using this

/-- **C78** (Pragma) in a request, a `Pragma` is called out exactly when it has a directive other than `no-cache` (in any case) -/
theorem C78_pragma (P : Processed env related t ls m m') (hk : m.kind = .request) :
    Reported [.PRAGMA_OTHER] m m' ((namesFor .pragma_ ls).flatMap fun n => (pragmaReports (lowerElements ls n)).map (fieldSubject n, ·)) := by
  refine P.strings_reports (Xs := [.PRAGMA_OTHER]) (f := .pragma_) (by eval_among) rfl (by rw [hk]; rfl) lower (fun _ => rfl) pragmaReports
    (by
      intro es r hr
      obtain ⟨_, rfl⟩ := mem_sayIf.1 hr
      exact ⟨⟨by simp, by simp⟩, rfl⟩)
    (by
      intro c add hd es _ hf hv
      unfold Handler.evaluate
      rw [hf]
      exact pragma_told add hd es hv)

/-- **C78** (Max-Forwards) in a request, `Max-Forwards` is said to be ignored exactly when the method is neither `TRACE` nor `OPTIONS` -/
theorem C78_max_forwards (P : Processed env related t ls m m') (hk : m.kind = .request) :
    Reported [.MAX_FORWARDS_IGNORED] m m' ((namesFor .max_forwards_ ls).flatMap fun n =>
      (sayIf (m.method != some (str "TRACE") && m.method != some (str "OPTIONS")) { cls := .MAX_FORWARDS_IGNORED }).map (fieldSubject n, ·)) := by
  have hval : ∀ n ∈ namesFor .max_forwards_ ls, valueOf env related m .max_forwards_ ls n = .str (textOf ls n) :=
    fun n hn => singleton_value rfl n (mem_namesFor.1 hn).1
  refine P.full_reports (by eval_among) (by rw [hk]; rfl) (fun n hn => by rw [hval n hn]; simp) _ (fun n r hr => ?_) ?_
  · obtain ⟨_, rfl⟩ := mem_sayIf.1 hr
    exact ⟨⟨by simp, by simp⟩, rfl⟩
  · intro c add hd n hn hdur _ _ hf hv
    unfold Handler.evaluate
    rw [hf, ← (during_frame hdur).2.1]
    refine (Told.of (Told.when (b := !(c.msg.method == some (str "TRACE") || c.msg.method == some (str "OPTIONS")))) ?_).notes
    rw [Bool.not_or]; rfl

/-- **C78** (Content-Language) exactly the languages given more than once (in any case) are reported, once each, on the field -/
theorem C78_content_language (P : Processed env related t ls m m') :
    ∃ rep : Str → List Str, (∀ n, ListsRepeated (lowerElements ls n) (rep n)) ∧
      Reported [.CONTENT_LANGUAGE_DUP] m m' ((namesFor .content_language_ ls).flatMap fun n => (languageReports (rep n)).map (fieldSubject n, ·)) := by
  refine ⟨fun n => duplicatesOf (lowerElements ls n), fun n => duplicates_list _, ?_⟩
  refine P.strings_reports (Xs := [.CONTENT_LANGUAGE_DUP]) (f := .content_language_) (by eval_among) rfl (by cases m.kind <;> rfl) lower (fun _ => rfl)
    (fun es => languageReports (duplicatesOf es))
    (by
      intro es r hr
      obtain ⟨l, _, rfl⟩ := List.mem_map.1 hr
      exact ⟨⟨by simp, by simp⟩, rfl⟩)
    (by
      intro c add hd es _ hf hv
      unfold Handler.evaluate
      rw [hf]
      exact language_told add hd es hv)

/-- a list field on whose value as a whole nothing is reported -/
theorem Processed.elements_reports (P : Processed env related t ls m m') {Xs : List NoteId} {f : FieldId} (hX : Only Xs [f]) (hk : f.info.kind = .list)
    (hv : f.validIn m.kind = true) (hev : ∀ (c : Ctx) (add : AddNote) (hd : Handler), hd.fid = f → amongClass Xs (hd.evaluate c add).2.notes = [])
    (g : Str → List Report) (hcl : ∀ e, ∀ r ∈ g e, r.Clean)
    (hs : ∀ (add : AddNote) (hd : Handler) v, hd.fid = f → amongClass Xs (hd.parse ⟨env, m, related⟩ add v).2.notes = (g v).map (Report.note add)) :
    Reported Xs m m' ((linesFor m.kind f ls).flatMap fun p => (lineElements p.2.2).flatMap fun e => (g e).map (offsetSubject p.1, ·)) := by
  have := P.list_reports hX hk hv g (fun _ => []) hcl (fun _ _ _ h => absurd h (by simp)) hs (fun c add hd n hn _ _ _ hf _ => hev c add hd hf)
  refine this.congr ?_
  simp

/-- **C78** (Server) each element of `Server` that is longer than 64 characters is reported, with its length, at its line -/
theorem C78_server (P : Processed env related t ls m m') (hk : m.kind = .response) :
    Reported [.SERVER_TOO_LONG] m m' ((linesFor m.kind .server_ ls).flatMap fun p => (lineElements p.2.2).flatMap fun e => (serverReports e).map (offsetSubject p.1, ·)) := by
  have hcl : ∀ e, ∀ r ∈ serverReports e, r.Clean ∧ r.cls = .SERVER_TOO_LONG := by
    intro e r hr
    obtain ⟨_, rfl⟩ := mem_sayIf.1 hr
    exact ⟨⟨show ([str "server_string", str "server_length"] : List Str).Nodup by decide, by simp⟩, rfl⟩
  refine P.elements_reports (Xs := [.SERVER_TOO_LONG]) (f := .server_) (by only_these) rfl (by rw [hk]; rfl) ?_ serverReports (fun e r hr => (hcl e r hr).1) ?_
  · intro c add hd hf; unfold Handler.evaluate; rw [hf]; rfl
  · intro add hd v hf
    unfold Handler.parse
    rw [hf]
    refine Told.among (a := Val.str v) ?_ (fun r hr => by rw [(hcl v r hr).2]; rfl)
    exact Told.of (Told.bind (a := ()) .when .pure) (by rw [List.append_nil]; rfl)

/-- **C78** (Accept-Ranges) each element of `Accept-Ranges` other than `bytes` and `none`, in any case, is reported at its line -/
theorem C78_accept_ranges (P : Processed env related t ls m m') (hk : m.kind = .response) :
    Reported [.UNKNOWN_RANGE] m m' ((linesFor m.kind .accept_ranges_ ls).flatMap fun p => (lineElements p.2.2).flatMap fun e => (rangeUnitReports e).map (offsetSubject p.1, ·)) := by
  have hcl : ∀ e, ∀ r ∈ rangeUnitReports e, r.Clean ∧ r.cls = .UNKNOWN_RANGE := by
    intro e r hr
    obtain ⟨_, rfl⟩ := mem_sayIf.1 hr
    exact ⟨⟨by simp, by simp⟩, rfl⟩
  refine P.elements_reports (Xs := [.UNKNOWN_RANGE]) (f := .accept_ranges_) (by only_these) rfl (by rw [hk]; rfl) ?_ rangeUnitReports (fun e r hr => (hcl e r hr).1) ?_
  · intro c add hd hf; unfold Handler.evaluate; rw [hf]; rfl
  · intro add hd v hf
    unfold Handler.parse
    rw [hf]
    refine Told.among (a := Val.str (lower v)) ?_ (fun r hr => by rw [(hcl v r hr).2]; rfl)
    refine Told.of (Told.bind (a := ()) .when .pure) ?_
    rw [List.append_nil]
    unfold rangeUnitReports
    congr 1
    by_cases h1 : lower v = str "bytes"
    · rw [h1]; rfl
    · by_cases h2 : lower v = str "none"
      · rw [h2]; rfl
      · simp [h1, h2, bne]

/-- **C79** in a response, `Location` is called undefined exactly when the status gives it no meaning, and the absolute form is
given exactly when it is not an absolute URI (and can be resolved) -/
theorem C79_location (P : Processed env related t ls m m') (hk : m.kind = .response) :
    Reported [.LOCATION_UNDEFINED, .LOCATION_NOT_ABSOLUTE] m m' ((namesFor .location_ ls).flatMap fun n =>
      (locationReports env m.baseUri m.statusCode (textOf ls n)).map (fieldSubject n, ·)) := by
  have hcl : ∀ v, ∀ r ∈ locationReports env m.baseUri m.statusCode v, r.Clean ∧ ([.LOCATION_UNDEFINED, .LOCATION_NOT_ABSOLUTE] : List NoteId).contains r.cls = true := by
    intro v r hr
    unfold locationReports at hr
    rcases List.mem_append.1 hr with hr | hr
    · obtain ⟨_, rfl⟩ := mem_sayIf.1 hr
      exact ⟨⟨by simp, by simp⟩, rfl⟩
    · split at hr
      · exact absurd hr (by simp)
      · split at hr
        · rw [List.mem_singleton] at hr; subst hr; exact ⟨⟨by simp, by simp⟩, rfl⟩
        · exact absurd hr (by simp)
  have := P.text_reports (Xs := [.LOCATION_UNDEFINED, .LOCATION_NOT_ABSOLUTE]) (f := .location_) (by only_these) rfl (by rw [hk]; rfl)
    (locationReports env m.baseUri m.statusCode) (fun _ => []) (fun v r hr => (hcl v r hr).1) (fun _ _ _ h => absurd h (by simp)) ?_ ?_
  · refine this.congr (flatMap_congr' fun n _ => ?_)
    rw [ite_self, List.append_nil]
  · intro add hd v hf
    unfold Handler.parse
    rw [hf]
    show amongClass _ (location.parse ⟨env, m, related⟩ add v).notes = _
    have e : location.parse ⟨env, m, related⟩ add v = (W.when (m.statusCode.all fun s => !locationStatuses.contains s) (add.add .LOCATION_UNDEFINED) >>= fun _ =>
        if rfc3986.URI.spaced false v then return .str v
        else do
          let u ← W.lift (env.urljoin m.baseUri v)
          add.add .LOCATION_NOT_ABSOLUTE [(str "full_uri", .str u)]
          return .str v) := by
      unfold location.parse
      dsimp only
      rw [hk]
      cases m.statusCode <;> rfl
    have key : (location.parse ⟨env, m, related⟩ add v).notes = (locationReports env m.baseUri m.statusCode v).map (Report.note add) := by
      unfold locationReports
      rw [e, W.bind_ok (a := ()) (Told.when (add := add)).res, Told.when.notes, List.map_append]
      congr 1
      split
      · rfl
      · cases env.urljoin m.baseUri v <;> rfl
    rw [key]
    unfold amongClass
    rw [List.filter_eq_self]
    intro x hx
    obtain ⟨r, hr, rfl⟩ := List.mem_map.1 hx
    unfold Report.note
    rw [foldl_addChild]
    exact (hcl v r hr).2
  · intro c add hd n _ _ _ _ _ hf _
    unfold Handler.evaluate
    rw [hf]
    rfl

end

end HL.Props
