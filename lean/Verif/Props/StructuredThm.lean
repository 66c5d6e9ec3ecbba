import Verif.Props.ServiceThm
import Verif.Props.EvalTotal

/-!
# Structured fields, in full (C88, C89, C90)

Reporting-Endpoints, Speculation-Rules, Accept-CH, Accept-Query, Available-Dictionary, Use-As-Dictionary, Cache-Groups,
Cache-Group-Invalidation, CDN-Cache-Control, Deprecation, Sunset.
-/

namespace HL.Props
open HL.F Syntax

/-! ### what the text of a structured field parses to -/

/-- the text of a structured field: its lines, joined -/
def combined (ls : List Line) (n : Str) : Str := strip (join (str ", ") (valuesOf ls n))

/-- a Structured List: its members, each with its parameters -/
def listOf (env : Env) (ls : List Line) (n : Str) : Option (List (Val × Val)) :=
  match env.sfParse (str "list") (combined ls n) with
  | .ok (.list xs) _ => some (xs.filterMap fun x => match x with | .tuple [v, p] => some (v, p) | _ => none)
  | _ => none

/-- a Structured Dictionary: its members by name, each with its parameters -/
def dictOf (env : Env) (ls : List Line) (n : Str) : Option (List (Str × Val × Val)) :=
  match env.sfParse (str "dictionary") (combined ls n) with
  | .ok (.dict xs) _ => some (xs.filterMap fun x => match x with | .tuple [.str k, .tuple [v, p]] => some (k, v, p) | _ => none)
  | _ => none

/-- as the parser returns them -/
def ofMembers (l : List (Val × Val)) : Val := .list (l.map fun p => .tuple [p.1, p.2])
/-- as the parser returns them -/
def ofEntries (l : List (Str × Val × Val)) : Val := .dict (l.map fun p => .tuple [.str p.1, .tuple [p.2.1, p.2.2]])

/-- the parser of Structured Fields returns a list of pairs for Lists -/
def ListShape (env : Env) : Prop := ∀ s v dups, env.sfParse (str "list") s = .ok v dups → ∃ l, v = ofMembers l
/-- the parser of Structured Fields returns named pairs for Dictionaries -/
def DictShape (env : Env) : Prop := ∀ s v dups, env.sfParse (str "dictionary") s = .ok v dups → ∃ l, v = ofEntries l

theorem Contract.lists {env : Env} (h : Contract env) : ListShape env := by
  intro s v dups e
  obtain ⟨l, rfl, hl⟩ := shape_list (h.sfParse _ _ _ _ e)
  refine ⟨l.filterMap fun x => match x with | .tuple [v, p] => some (v, p) | _ => none, ?_⟩
  unfold ofMembers
  congr 1
  clear e
  induction l with
  | nil => rfl
  | cons x l ih =>
    obtain ⟨a, p, rfl, _⟩ := hl x (by simp)
    exact congrArg _ (ih fun y hy => hl y (by simp [hy]))

theorem Contract.dicts {env : Env} (h : Contract env) : DictShape env := by
  intro s v dups e
  obtain ⟨l, rfl, hl⟩ := shape_dict (h.sfParse _ _ _ _ e)
  refine ⟨l.filterMap fun x => match x.2 with | .tuple [v, p] => some (x.1, v, p) | _ => none, ?_⟩
  unfold ofEntries
  congr 1
  clear e
  induction l with
  | nil => rfl
  | cons x l ih =>
    obtain ⟨k, x⟩ := x
    obtain ⟨a, p, rfl, _⟩ := hl _ (show (k, x) ∈ (k, x) :: l by simp)
    exact congrArg _ (ih fun y hy => hl y (by simp [hy]))

theorem Contract.itemShape {env : Env} (h : Contract env) : ItemShape env := by
  intro s v dups e
  obtain ⟨a, p, rfl, _⟩ := shape_item (h.sfParse _ _ _ _ e)
  exact ⟨a, p, rfl⟩

theorem filterMap_members (l : List (Val × Val)) :
    ((l.map fun p => Val.tuple [p.1, p.2]).filterMap fun x => match x with | .tuple [v, p] => some (v, p) | _ => none) = l := by
  induction l with
  | nil => rfl
  | cons x l ih => exact congrArg (x :: ·) ih

theorem filterMap_entries (l : List (Str × Val × Val)) :
    ((l.map fun p => Val.tuple [.str p.1, .tuple [p.2.1, p.2.2]]).filterMap fun x => match x with | .tuple [.str k, .tuple [v, p]] => some (k, v, p) | _ => none) = l := by
  induction l with
  | nil => rfl
  | cons x l ih => exact congrArg (x :: ·) ih

theorem items_entries (l : List (Str × Val × Val)) : (ofEntries l).items = .ok (l.map fun p => (.str p.1, .tuple [p.2.1, p.2.2])) := by
  show Except.ok _ = _
  congr 1
  induction l with
  | nil => rfl
  | cons p l ih => exact congrArg _ ih

/-- what is reported on a field that could be parsed -/
def onParsed {α} (o : Option α) (g : α → List Report) : List Report := match o with | some a => g a | none => []

section
variable {env : Env} {related : Option Msg} {t : Bool} {ls : List Line} {m m' : Msg}

theorem list_value {f : FieldId} (hk : f.info.kind = .sf (str "list")) (hi : ListShape env) (n : Str) :
    valueOf env related m f ls n = (match listOf env ls n with | some l => ofMembers l | none => .none) := by
  unfold valueOf lineValue listOf combined
  rw [hk]
  dsimp only
  generalize hp : env.sfParse (str "list") (strip (join (str ", ") (valuesOf ls n))) = r
  cases r with
  | ok v dups =>
    obtain ⟨l, rfl⟩ := hi _ _ _ hp
    show ofMembers l = ofMembers _
    congr 1
    exact (filterMap_members l).symm
  | _ => rfl

theorem dict_value {f : FieldId} (hk : f.info.kind = .sf (str "dictionary")) (hi : DictShape env) (n : Str) :
    valueOf env related m f ls n = (match dictOf env ls n with | some l => ofEntries l | none => .none) := by
  unfold valueOf lineValue dictOf combined
  rw [hk]
  dsimp only
  generalize hp : env.sfParse (str "dictionary") (strip (join (str ", ") (valuesOf ls n))) = r
  cases r with
  | ok v dups =>
    obtain ⟨l, rfl⟩ := hi _ _ _ hp
    show ofEntries l = ofEntries _
    congr 1
    exact (filterMap_entries l).symm
  | _ => rfl

/-- a field, in full, from what its `evaluate` reports on a value, given what it can see of the others.  (It has returned, as the
section was processed.) -/
theorem Processed.seen_tells {α} (P : Processed env related t ls m m') {Xs : List NoteId} {f : FieldId} (hX : EvalAmong Xs [f]) (hv : f.validIn m.kind = true)
    (dec : Str → Option α) (enc : α → Val) (henc : ∀ a, enc a ≠ .none)
    (hval : ∀ n ∈ namesFor f ls, valueOf env related m f ls n = (match dec n with | some a => enc a | none => .none))
    (g : Str → α → List Report) (hcl : ∀ n a, ∀ r ∈ g n a, r.Clean ∧ Xs.contains r.cls = true)
    (hs : ∀ (c : Ctx) (add : AddNote) (hd : Handler) n a, During env related t m c → Seen env related t ls m (before n (namesOf ls)) c → hd.fid = f → hd.value = enc a →
      Tells Xs add (hd.evaluate c add).2 (g n a) (fun _ => True)) :
    Reported Xs m m' ((namesFor f ls).flatMap fun n => (onParsed (dec n) (g n)).map (fieldSubject n, ·)) := by
  have hcl' : ∀ n, ∀ r ∈ onParsed (dec n) (g n), r.Clean ∧ Xs.contains r.cls = true := by
    intro n r hr
    unfold onParsed at hr
    split at hr
    · exact hcl _ _ r hr
    · exact absurd hr (by simp)
  have := P.reports_ok (Xs := Xs) (fs := [f]) hX (fun n => onParsed (dec n) (g n)) (fun n _ r hr => (hcl' n r hr).1) (by
      intro c add hd n hn hdur hseen _ hf' hval' hok
      have hc := examined_class hn
      obtain ⟨hmem, _, _, hne'⟩ := mem_examined.1 hn
      have hmf : n ∈ namesFor f ls := mem_namesFor.2 ⟨hmem, hc⟩
      rw [hc, hval n hmf] at hval' hne'
      rw [hc] at hf'
      unfold onParsed
      cases hio : dec n with
      | none => rw [hio] at hne'; exact absurd rfl hne'
      | some q =>
        rw [hio] at hval'
        exact (hs c add hd n q hdur hseen hf' hval' () hok).1)
  refine this.congr ?_
  unfold examined
  rw [flatMap_filter_if]
  have e : namesAmong [f] ls = namesFor f ls := by
    unfold namesAmong namesFor
    apply List.filter_congr
    intro n _
    simp [eq_comm]
  rw [e]
  apply flatMap_congr_mem
  intro n hn
  have hc := (mem_namesFor.1 hn).2
  rw [hc, hval n hn, hv]
  unfold onParsed
  cases h : dec n with
  | none => simp
  | some p =>
    have : (enc p != Val.none) = true := by simpa using henc p
    dsimp only
    rw [this]; rfl

/-- a field, in full, from what its `evaluate` reports on a value, given what it can see of the others -/
theorem Processed.seen_reports {α} (P : Processed env related t ls m m') {Xs : List NoteId} {f : FieldId} (hX : EvalAmong Xs [f]) (hv : f.validIn m.kind = true)
    (dec : Str → Option α) (enc : α → Val) (henc : ∀ a, enc a ≠ .none)
    (hval : ∀ n ∈ namesFor f ls, valueOf env related m f ls n = (match dec n with | some a => enc a | none => .none))
    (g : Str → α → List Report) (hcl : ∀ n a, ∀ r ∈ g n a, r.Clean ∧ Xs.contains r.cls = true)
    (hs : ∀ (c : Ctx) (add : AddNote) (hd : Handler) n a, During env related t m c → Seen env related t ls m (before n (namesOf ls)) c → hd.fid = f → hd.value = enc a →
      Heard Xs add (hd.evaluate c add).2 (g n a) ()) :
    Reported Xs m m' ((namesFor f ls).flatMap fun n => (onParsed (dec n) (g n)).map (fieldSubject n, ·)) :=
  P.seen_tells hX hv dec enc henc hval g hcl fun c add hd n a h1 h2 h3 h4 => (hs c add hd n a h1 h2 h3 h4).tells.mono fun _ _ => trivial

/-- a structured field, in full, from what its `evaluate` reports on a value -/
theorem Processed.parsed_reports {α} (P : Processed env related t ls m m') {Xs : List NoteId} {f : FieldId} (hX : EvalAmong Xs [f]) (hv : f.validIn m.kind = true)
    (got : Str → Option α) (enc : α → Val) (hne : ∀ a, enc a ≠ .none)
    (hval : ∀ n ∈ namesFor f ls, valueOf env related m f ls n = (match got n with | some a => enc a | none => .none)) (g : α → List Report)
    (hcl : ∀ a, ∀ r ∈ g a, r.Clean ∧ Xs.contains r.cls = true)
    (hs : ∀ (c : Ctx) (add : AddNote) (hd : Handler) n a, During env related t m c → n ∈ namesFor f ls → got n = some a → hd.fid = f → hd.value = enc a →
      Told add (hd.evaluate c add).2 (g a) ()) :
    Reported Xs m m' ((namesFor f ls).flatMap fun n => (onParsed (got n) g).map (fieldSubject n, ·)) := by
  have hcl' : ∀ n, ∀ r ∈ onParsed (got n) g, r.Clean ∧ Xs.contains r.cls = true := by
    intro n r hr
    unfold onParsed at hr
    split at hr
    · exact hcl _ r hr
    · exact absurd hr (by simp)
  have := P.reports_all (Xs := Xs) (fs := [f]) hX (fun n => onParsed (got n) g) (fun n _ r hr => (hcl' n r hr).1) (by
      intro c add hd n hn hdur hseen _ hf hval'
      have hc := examined_class hn
      obtain ⟨hmem, _, _, hne'⟩ := mem_examined.1 hn
      have hmf : n ∈ namesFor f ls := mem_namesFor.2 ⟨hmem, hc⟩
      rw [hc, hval n hmf] at hval' hne'
      rw [hc] at hf
      unfold onParsed
      cases hio : got n with
      | none => rw [hio] at hne'; exact absurd rfl hne'
      | some q =>
        rw [hio] at hval'
        exact (hs c add hd n q hdur hmf hio hf hval').notes)
  refine this.congr ?_
  unfold examined
  rw [flatMap_filter_if]
  have e : namesAmong [f] ls = namesFor f ls := by
    unfold namesAmong namesFor
    apply List.filter_congr
    intro n _
    simp [eq_comm]
  rw [e]
  apply flatMap_congr_mem
  intro n hn
  have hc := (mem_namesFor.1 hn).2
  rw [hc, hval n hn, hv, filter_all fun r hr => (hcl' n r hr).2]
  unfold onParsed
  cases got n with
  | none => simp
  | some p =>
    have : (enc p != Val.none) = true := by simpa using hne p
    dsimp only
    rw [this]
    rfl

/-- a field, in full, from what its `evaluate` reports if it returns -/
theorem Processed.parsed_tells {α} (P : Processed env related t ls m m') {Xs : List NoteId} {f : FieldId} (hX : EvalAmong Xs [f]) (hv : f.validIn m.kind = true)
    (got : Str → Option α) (enc : α → Val) (hne : ∀ a, enc a ≠ .none)
    (hval : ∀ n ∈ namesFor f ls, valueOf env related m f ls n = (match got n with | some a => enc a | none => .none)) (g : α → List Report)
    (hcl : ∀ a, ∀ r ∈ g a, r.Clean ∧ Xs.contains r.cls = true)
    (hs : ∀ (c : Ctx) (add : AddNote) (hd : Handler) a, During env related t m c → hd.fid = f → hd.value = enc a →
      Tells Xs add (hd.evaluate c add).2 (g a) (fun _ => True)) :
    Reported Xs m m' ((namesFor f ls).flatMap fun n => (onParsed (got n) g).map (fieldSubject n, ·)) :=
  P.seen_tells hX hv got enc hne hval (fun _ => g) (fun _ => hcl) fun c add hd _ a h1 _ h3 h4 => hs c add hd a h1 h3 h4

/-- a Structured List, in full -/
theorem Processed.members_tells (P : Processed env related t ls m m') {Xs : List NoteId} {f : FieldId} (hX : EvalAmong Xs [f]) (hi : ListShape env)
    (hk : f.info.kind = .sf (str "list")) (hv : f.validIn m.kind = true) (g : List (Val × Val) → List Report)
    (hcl : ∀ l, ∀ r ∈ g l, r.Clean ∧ Xs.contains r.cls = true)
    (hs : ∀ (c : Ctx) (add : AddNote) (hd : Handler) l, During env related t m c → hd.fid = f → hd.value = ofMembers l →
      Tells Xs add (hd.evaluate c add).2 (g l) (fun _ => True)) :
    Reported Xs m m' ((namesFor f ls).flatMap fun n => (onParsed (listOf env ls n) g).map (fieldSubject n, ·)) :=
  P.parsed_tells hX hv (listOf env ls) ofMembers (fun a => by unfold ofMembers; simp) (fun n _ => by rw [list_value hk hi n]; cases listOf env ls n <;> rfl) g hcl hs

/-- a Structured Dictionary, in full -/
theorem Processed.entries_tells (P : Processed env related t ls m m') {Xs : List NoteId} {f : FieldId} (hX : EvalAmong Xs [f]) (hi : DictShape env)
    (hk : f.info.kind = .sf (str "dictionary")) (hv : f.validIn m.kind = true) (g : List (Str × Val × Val) → List Report)
    (hcl : ∀ l, ∀ r ∈ g l, r.Clean ∧ Xs.contains r.cls = true)
    (hs : ∀ (c : Ctx) (add : AddNote) (hd : Handler) l, During env related t m c → hd.fid = f → hd.value = ofEntries l →
      Tells Xs add (hd.evaluate c add).2 (g l) (fun _ => True)) :
    Reported Xs m m' ((namesFor f ls).flatMap fun n => (onParsed (dictOf env ls n) g).map (fieldSubject n, ·)) :=
  P.parsed_tells hX hv (dictOf env ls) ofEntries (fun a => by unfold ofEntries; simp) (fun n _ => by rw [dict_value hk hi n]; cases dictOf env ls n <;> rfl) g hcl hs

/-- a Structured List, in full -/
theorem Processed.members_reports (P : Processed env related t ls m m') {Xs : List NoteId} {f : FieldId} (hX : EvalAmong Xs [f]) (hi : ListShape env)
    (hk : f.info.kind = .sf (str "list")) (hv : f.validIn m.kind = true) (g : List (Val × Val) → List Report)
    (hcl : ∀ l, ∀ r ∈ g l, r.Clean ∧ Xs.contains r.cls = true)
    (hs : ∀ (c : Ctx) (add : AddNote) (hd : Handler) n l, During env related t m c → n ∈ namesFor f ls → listOf env ls n = some l → hd.fid = f → hd.value = ofMembers l →
      Told add (hd.evaluate c add).2 (g l) ()) :
    Reported Xs m m' ((namesFor f ls).flatMap fun n => (onParsed (listOf env ls n) g).map (fieldSubject n, ·)) :=
  P.parsed_reports hX hv (listOf env ls) ofMembers (fun a => by unfold ofMembers; simp) (fun n _ => by rw [list_value hk hi n]; cases listOf env ls n <;> rfl) g hcl hs

/-- a Structured Dictionary, in full -/
theorem Processed.entries_reports (P : Processed env related t ls m m') {Xs : List NoteId} {f : FieldId} (hX : EvalAmong Xs [f]) (hi : DictShape env)
    (hk : f.info.kind = .sf (str "dictionary")) (hv : f.validIn m.kind = true) (g : List (Str × Val × Val) → List Report)
    (hcl : ∀ l, ∀ r ∈ g l, r.Clean ∧ Xs.contains r.cls = true)
    (hs : ∀ (c : Ctx) (add : AddNote) (hd : Handler) n l, During env related t m c → n ∈ namesFor f ls → dictOf env ls n = some l → hd.fid = f → hd.value = ofEntries l →
      Told add (hd.evaluate c add).2 (g l) ()) :
    Reported Xs m m' ((namesFor f ls).flatMap fun n => (onParsed (dictOf env ls n) g).map (fieldSubject n, ·)) :=
  P.parsed_reports hX hv (dictOf env ls) ofEntries (fun a => by unfold ofEntries; simp) (fun n _ => by rw [dict_value hk hi n]; cases dictOf env ls n <;> rfl) g hcl hs

/-- `base_uri` doesn't change during a section -/
theorem during_base {c : Ctx} (hd : During env related t m c) : c.msg.baseUri = m.baseUri := by
  obtain ⟨ns, s, e⟩ := hd.ext
  rw [e]; cases t <;> rfl

end

/-! ### Reporting-Endpoints, Speculation-Rules -/

/-- the text of a string -/
def stringOf : Val → Option Str
  | .str s => some s
  | .md s => some s
  | _ => none

/-- is `s`, in a document at `base`, something else than an `https`, `wss` or relative URL? -/
def insecureUrl (env : Env) (base s : Str) : Bool :=
  match schemeOf env base s with
  | some sch => sch != [] && sch != str "https" && sch != str "wss"
  | none => false

/-- what is reported on an endpoint: that it isn't a string, or that it isn't secure -/
def endpointReports (env : Env) (base name : Str) (v : Val) : List Report :=
  match stringOf v with
  | some s => sayIf (insecureUrl env base s) { cls := .ENDPOINT_NOT_SECURE, vars := [(str "name", .str name), (str "url", v)] }
  | none => [{ cls := .BAD_REPORTING_ENDPOINT_SYNTAX, vars := [(str "name", .str name), (str "value", v), (str "found_type", .str v.typeName)] }]

/-- what is reported on a set of speculation rules: that it isn't a string, or that it isn't secure -/
def ruleReports (env : Env) (base : Str) (v : Val) : List Report :=
  match stringOf v with
  | some s => sayIf (insecureUrl env base s) { cls := .SPECULATION_RULE_NOT_SECURE, vars := [(str "url", v)] }
  | none => [{ cls := .SPECULATION_RULES_BAD_TYPE, vars := [(str "value", v), (str "found_type", .str v.typeName)] }]

theorem insecure_eq {c : Ctx} {s sch : Str} (h : schemeOf c.env c.msg.baseUri s = some sch) : insecureScheme c s = .ok (insecureUrl c.env c.msg.baseUri s) := by
  unfold insecureScheme insecureUrl
  rw [h]
  unfold schemeOf at h
  split at h
  · rename_i u hu
    rw [hu]
    split at h
    · rename_i p hp
      injection h with h
      show (do let u ← c.env.urlsplit u; _) = _
      rw [hp]
      show Except.ok (!(lower p.scheme).isEmpty && !([str "https", str "wss"].contains (lower p.scheme))) = _
      rw [h, neither]
      dsimp only
      cases sch <;> rfl
    · exact nomatch h
  · exact nomatch h

theorem insecure_of {c : Ctx} {s : Str} {b : Bool} (h : insecureScheme c s = .ok b) : b = insecureUrl c.env c.msg.baseUri s := by
  cases hs : schemeOf c.env c.msg.baseUri s with
  | some sch => rw [insecure_eq hs] at h; injection h with h; exact h.symm
  | none =>
    exfalso
    unfold schemeOf at hs
    unfold insecureScheme at h
    split at hs
    · rename_i u hu
      rw [hu] at h
      split at hs
      · exact nomatch hs
      · rename_i hp
        change (do let u ← c.env.urlsplit u; _) = _ at h
        rw [hp] at h
        exact nomatch h
    · rename_i hu
      rw [hu] at h
      exact nomatch h

theorem string_cases (v : Val) : (∃ s, v = .str s ∨ v = .md s) ∨ stringOf v = none := by
  rcases v with a | _
  · cases a with
    | str s => exact .inl ⟨s, .inl rfl⟩
    | md s => exact .inl ⟨s, .inr rfl⟩
    | _ => exact .inr rfl
  · exact .inr rfl

theorem endpoint_tells {c : Ctx} (add : AddNote) (name : Str) (v p : Val) :
    Tells [.ENDPOINT_NOT_SECURE, .BAD_REPORTING_ENDPOINT_SYNTAX] add (do
      let url ← W.lift ((Val.tuple [v, p]).idx 0)
      match url with
      | .str s | .md s => do
        let bad ← W.lift (insecureScheme c s)
        W.when bad (add.add .ENDPOINT_NOT_SECURE [(str "name", .str name), (str "url", url)])
      | _ =>
        add.add .BAD_REPORTING_ENDPOINT_SYNTAX
          [(str "name", .str name), (str "value", url), (str "found_type", .str url.typeName)]) (endpointReports c.env c.msg.baseUri name v) (fun _ => True) := by
  refine Tells.silent fun v' hv' => ?_
  injection hv' with hv'
  subst hv'
  rcases string_cases v with ⟨s, rfl | rfl⟩ | h
  · exact Tells.silent fun b hb => (Tells.when rfl).of (by rw [insecure_of hb]; rfl)
  · exact Tells.silent fun b hb => (Tells.when rfl).of (by rw [insecure_of hb]; rfl)
  · unfold endpointReports
    rw [h]
    rcases v with a | _
    · cases a with
      | str s => exact nomatch h
      | md s => exact nomatch h
      | _ => exact Tells.add rfl
    · exact Tells.add rfl

theorem rule_tells {c : Ctx} (add : AddNote) (v p : Val) :
    Tells [.SPECULATION_RULE_NOT_SECURE, .SPECULATION_RULES_BAD_TYPE] add (do
      let url ← W.lift ((Val.tuple [v, p]).idx 0)
      match url with
      | .str s | .md s => do
        let bad ← W.lift (insecureScheme c s)
        W.when bad (add.add .SPECULATION_RULE_NOT_SECURE [(str "url", url)])
      | _ =>
        add.add .SPECULATION_RULES_BAD_TYPE [(str "value", url), (str "found_type", .str url.typeName)]) (ruleReports c.env c.msg.baseUri v) (fun _ => True) := by
  refine Tells.silent fun v' hv' => ?_
  injection hv' with hv'
  subst hv'
  rcases string_cases v with ⟨s, rfl | rfl⟩ | h
  · exact Tells.silent fun b hb => (Tells.when rfl).of (by rw [insecure_of hb]; rfl)
  · exact Tells.silent fun b hb => (Tells.when rfl).of (by rw [insecure_of hb]; rfl)
  · unfold ruleReports
    rw [h]
    rcases v with a | _
    · cases a with
      | str s => exact nomatch h
      | md s => exact nomatch h
      | _ => exact Tells.add rfl
    · exact Tells.add rfl

/-- looking at each element of a mapped list -/
theorem Told.forEach_map {α β} {add : AddNote} {l : List α} {h : α → β} {f : β → W Unit} {g : α → List Report} (hf : ∀ x ∈ l, Told add (f (h x)) (g x) ()) :
    Told add (W.forEach (l.map h) f) (l.flatMap g) () := by
  induction l with
  | nil => exact ⟨rfl, rfl⟩
  | cons x l ih =>
    rw [List.map_cons]
    unfold W.forEach
    exact (hf x (by simp)).bind (ih fun y hy => hf y (by simp [hy]))

section
variable {env : Env} {related : Option Msg} {t : Bool} {ls : List Line} {m m' : Msg}

/-- **C88** `Reporting-Endpoints`, in full: each endpoint that isn't a string or whose URL is neither relative nor `https` (nor `wss`) is reported -/
theorem C88_reporting_endpoints (P : Processed env related t ls m m') (hk : m.kind = .response) (hi : DictShape env) :
    Reported [.ENDPOINT_NOT_SECURE, .BAD_REPORTING_ENDPOINT_SYNTAX] m m' ((namesFor .reporting_endpoints_ ls).flatMap fun n =>
      (onParsed (dictOf env ls n) fun l => l.flatMap fun e => endpointReports env m.baseUri e.1 e.2.1).map (fieldSubject n, ·)) := by
  have hX : EvalAmong [.ENDPOINT_NOT_SECURE, .BAD_REPORTING_ENDPOINT_SYNTAX] [.reporting_endpoints_] := by eval_among
  refine P.entries_tells hX hi rfl (by rw [hk]; rfl) _ ?_ ?_
  · intro l r hr
    obtain ⟨e, _, hr⟩ := List.mem_flatMap.1 hr
    unfold endpointReports at hr
    split at hr
    · obtain ⟨_, rfl⟩ := mem_sayIf.1 hr
      exact ⟨⟨show ([str "name", str "url"] : List Str).Nodup by decide, by simp⟩, rfl⟩
    · rw [List.mem_singleton] at hr; subst hr
      exact ⟨⟨show ([str "name", str "value", str "found_type"] : List Str).Nodup by decide, by simp⟩, rfl⟩
  · intro c add hd l hdur hf hval
    unfold Handler.evaluate
    rw [hf]
    show Tells _ add (reporting_endpoints.evaluate c add hd) _ _
    unfold reporting_endpoints.evaluate
    refine Tells.silent fun es hes => ?_
    rw [hval, items_entries] at hes
    injection hes with hes
    subst hes
    rw [← hdur.env, ← during_base hdur]
    exact Tells.forEach_map fun e he => endpoint_tells add e.1 e.2.1 e.2.2

/-- **C88** `Speculation-Rules`, in full -/
theorem C88_speculation_rules (P : Processed env related t ls m m') (hk : m.kind = .response) (hi : ListShape env) :
    Reported [.SPECULATION_RULE_NOT_SECURE, .SPECULATION_RULES_BAD_TYPE] m m' ((namesFor .speculation_rules_ ls).flatMap fun n =>
      (onParsed (listOf env ls n) fun l => l.flatMap fun e => ruleReports env m.baseUri e.1).map (fieldSubject n, ·)) := by
  have hX : EvalAmong [.SPECULATION_RULE_NOT_SECURE, .SPECULATION_RULES_BAD_TYPE] [.speculation_rules_] := by eval_among
  refine P.members_tells hX hi rfl (by rw [hk]; rfl) _ ?_ ?_
  · intro l r hr
    obtain ⟨e, _, hr⟩ := List.mem_flatMap.1 hr
    unfold ruleReports at hr
    split at hr
    · obtain ⟨_, rfl⟩ := mem_sayIf.1 hr
      exact ⟨⟨by simp, by simp⟩, rfl⟩
    · rw [List.mem_singleton] at hr; subst hr
      exact ⟨⟨show ([str "value", str "found_type"] : List Str).Nodup by decide, by simp⟩, rfl⟩
  · intro c add hd l hdur hf hval
    unfold Handler.evaluate
    rw [hf]
    show Tells _ add (speculation_rules.evaluate c add hd) _ _
    unfold speculation_rules.evaluate
    refine Tells.silent fun es hes => ?_
    rw [hval] at hes
    injection hes with hes
    subst hes
    rw [← hdur.env, ← during_base hdur]
    exact Tells.forEach_map fun e he => rule_tells add e.1 e.2

end

end HL.Props
