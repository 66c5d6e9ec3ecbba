import Verif.Props.StructuredThm
import Verif.Props.CliThm

/-!
# Structured fields whose members must have certain types (C89)

Accept-CH, Cache-Groups, Cache-Group-Invalidation, CDN-Cache-Control, Available-Dictionary, Use-As-Dictionary.
-/

namespace HL.Props
open HL.F Syntax

/-- the names of the types of the values that aren't strings: each once, in alphabetical order -/
def wrongTypes (vs : List Val) : List Str := pySorted strLe (dedup ((vs.filter fun v => !v.isStr).map Val.typeName))

theorem pySorted_perm_nodup {l : List Str} (h : l.Nodup) : (pySorted strLe l).Nodup := by
  have key : ∀ (l acc : List Str), (∀ x ∈ l, x ∉ acc) → l.Nodup → acc.Nodup → (l.foldl (fun acc x => insertSorted strLe x acc) acc).Nodup := by
    have ins : ∀ (x : Str) (acc : List Str), x ∉ acc → acc.Nodup → (insertSorted strLe x acc).Nodup := by
      intro x acc
      induction acc with
      | nil => intro _ _; simp [insertSorted]
      | cons y ys ih =>
        intro hx hn
        rw [List.mem_cons, not_or] at hx
        rw [List.nodup_cons] at hn
        unfold insertSorted
        split
        · rw [List.nodup_cons]
          refine ⟨?_, ih hx.2 hn.2⟩
          intro h
          rw [insertSorted_mem] at h
          rcases h with h | h
          · exact hx.1 h.symm
          · exact hn.1 h
        · rw [List.nodup_cons, List.nodup_cons, List.mem_cons, not_or]
          exact ⟨hx, hn⟩
    intro l
    induction l with
    | nil => intro acc _ _ h; exact h
    | cons x l ih =>
      intro acc h1 h2 h3
      rw [List.nodup_cons] at h2
      rw [List.foldl_cons]
      refine ih _ ?_ h2.2 (ins x acc (h1 x (by simp)) h3)
      intro z hz hzi
      rw [insertSorted_mem] at hzi
      rcases hzi with e | hzi
      · exact h2.1 (e ▸ hz)
      · exact h1 z (by simp [hz]) hzi
  exact key l [] (by simp) h (by simp)

/-- what `wrongTypes` is: the types of the values that aren't strings, each once, in alphabetical order -/
theorem wrongTypes_spec (vs : List Val) : (wrongTypes vs).Pairwise (fun a b => strLe a b = true) ∧ (wrongTypes vs).Nodup ∧
    ∀ s, s ∈ wrongTypes vs ↔ ∃ v ∈ vs, v.isStr = false ∧ v.typeName = s := by
  obtain ⟨h1, h2, _⟩ := pySorted_spec strLe_total (fun a b c => strLe_trans) (dedup ((vs.filter fun v => !v.isStr).map Val.typeName)) [] List.Pairwise.nil
  refine ⟨h1, pySorted_perm_nodup (dedup_nodup _), fun s => ?_⟩
  unfold wrongTypes pySorted
  rw [h2, mem_dedup]
  simp only [List.not_mem_nil, false_or, List.mem_map, List.mem_filter, Bool.not_eq_true']
  constructor
  · rintro ⟨v, ⟨h1, h2⟩, h3⟩; exact ⟨v, h1, h2, h3⟩
  · rintro ⟨v, h1, h2, h3⟩; exact ⟨v, ⟨h1, h2⟩, h3⟩

theorem wrongTypes_nil (vs : List Val) : wrongTypes vs = [] ↔ ∀ v ∈ vs, v.isStr = true := by
  constructor
  · intro h v hv
    cases hs : v.isStr with
    | true => rfl
    | false =>
      have := ((wrongTypes_spec vs).2.2 v.typeName).2 ⟨v, hv, hs, rfl⟩
      rw [h] at this
      exact absurd this (by simp)
  · intro h
    rw [List.eq_nil_iff_forall_not_mem]
    intro s hs
    obtain ⟨v, hv, h', _⟩ := ((wrongTypes_spec vs).2.2 s).1 hs
    rw [h v hv] at h'
    exact nomatch h'

theorem badTypes_told (add : AddNote) (l : List (Val × Val)) : Told add (badTypes (l.map fun p => .tuple [p.1, p.2])) [] (wrongTypes (l.map (·.1))) := by
  unfold badTypes
  have h := Told.mapM (add := add) (g := fun _ => []) (h := fun v : Val => match v with | .tuple (a :: _) => a | v => v) (l.map fun p : Val × Val => Val.tuple [p.1, p.2])
    (f := fun i => W.lift (i.idx 0)) (fun x hx => by
      obtain ⟨p, _, rfl⟩ := List.mem_map.1 hx
      exact .lift rfl)
  refine Told.of (Told.bind h ?_) (by rw [flatMap_nil', List.nil_append])
  rw [List.map_map]
  exact Told.pure

/-- what is reported when not all values are strings -/
def typesReports (X : NoteId) (vs : List Val) : List Report :=
  sayIf (wrongTypes vs != []) { cls := X, vars := [(str "expected", .str (str "string")), (str "got", .str (join (str ", ") (wrongTypes vs)))] }

theorem types_told (add : AddNote) (X : NoteId) (l : List (Val × Val)) :
    Told add (do
      let bad ← badTypes (l.map fun p => .tuple [p.1, p.2])
      W.when (!bad.isEmpty) (add.add X [(str "expected", .str (str "string")), (str "got", .str (join (str ", ") bad))])) (typesReports X (l.map (·.1))) () := by
  refine Told.of (Told.bind (badTypes_told add l) .when) ?_
  unfold typesReports
  rw [List.nil_append, isEmpty_bne]

/-- the methods that can't invalidate anything -/
def safeMethods : List Str := [str "GET", str "HEAD", str "OPTIONS", str "TRACE"]

/-- what is reported on `Cache-Group-Invalidation`: that the request's method makes it ineffective, and members that aren't strings -/
def invalidationReports (method : Option Str) (vs : List Val) : List Report :=
  (match method with
    | some x => sayIf (safeMethods.contains x) { cls := .CACHE_GROUP_INVALIDATION_IGNORED, vars := [(str "method", .str x)] }
    | none => []) ++
  typesReports .CACHE_GROUP_INVALIDATION_BAD_TYPE vs

theorem typesReports_clean (X : NoteId) (vs : List Val) : ∀ r ∈ typesReports X vs, r.Clean ∧ r.cls = X := by
  intro r hr
  obtain ⟨_, rfl⟩ := mem_sayIf.1 hr
  exact ⟨⟨show ([str "expected", str "got"] : List Str).Nodup by decide, by simp⟩, rfl⟩

section
variable {env : Env} {related : Option Msg} {t : Bool} {ls : List Line} {m m' : Msg}

/-- **C89** `Accept-CH` is reported (once) exactly when not all its members are tokens -/
theorem C89_accept_ch (P : Processed env related t ls m m') (hk : m.kind = .response) (hi : ListShape env) :
    Reported [.ACCEPT_CH_BAD_TYPE] m m' ((namesFor .accept_ch_ ls).flatMap fun n =>
      (onParsed (listOf env ls n) fun l => sayIf (l.any fun e => !e.1.isToken) { cls := .ACCEPT_CH_BAD_TYPE, vars := [(str "ref_uri", FieldId.accept_ch_.ref)] }).map (fieldSubject n, ·)) := by
  have hX : EvalAmong [.ACCEPT_CH_BAD_TYPE] [.accept_ch_] := by eval_among
  refine P.members_reports hX hi rfl (by rw [hk]; rfl) _ ?_ ?_
  · intro l r hr
    obtain ⟨_, rfl⟩ := mem_sayIf.1 hr
    exact ⟨⟨by simp, by simp⟩, rfl⟩
  · intro c add hd n l hdur hn hl hf hval
    unfold Handler.evaluate
    rw [hf]
    show Told add (accept_ch.evaluate add hd) _ ()
    unfold accept_ch.evaluate
    refine Told.of (Told.bind (l := []) (.lift (a := l.map fun p => .tuple [p.1, p.2]) (by rw [hval]; rfl)) ?_) (List.nil_append _)
    clear hl hn hval
    induction l with
    | nil => exact Told.pure
    | cons e l ih =>
      rw [List.map_cons]
      unfold accept_ch.evaluate.go
      refine Told.of (Told.bind (l := []) (.lift (a := e.1) rfl) ?_) (List.nil_append _)
      cases he : e.1.isToken with
      | true =>
        rw [if_pos rfl]
        exact Told.of ih (by rw [List.any_cons, he]; rfl)
      | false =>
        rw [if_neg (by simp)]
        exact Told.of Told.add (by rw [List.any_cons, he]; rfl)

/-- **C89** `Cache-Groups`: the types of the members that aren't strings are reported, each once, in alphabetical order -/
theorem C89_cache_groups (P : Processed env related t ls m m') (hk : m.kind = .response) (hi : ListShape env) :
    Reported [.CACHE_GROUPS_BAD_TYPE] m m' ((namesFor .cache_groups_ ls).flatMap fun n =>
      (onParsed (listOf env ls n) fun l => typesReports .CACHE_GROUPS_BAD_TYPE (l.map (·.1))).map (fieldSubject n, ·)) := by
  have hX : EvalAmong [.CACHE_GROUPS_BAD_TYPE] [.cache_groups_] := by eval_among
  refine P.members_reports hX hi rfl (by rw [hk]; rfl) _ ?_ ?_
  · intro l r hr
    obtain ⟨h1, h2⟩ := typesReports_clean _ _ r hr
    exact ⟨h1, by rw [h2]; rfl⟩
  · intro c add hd n l hdur hn hl hf hval
    unfold Handler.evaluate
    rw [hf]
    show Told add (cache_groups.evaluate add hd) _ ()
    unfold cache_groups.evaluate
    exact Told.of (Told.bind (l := []) (.lift (a := l.map fun p => .tuple [p.1, p.2]) (by rw [hval]; rfl)) (types_told add _ l)) (List.nil_append _)

/-- **C89** `Cache-Group-Invalidation`: reported as ignored exactly if the request's method is known and safe -/
theorem C89_cache_group_invalidation (P : Processed env related t ls m m') (hk : m.kind = .response) (hi : ListShape env) :
    Reported [.CACHE_GROUP_INVALIDATION_IGNORED, .CACHE_GROUP_INVALIDATION_BAD_TYPE] m m' ((namesFor .cache_group_invalidation_ ls).flatMap fun n =>
      (onParsed (listOf env ls n) fun l => invalidationReports (related.bind (·.method)) (l.map (·.1))).map (fieldSubject n, ·)) := by
  have hX : EvalAmong [.CACHE_GROUP_INVALIDATION_IGNORED, .CACHE_GROUP_INVALIDATION_BAD_TYPE] [.cache_group_invalidation_] := by eval_among
  refine P.members_reports hX hi rfl (by rw [hk]; rfl) _ ?_ ?_
  · intro l r hr
    unfold invalidationReports at hr
    rcases List.mem_append.1 hr with hr | hr
    · split at hr
      · obtain ⟨_, rfl⟩ := mem_sayIf.1 hr
        exact ⟨⟨by simp, by simp⟩, rfl⟩
      · exact absurd hr (by simp)
    · obtain ⟨h1, h2⟩ := typesReports_clean _ _ r hr
      exact ⟨h1, by rw [h2]; rfl⟩
  · intro c add hd n l hdur hn hl hf hval
    unfold Handler.evaluate
    rw [hf]
    show Told add (cache_group_invalidation.evaluate c add hd) _ ()
    unfold cache_group_invalidation.evaluate Ctx.request
    rw [hdur.related]
    have key : Told add (do
        let items ← W.lift hd.value.iter
        let bad ← badTypes items
        W.when (!bad.isEmpty) (add.add .CACHE_GROUP_INVALIDATION_BAD_TYPE [(str "expected", .str (str "string")), (str "got", .str (join (str ", ") bad))]))
        (typesReports .CACHE_GROUP_INVALIDATION_BAD_TYPE (l.map (·.1))) () :=
      Told.of (Told.bind (l := []) (.lift (a := l.map fun p => .tuple [p.1, p.2]) (by rw [hval]; rfl)) (types_told add _ l)) (List.nil_append _)
    unfold invalidationReports
    cases related.bind (·.method) with
    | some x => exact Told.bind Told.when key
    | none => exact Told.of key (List.nil_append _).symm

/-- what is reported on `Available-Dictionary`: that it isn't binary -/
def availableReports (v : Val) : List Report :=
  match v with
  | .bytes _ => []
  | v => [{ cls := .AVAILABLE_DICTIONARY_BAD_TYPE, vars := [(str "got", .str v.typeName)] }]

/-- **C89** `Available-Dictionary` is reported exactly when it isn't a byte sequence, with its type -/
theorem C89_available_dictionary (P : Processed env related t ls m m') (hk : m.kind = .request) (hi : ItemShape env) :
    Reported [.AVAILABLE_DICTIONARY_BAD_TYPE] m m' ((namesFor .available_dictionary_ ls).flatMap fun n =>
      (onParsed (itemOf env ls n) fun q => availableReports q.1).map (fieldSubject n, ·)) := by
  have hX : EvalAmong [.AVAILABLE_DICTIONARY_BAD_TYPE] [.available_dictionary_] := by eval_among
  refine P.parsed_reports hX (by rw [hk]; rfl) (itemOf env ls) (fun q => .tuple [q.1, q.2]) (fun a => by simp)
    (fun n _ => by rw [item_value rfl hi n]; cases itemOf env ls n <;> rfl) _ ?_ ?_
  · intro q r hr
    unfold availableReports at hr
    split at hr
    · exact absurd hr (by simp)
    · rw [List.mem_singleton] at hr; subst hr
      exact ⟨⟨by simp, by simp⟩, rfl⟩
  · intro c add hd n q hdur hn hl hf hval
    unfold Handler.evaluate
    rw [hf]
    show Told add (available_dictionary.evaluate add hd) _ ()
    unfold available_dictionary.evaluate availableReports
    rw [hval]
    refine Told.of (Told.bind (l := []) (.lift (a := q.1) rfl) ?_) (List.nil_append _)
    rcases q with ⟨v, p⟩
    rcases v with a | _
    · cases a with
      | bytes s => exact Told.pure
      | _ => exact Told.add
    · exact Told.add

end

/-! ### Use-As-Dictionary -/

/-- is this what `match-dest` may be: a string, or a list of strings? -/
def destOk (v : Val) : Bool :=
  v.isStr || match v with
    | .list l => l.all fun i => match i with | .tuple (x :: _) => x.isStr | _ => false
    | _ => false

/-- what is reported on a member of `Use-As-Dictionary` -/
def dictionaryReports (k : Str) (v : Val) : List Report :=
  let bad (expected : Str) : Report := { cls := .USE_AS_DICTIONARY_BAD_TYPE, vars := [(str "param", v), (str "expected", .str expected), (str "got", .str v.typeName)] }
  if k = str "match" ∨ k = str "id" ∨ k = str "type" then sayIf (!v.isStr) (bad (str "str"))
  else if k = str "ttl" then sayIf (!v.isInt) (bad (str "int"))
  else if k = str "match-dest" then sayIf (!destOk v) { cls := .USE_AS_DICTIONARY_BAD_MATCH_DEST, vars := [(str "got", .str v.typeName)] }
  else []

/-- inner lists, as the parser returns them: lists of pairs -/
def InnerShape (v : Val) : Prop := ∀ l, v = .list l → ∀ i ∈ l, ∃ a p, i = .tuple [a, p]

theorem allStr_eq {l : List Val} (h : ∀ i ∈ l, ∃ a p, i = .tuple [a, p]) :
    use_as_dictionary.allStr l = .ok (l.all fun i => match i with | .tuple (x :: _) => x.isStr | _ => false) := by
  induction l with
  | nil => rfl
  | cons i l ih =>
    obtain ⟨a, p, rfl⟩ := h i (by simp)
    unfold use_as_dictionary.allStr
    show (if a.isStr = true then use_as_dictionary.allStr l else Except.ok false) = _
    rw [List.all_cons]
    cases ha : a.isStr with
    | true => rw [if_pos rfl, ih fun j hj => h j (by simp [hj])]; simp [ha]
    | false => rw [if_neg (by simp)]; simp [ha]

theorem dictionary_told (add : AddNote) (k : Str) {v p : Val} (hin : InnerShape v) : Told add (use_as_dictionary.member add k (.tuple [v, p])) (dictionaryReports k v) () := by
  unfold use_as_dictionary.member dictionaryReports
  have hc : ∀ isT tn, Told add (use_as_dictionary.checkType add (.tuple [v, p]) isT tn)
      (sayIf (!isT v) { cls := .USE_AS_DICTIONARY_BAD_TYPE, vars := [(str "param", v), (str "expected", .str tn), (str "got", .str v.typeName)] }) () := by
    intro isT tn
    unfold use_as_dictionary.checkType
    rw [if_neg (by simp [Val.isList])]
    exact Told.of (Told.bind (l := []) (.lift (a := v) rfl) .when) (List.nil_append _)
  dsimp only
  by_cases h1 : k = str "match" ∨ k = str "id" ∨ k = str "type"
  · rw [if_pos h1, if_pos h1]
    exact hc _ _
  rw [if_neg h1, if_neg h1]
  by_cases h2 : k = str "match-dest"
  · subst h2
    rw [if_pos rfl, if_neg (by decide), if_pos rfl]
    refine Told.of (Told.bind (l := []) (.lift (a := v) rfl) ?_) (List.nil_append _)
    unfold destOk
    cases hs : v.isStr with
    | true => exact Told.of (Told.bind (l := []) Told.pure Told.when) (List.nil_append _)
    | false =>
      rw [if_neg (by simp), Bool.false_or]
      rcases v with a | ⟨k, l⟩
      · exact Told.of (Told.bind (l := []) Told.pure Told.when) (List.nil_append _)
      · cases k with
        | list => exact Told.of (Told.bind (l := []) (.lift (allStr_eq (hin l rfl))) Told.when) (List.nil_append _)
        | _ => exact Told.of (Told.bind (l := []) Told.pure Told.when) (List.nil_append _)
  rw [if_neg h2]
  by_cases h3 : k = str "ttl"
  · rw [if_pos h3, if_pos h3]; exact hc _ _
  · rw [if_neg h3, if_neg h3, if_neg h2]; exact Told.pure

section
variable {env : Env} {related : Option Msg} {t : Bool} {ls : List Line} {m m' : Msg}

/-- **C89** `Use-As-Dictionary`: `match`, `id` and `type` must be strings, `ttl` an integer, `match-dest` a string or a list of strings; each member
that isn't is reported, with its type -/
theorem C89_use_as_dictionary (P : Processed env related t ls m m') (hk : m.kind = .response) (hi : DictShape env)
    (hin : ∀ n ∈ namesFor .use_as_dictionary_ ls, ∀ l, dictOf env ls n = some l → ∀ e ∈ l, InnerShape e.2.1) :
    Reported [.USE_AS_DICTIONARY_BAD_TYPE, .USE_AS_DICTIONARY_BAD_MATCH_DEST] m m' ((namesFor .use_as_dictionary_ ls).flatMap fun n =>
      (onParsed (dictOf env ls n) fun l => l.flatMap fun e => dictionaryReports e.1 e.2.1).map (fieldSubject n, ·)) := by
  have hX : EvalAmong [.USE_AS_DICTIONARY_BAD_TYPE, .USE_AS_DICTIONARY_BAD_MATCH_DEST] [.use_as_dictionary_] := by eval_among
  refine P.entries_reports hX hi rfl (by rw [hk]; rfl) _ ?_ ?_
  · intro l r hr
    obtain ⟨e, _, hr⟩ := List.mem_flatMap.1 hr
    unfold dictionaryReports at hr
    dsimp only at hr
    have h3 : ([str "param", str "expected", str "got"] : List Str).Nodup := by decide
    split at hr
    · obtain ⟨_, rfl⟩ := mem_sayIf.1 hr
      exact ⟨⟨h3, by simp⟩, rfl⟩
    · split at hr
      · obtain ⟨_, rfl⟩ := mem_sayIf.1 hr
        exact ⟨⟨h3, by simp⟩, rfl⟩
      · split at hr
        · obtain ⟨_, rfl⟩ := mem_sayIf.1 hr
          exact ⟨⟨by simp, by simp⟩, rfl⟩
        · exact absurd hr (by simp)
  · intro c add hd n l hdur hn hl hf hval
    unfold Handler.evaluate
    rw [hf]
    show Told add (use_as_dictionary.evaluate add hd) _ ()
    unfold use_as_dictionary.evaluate
    refine Told.of (Told.bind (l := []) (.lift (by rw [hval]; exact items_entries l)) ?_) (List.nil_append _)
    exact Told.forEach_map fun e he => dictionary_told add e.1 (hin n hn l hl e he)

/-- the shape of inner lists, from the contract of the parser -/
theorem Contract.inner (h : Contract env) {n : Str} {l : List (Str × Val × Val)} (hl : dictOf env ls n = some l) : ∀ e ∈ l, InnerShape e.2.1 := by
  unfold dictOf at hl
  split at hl
  · rename_i xs dups hp
    obtain ⟨l', e', hl'⟩ := shape_dict (h.sfParse _ _ _ _ hp)
    injection e' with _ e'
    subst e'
    injection hl with hl
    subst hl
    intro e he
    rw [List.mem_filterMap] at he
    obtain ⟨x, hx, he⟩ := he
    obtain ⟨q, hq, rfl⟩ := List.mem_map.1 hx
    obtain ⟨a, p, e2, _, hv⟩ := hl' q hq
    rw [e2] at he
    injection he with he
    subst he
    intro l hl i hi
    rcases hv with hv | ⟨l2, e3, hv⟩
    · subst hl
      cases hv
    · dsimp only at hl
      rw [hl] at e3
      injection e3 with _ e3
      subst e3
      obtain ⟨a, p, rfl, _⟩ := hv i hi
      exact ⟨a, p, rfl⟩
  · exact nomatch hl

/-! ### CDN-Cache-Control -/

/-- what is reported on a directive of `CDN-Cache-Control`: that its value doesn't have the type the directive requires -/
def cdnReports (name : Str) (v : Val) : List Report :=
  let d := lower name
  let bad (expected : Str) : Report := { cls := .BAD_CDN_CC_TYPE, vars := [(str "bad_directive", .str d), (str "expected_type", .str expected)] }
  match ccInfo d with
  | none => []
  | some info =>
    match info.conv with
    | .none => sayIf (v != .bool true) (bad (str "no value"))
    | .int => sayIf (!v.isInt) (bad info.expected)
    | .unquote => sayIf (!(v.isStr || (v == .bool true && [str "no-cache", str "private"].contains d))) (bad (str "a string"))

/-- **C89** `CDN-Cache-Control` is said to be present, once, and each directive with a value of a wrong type is reported -/
theorem C89_cdn_cache_control (P : Processed env related t ls m m') (hk : m.kind = .response) (hi : DictShape env) :
    Reported [.CDN_CACHE_CONTROL_PRESENT, .BAD_CDN_CC_TYPE] m m' ((namesFor .cdn_cache_control_ ls).flatMap fun n =>
      (onParsed (dictOf env ls n) fun l => ⟨.CDN_CACHE_CONTROL_PRESENT, [], []⟩ :: l.flatMap fun e => cdnReports e.1 e.2.1).map (fieldSubject n, ·)) := by
  have hX : EvalAmong [.CDN_CACHE_CONTROL_PRESENT, .BAD_CDN_CC_TYPE] [.cdn_cache_control_] := by eval_among
  refine P.entries_reports hX hi rfl (by rw [hk]; rfl) _ ?_ ?_
  · intro l r hr
    rcases List.mem_cons.1 hr with rfl | hr
    · exact ⟨⟨by simp, by simp⟩, rfl⟩
    obtain ⟨e, _, hr⟩ := List.mem_flatMap.1 hr
    have h2 : ([str "bad_directive", str "expected_type"] : List Str).Nodup := by decide
    unfold cdnReports at hr
    dsimp only at hr
    split at hr
    · exact absurd hr (by simp)
    · split at hr <;> (obtain ⟨_, rfl⟩ := mem_sayIf.1 hr; exact ⟨⟨h2, by simp⟩, rfl⟩)
  · intro c add hd n l hdur hn hl hf hval
    unfold Handler.evaluate
    rw [hf]
    show Told add (cdn_cache_control.evaluate add hd) _ ()
    unfold cdn_cache_control.evaluate
    refine Told.bind Told.add (Told.of (Told.bind (l := []) (.lift (by rw [hval]; exact items_entries l)) ?_) (List.nil_append _))
    refine Told.forEach_map fun e he => ?_
    show Told add (cdn_cache_control.member add e.1 (.tuple [e.2.1, e.2.2])) _ ()
    unfold cdn_cache_control.member cdnReports
    refine Told.of (Told.bind (l := []) (.lift (a := e.2.1) rfl) ?_) (List.nil_append _)
    dsimp only
    cases ccInfo (lower e.1) with
    | none => exact Told.pure
    | some info =>
      dsimp only
      cases info.conv with
      | none => exact Told.when
      | int => exact Told.when
      | unquote =>
        dsimp only
        cases hs : e.2.1.isStr with
        | true => exact Told.pure
        | false =>
          rw [Bool.false_or]
          cases hb : e.2.1 == Val.bool true && [str "no-cache", str "private"].contains (lower e.1) with
          | true => exact Told.pure
          | false => exact Told.add

end
end HL.Props
