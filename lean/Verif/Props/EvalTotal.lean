import Verif.Props.TypedFields

/-!
# C07: evaluating a field returns

`Contract env`: what the libraries are assumed to do.  `evaluate_returns`: with a value of the right shape, `evaluate` returns
normally, for every class except those of `Perilous` (whose own code lets exceptions escape).
-/

namespace HL.Props

/-- the scalars of structured fields -/
def SfBare : Val → Prop
  | .bool _ | .int _ | .num _ | .str _ | .token _ | .disp _ | .bytes _ | .date _ => True
  | _ => False
/-- the parameters of a structured item: names and scalars -/
def SfParams (v : Val) : Prop := ∃ l : List (Str × Val), v = .dict (l.map fun p => .tuple [.str p.1, p.2]) ∧ ∀ p ∈ l, SfBare p.2
/-- an item -/
def SfItem (v : Val) : Prop := ∃ a p, v = .tuple [a, p] ∧ SfParams p ∧ SfBare a
/-- the value of a member of a list or dictionary: a scalar or an inner list -/
def SfValue (a : Val) : Prop := SfBare a ∨ ∃ l, a = .list l ∧ ∀ x ∈ l, SfItem x
/-- a member of a list or dictionary -/
def SfMember (v : Val) : Prop := ∃ a p, v = .tuple [a, p] ∧ SfParams p ∧ SfValue a

/-- what a structured-field parser returns for each top-level type -/
def SfShape (t : Str) (v : Val) : Prop :=
  (t = str "item" ∧ SfItem v) ∨ (t = str "list" ∧ ∃ l, v = .list l ∧ ∀ x ∈ l, SfMember x) ∨
  (t = str "dictionary" ∧ ∃ l : List (Str × Val), v = .dict (l.map fun p => .tuple [.str p.1, p.2]) ∧ ∀ p ∈ l, SfMember p.2)

/-- a character encoding with which the codecs library raises nothing but `LookupError`, `TypeError` and `UnicodeDecodeError`.
(`undefined`, `idna` and `punycode` are not: decoding them raises a bare `UnicodeError`; nor is a name with a NUL.) -/
structure Usable (env : Env) (n : Str) : Prop where
  lookup : ∀ e, env.codecsLookup n = .error e → e.isLookup = true ∨ e = .typeError
  decode : ∀ s e, env.decode n s = .error e → e.isLookup = true ∨ e = .unicodeError
  canonical : ∀ c, env.codecsLookup n = .ok c → ∀ s e, env.decode c s = .error e → e.isLookup = true ∨ e = .unicodeError

/-- what the libraries are assumed to do: which exceptions they can raise, and the shape of what they return.  (`urlsplit` and
`urljoin` do raise `ValueError`, for instance on `http://[`.) -/
structure Contract (env : Env) : Prop where
  urlsplit : ∀ s e, env.urlsplit s = .error e → e = .valueError
  urljoin : ∀ a b e, env.urljoin a b = .error e → e = .valueError
  pyStr : ∀ a, SfValue a → ∃ s, env.render.pyStr a = .ok s
  sfParse : ∀ t s v dups, env.sfParse t s = .ok v dups → SfShape t v
  idna : ∀ s e, env.idna s = .error e → e.isValueError = true
  utf8 : Usable env (str "utf-8")
  detected : ∀ s n, (env.chardet s).1 = some n → Usable env n

theorem utf8Encode_error {s : Str} {e : Exn} (h : utf8Encode s = .error e) : e = .unicodeError := by
  induction s with
  | nil => cases h
  | cons c s ih =>
    unfold utf8Encode at h
    split at h
    · cases h; rfl
    · cases hs : utf8Encode s with
      | error e' => rw [hs] at h; cases h; exact ih hs
      | ok b => rw [hs] at h; cases h

theorem urlquote_error {safe s : Str} {e : Exn} (h : urlquote safe s = .error e) : e = .unicodeError := by
  unfold urlquote at h
  cases hs : utf8Encode s with
  | error e' => rw [hs] at h; cases h; exact utf8Encode_error hs
  | ok b => rw [hs] at h; cases h

/-- converting an IRI raises nothing but a `ValueError` -/
theorem Contract.iriToUri {env : Env} (h : Contract env) (s : Str) (e : Exn) (he : env.iriToUri s = .error e) : e.isValueError = true := by
  unfold Env.iriToUri at he
  dsimp only [bind, Except.bind, pure, Except.pure] at he
  cases hu : env.urlsplit s with
  | error x => rw [hu] at he; cases he; rw [h.urlsplit _ _ hu]; rfl
  | ok u =>
    rw [hu] at he
    dsimp only at he
    cases ha : env.iriAuthority u.netloc with
    | error x =>
      rw [ha] at he; cases he
      unfold Env.iriAuthority at ha
      split at ha
      · rename_i host port _
        cases hi : env.idna host with
        | error y => rw [hi] at ha; cases ha; exact h.idna _ _ hi
        | ok y => rw [hi] at ha; cases ha
      · exact h.idna _ _ ha
    | ok a =>
      rw [ha] at he
      dsimp only at he
      cases h1 : urlquote (pcharSafe ++ str "/") u.path with
      | error x => rw [h1] at he; cases he; rw [urlquote_error h1]; rfl
      | ok p =>
        rw [h1] at he
        dsimp only at he
        cases h2 : urlquote (pcharSafe ++ str "/?") u.query with
        | error x => rw [h2] at he; cases he; rw [urlquote_error h2]; rfl
        | ok q =>
          rw [h2] at he
          dsimp only at he
          cases h3 : urlquote (pcharSafe ++ str "/?") u.fragment with
          | error x => rw [h3] at he; cases he; rw [urlquote_error h3]; rfl
          | ok f => rw [h3] at he; cases he

/-- the fields whose code lets exceptions escape for some values (see `C07_witnesses`) -/
def Perilous (f : FieldId) : Prop :=
  f = .link_ ∨ f = .reporting_endpoints_ ∨ f = .speculation_rules_ ∨ f = .nel_ ∨ f = .report_to_ ∨ f = .cache_status_

theorem Contract.library {env : Env} (h : Contract env) : Library env where
  urlsplit s e he := by rw [h.urlsplit s e he]; rfl
  urljoin a b e he := by rw [h.urljoin a b e he]; rfl

/-- `str()` of a structured value -/
theorem Contract.toStr {env : Env} (h : Contract env) {a : Val} (ha : SfValue a) : ∃ s, env.render.toStr a = .ok s := by
  unfold RenderEnv.toStr
  split <;> first | exact ⟨_, rfl⟩ | exact h.pyStr _ ha | skip
  rcases ha with ha | ⟨_, ha, _⟩
  · exact ha.elim
  · exact nomatch ha

/-- the value of a field when it is evaluated -/
def Readied (env : Env) (f : FieldId) (v : Val) : Prop :=
  match f.info.kind with
  | .list => ListOf env f v
  | .singleton => ParsedBy env f v
  | .broken => ListOf env f v
  | .sf t => SfShape t v
  | .json => ∃ l, v = .list l
  | .unknown => True

section
variable {env : Env}

theorem shape_list {v : Val} (h : SfShape (str "list") v) : ∃ l, v = .list l ∧ ∀ x ∈ l, SfMember x := by
  rcases h with ⟨e, _⟩ | ⟨_, h⟩ | ⟨e, _⟩
  · exact absurd e (by decide)
  · exact h
  · exact absurd e (by decide)
theorem shape_item {v : Val} (h : SfShape (str "item") v) : SfItem v := by
  rcases h with ⟨_, h⟩ | ⟨e, _⟩ | ⟨e, _⟩
  · exact h
  · exact absurd e (by decide)
  · exact absurd e (by decide)
theorem shape_dict {v : Val} (h : SfShape (str "dictionary") v) :
    ∃ l : List (Str × Val), v = .dict (l.map fun p => .tuple [.str p.1, p.2]) ∧ ∀ p ∈ l, SfMember p.2 := by
  rcases h with ⟨e, _⟩ | ⟨e, _⟩ | ⟨_, h⟩
  · exact absurd e (by decide)
  · exact absurd e (by decide)
  · exact h

theorem items_dict (l : List (Str × Val)) : (Val.dict (l.map fun p => .tuple [.str p.1, p.2])).items = .ok (l.map fun p => (.str p.1, p.2)) := by
  show Except.ok _ = _
  congr 1
  induction l with
  | nil => rfl
  | cons p l ih => exact congrArg _ ih

/-- the first component of a member -/
theorem member_idx {v : Val} (h : SfMember v) : ∃ a, v.idx 0 = .ok a ∧ SfValue a := by
  obtain ⟨a, p, rfl, _, h⟩ := h
  exact ⟨a, rfl, h⟩
theorem member_unpack {v : Val} (h : SfMember v) : ∃ a p, v.unpack2 = .ok (a, p) ∧ SfParams p ∧ SfValue a := by
  obtain ⟨a, p, rfl, hp, h⟩ := h
  exact ⟨a, p, rfl, hp, h⟩
theorem item_idx {v : Val} (h : SfItem v) : ∃ a p, v.idx 0 = .ok a ∧ v.idx 1 = .ok p ∧ v.unpack2 = .ok (a, p) ∧ SfParams p ∧ SfBare a := by
  obtain ⟨a, p, rfl, hp⟩ := h
  exact ⟨a, p, rfl, rfl, rfl, hp⟩

theorem lift_ok {α} {r : Except Exn α} {a : α} (h : r = .ok a) : Returns (W.lift r) := ⟨a, h⟩

theorem Returns.iter {l : List Val} : Returns (W.lift (Val.list l).iter) := ⟨l, rfl⟩

theorem sfParam_returns {env : Env} (hC : Contract env) (known : List KnownParam) (add u b n) {v : Val} (hv : SfBare v)
    (hd : ∀ k ∈ known, ∀ d, k.desc = some d → ∀ v, SfBare v → ∃ s, descFormat env.render d v = .ok s) :
    Returns (checkSfParam env.render known add u b n v) := by
  obtain ⟨s, hs⟩ := hC.toStr (.inl hv)
  have hl : Returns (W.lift (rawParamLine env.render n v)) := by
    unfold rawParamLine; rw [hs]; exact ⟨_, rfl⟩
  unfold checkSfParam
  split
  · exact .bind (.add ..) fun _ _ => hl
  · rename_i k hk
    tame
    all_goals try exact hl
    rename_i d hd' _
    obtain ⟨t, ht⟩ := hd k (List.mem_of_find?_eq_some hk) d hd' v hv
    rw [ht]; exact ⟨_, rfl⟩

theorem sfParams_returns {env : Env} (hC : Contract env) (known : List KnownParam) (add u b) {v : Val} (hv : SfParams v)
    (hd : ∀ k ∈ known, ∀ d, k.desc = some d → ∀ v, SfBare v → ∃ s, descFormat env.render d v = .ok s) :
    Returns (checkSfParams env.render known add u b v) := by
  obtain ⟨l, rfl, hl⟩ := hv
  unfold checkSfParams
  rw [items_dict]
  refine .bind ⟨_, rfl⟩ fun items hi => ?_
  cases hi
  refine .bind (.mapM _ _ fun a ha => ?_) fun _ _ => .pure _
  obtain ⟨p, hp, rfl⟩ := List.mem_map.1 ha
  exact sfParam_returns hC known add u b _ (hl p hp) hd

/-- a description with a place for the value can always be filled in -/
theorem desc_returns {env : Env} (hC : Contract env) {d : Str} (h : (descFormat.go d).isSome = true) {v : Val} (hv : SfBare v) :
    ∃ s, descFormat env.render d v = .ok s := by
  unfold descFormat
  obtain ⟨⟨a, b⟩, hg⟩ := Option.isSome_iff_exists.1 h
  rw [hg]
  obtain ⟨s, hs⟩ := hC.toStr (.inl hv)
  dsimp only
  rw [hs]
  exact ⟨_, rfl⟩

theorem proxy_desc {env : Env} (hC : Contract env) :
    ∀ k ∈ F.proxy_status.known, ∀ d, k.desc = some d → ∀ v, SfBare v → ∃ s, descFormat env.render d v = .ok s := by
  intro k hk d hd v hv
  refine desc_returns hC ?_ hv
  have : ∀ k ∈ F.proxy_status.known, ∀ d ∈ k.desc, (descFormat.go d).isSome = true := by decide +kernel
  exact this k hk d hd

theorem proxy_status_returns {c : Ctx} (hC : Contract c.env) (add : AddNote) {h : Handler} (hs : SfShape (str "list") h.value) :
    Returns (F.proxy_status.evaluate c add h) := by
  obtain ⟨l, e, hl⟩ := shape_list hs
  unfold F.proxy_status.evaluate F.statusList
  rw [e]
  refine .bind .iter fun items hi => ?_
  cases hi
  refine .bind (.mapM _ _ fun a ha => ?_) fun _ _ => .when fun _ => .add ..
  obtain ⟨t, p, hu, hp, ht⟩ := member_unpack (hl a ha)
  refine .bind (lift_ok hu) fun x hx => ?_
  cases hu.symm.trans hx
  refine .bind (Returns.lift ?_) fun _ _ => .bind (sfParams_returns hC _ _ _ _ hp (proxy_desc hC)) fun _ _ => .pure _
  unfold F.targetStr
  split
  · exact ⟨_, rfl⟩
  · exact hC.toStr ht

theorem badTypes_returns {l : List Val} (hl : ∀ x ∈ l, SfMember x) : Returns (F.badTypes l) := by
  unfold F.badTypes
  exact .bind (.mapM _ _ fun a ha => let ⟨x, hx, _⟩ := member_idx (hl a ha); lift_ok hx) fun _ _ => .pure _

theorem cdn_returns (add : AddNote) {h : Handler} (hs : SfShape (str "dictionary") h.value) : Returns (F.cdn_cache_control.evaluate add h) := by
  obtain ⟨l, e, hl⟩ := shape_dict hs
  unfold F.cdn_cache_control.evaluate
  rw [e, items_dict]
  refine .bind (.add ..) fun _ _ => .bind ⟨_, rfl⟩ fun items hi => ?_
  cases hi
  refine .forEach _ _ fun a ha => ?_
  obtain ⟨p, hp, rfl⟩ := List.mem_map.1 ha
  obtain ⟨x, hx, _⟩ := member_idx (hl p hp)
  unfold F.cdn_cache_control.member
  refine .bind (lift_ok hx) fun v hv => ?_
  tame

theorem use_as_dictionary_returns (add : AddNote) {h : Handler} (hs : SfShape (str "dictionary") h.value) : Returns (F.use_as_dictionary.evaluate add h) := by
  obtain ⟨l, e, hl⟩ := shape_dict hs
  unfold F.use_as_dictionary.evaluate
  rw [e, items_dict]
  refine .bind ⟨_, rfl⟩ fun items hi => ?_
  cases hi
  refine .forEach _ _ fun a ha => ?_
  obtain ⟨p, hp, rfl⟩ := List.mem_map.1 ha
  obtain ⟨x, hx, hv⟩ := member_idx (hl p hp)
  have hc : ∀ t n, Returns (F.use_as_dictionary.checkType add p.2 t n) := by
    intro t n
    unfold F.use_as_dictionary.checkType
    tame
    exact lift_ok hx
  unfold F.use_as_dictionary.member
  tame
  · exact hc _ _
  · rename_i l' hv' hgen
    cases hx.symm.trans hv'
    have : ∀ x ∈ l', SfItem x := by
      rcases hv with hv | ⟨l, e, hl⟩
      · exact hv.elim
      · cases e; exact hl
    refine .lift ?_
    clear hgen hv' hx hv
    induction l' with
    | nil => exact ⟨_, rfl⟩
    | cons i is ih =>
      obtain ⟨a, p, rfl, _⟩ := this i (by simp)
      unfold F.use_as_dictionary.allStr
      split
      · exact ⟨_, rfl⟩
      · dsimp only [Val.idx]
        split
        · rename_i h; cases h
        · split
          · exact ih fun x hx => this x (by simp [hx])
          · exact ⟨_, rfl⟩
  · exact lift_ok hx
  · exact hc _ _

theorem permissions_policy_returns {c : Ctx} (hC : Contract c.env) (add : AddNote) {h : Handler} (hs : SfShape (str "dictionary") h.value) :
    Returns (F.permissions_policy.evaluate c add h) := by
  obtain ⟨l, e, hl⟩ := shape_dict hs
  unfold F.permissions_policy.evaluate
  split
  · exact .pure _
  rw [e, items_dict]
  dsimp only
  have hf : (F.permissions_policy.features c (l.map fun p => (.str p.1, p.2))).2 = none := by
    have : ∀ p ∈ l, ∃ r, F.permissions_policy.feature c (.str p.1) p.2 = .ok r := by
      intro p hp
      obtain ⟨a, q, hu, _, hv⟩ := member_unpack (hl p hp)
      unfold F.permissions_policy.feature
      rw [hu]
      rcases hv with hv | ⟨its, rfl, hits⟩
      · cases a with
        | seq k xs => exact hv.elim
        | atom x => cases x <;> exact ⟨_, rfl⟩
      · have : ∀ its : List Val, (∀ x ∈ its, SfItem x) → ∃ r, its.mapM (F.permissions_policy.item c (.str p.1)) = .ok r := by
          intro its
          induction its with
          | nil => intro _; exact ⟨_, rfl⟩
          | cons i is ih =>
            intro hi
            obtain ⟨r, hr⟩ := ih fun x hx => hi x (by simp [hx])
            obtain ⟨a, q, rfl, _, ha⟩ := hi i (by simp)
            have : ∃ k, F.permissions_policy.item c (.str p.1) (.tuple [a, q]) = .ok k := by
              obtain ⟨s, hs⟩ := hC.toStr (.inl ha)
              unfold F.permissions_policy.item
              rw [if_neg (by simp [Val.isTuple])]
              dsimp only [Val.unpack2, Val.iter, bind, Except.bind]
              split
              · split <;> exact ⟨_, rfl⟩
              · split <;> exact ⟨_, rfl⟩
              · rw [hs]; exact ⟨_, rfl⟩
            obtain ⟨k, hk⟩ := this
            rw [List.mapM_cons, hk, hr]
            exact ⟨_, rfl⟩
        obtain ⟨r, hr⟩ := this its hits
        dsimp only [bind, Except.bind]
        rw [hr]
        exact ⟨_, rfl⟩
    clear e hl
    induction l with
    | nil => rfl
    | cons p l ih =>
      obtain ⟨r, hr⟩ := this p (by simp)
      rw [List.map_cons]
      unfold F.permissions_policy.features
      dsimp only
      rw [hr]
      exact ih fun x hx => this x (by simp [hx])
  rw [hf]
  exact .bind (.addWith ..) fun _ _ => .pure _

theorem accept_ch_returns (add : AddNote) {h : Handler} (hs : SfShape (str "list") h.value) : Returns (F.accept_ch.evaluate add h) := by
  obtain ⟨l, e, hl⟩ := shape_list hs
  unfold F.accept_ch.evaluate
  rw [e]
  refine .bind .iter fun items hi => ?_
  cases hi
  clear e
  induction l with
  | nil => exact .pure _
  | cons i is ih =>
    obtain ⟨x, hx, _⟩ := member_idx (hl i (by simp))
    unfold F.accept_ch.evaluate.go
    tame
    · exact ih fun x hx => hl x (by simp [hx])
    · exact lift_ok hx

theorem accept_query_item_returns {c : Ctx} (hC : Contract c.env) (add : AddNote) {x : Val} (hx : SfMember x) : Returns (F.accept_query.item c add x) := by
  obtain ⟨a, p, rfl, hp, ha⟩ := hx
  obtain ⟨s, hs⟩ := hC.toStr ha
  unfold F.accept_query.item
  refine .bind (lift_ok rfl) fun v hv => ?_
  cases hv
  tame
  all_goals first | exact media_return .. | exact lift_ok hs

theorem accept_query_returns {c : Ctx} (hC : Contract c.env) (add : AddNote) {h : Handler} (hs : SfShape (str "list") h.value) :
    Returns (F.accept_query.evaluate c add h) := by
  obtain ⟨l, e, hl⟩ := shape_list hs
  unfold F.accept_query.evaluate
  rw [e]
  refine .bind .iter fun items hi => ?_
  cases hi
  exact .bind (.mapM _ _ fun a ha => accept_query_item_returns hC add (hl a ha)) fun _ _ => .pure _

/-- the request's origin has a text -/
theorem originStr_ok {c : Ctx} {v : Val} {r : Msg} (hT : TypedHeaders c.env r) (hk : r.kind = .request)
    (hd : dget r.headers.parsed (str "origin") = some v) : ∃ s, F.originStr c v = .ok s := by
  have hc : classOf (str "origin") = .origin_ := by decide +kernel
  have ht := hT _ _ hd (by rw [hc, hk]; rfl)
  unfold Typed at ht
  rw [hc] at ht
  rcases ht with ⟨rfl, _⟩ | ht
  · exact ⟨_, rfl⟩
  · obtain ⟨c', add, h, s, _, hf, hr⟩ := ht
    unfold Handler.parse at hr
    rw [hf] at hr
    replace hr : (F.origin.parse add s).res = .ok v := hr
    unfold F.origin.parse at hr
    split at hr
    · cases hr; exact ⟨_, rfl⟩
    · dsimp only at hr
      obtain ⟨_, _, h2⟩ := W.bind_res_ok hr
      split at h2
      · split at h2
        · cases h2; exact ⟨_, rfl⟩
        · split at h2
          · cases h2; exact ⟨_, rfl⟩
          · exact nomatch h2
      · obtain ⟨_, _, h3⟩ := W.bind_res_ok h2
        exact nomatch h3

theorem str_parsed {f : FieldId} (hf : f = .access_control_allow_origin_) {v : Val} (h : ParsedBy env f v) : ∃ s, v = .str s := by
  obtain ⟨c, add, h, s, _, hf', hr⟩ := h
  unfold Handler.parse at hr
  rw [hf'] at hr
  subst hf
  cases hr
  exact ⟨_, rfl⟩

theorem pair_parsed {f : FieldId} (hf : f = .transfer_encoding_ ∨ f = .server_timing_) {v : Val} (h : ParsedBy env f v) :
    ∃ s d, v = .tuple [.str s, .dict d] := by
  obtain ⟨c, add, h, s, _, hf', hr⟩ := h
  unfold Handler.parse at hr
  rw [hf'] at hr
  rcases hf with rfl | rfl
  · replace hr : (F.transfer_encoding.parse c.env add s).res = .ok v := hr
    unfold F.transfer_encoding.parse at hr
    dsimp only at hr
    obtain ⟨_, _, h2⟩ := W.bind_res_ok hr
    obtain ⟨_, _, h3⟩ := W.bind_res_ok h2
    cases h3
    exact ⟨_, _, rfl⟩
  · replace hr : (F.server_timing.parse c add s).res = .ok v := hr
    unfold F.server_timing.parse at hr
    dsimp only at hr
    obtain ⟨_, _, h2⟩ := W.bind_res_ok hr
    cases h2
    exact ⟨_, _, rfl⟩

/-- an integer that was recorded, or nothing that counts -/
def IntOrNot (o : Option Val) : Prop := o = none ∨ o = some .none ∨ ∃ n, o = some (.int n)

theorem recorded_int {m : Msg} (hT : TypedHeaders env m) (name : Str) {f : FieldId} (hc : classOf name = f) (hk : f.info.kind = .singleton)
    (hv : f.validIn m.kind = true) (hp : ∀ v, ParsedBy env f v → ∃ n, v = .int n) : IntOrNot (dget m.headers.parsed name) := by
  cases hd : dget m.headers.parsed name with
  | none => exact .inl rfl
  | some v =>
    have ht := hT _ _ hd (by rw [hc]; exact hv)
    unfold Typed at ht
    rw [hc, hk] at ht
    rcases ht with ⟨rfl, _⟩ | ht
    · exact .inr (.inl rfl)
    · obtain ⟨n, rfl⟩ := hp v ht
      exact .inr (.inr ⟨n, rfl⟩)

theorem date_returns {c : Ctx} (hm : TypedHeaders c.env c.msg) (add : AddNote) (h : Handler) : Returns (F.date.evaluate c add h) := by
  unfold F.date.evaluate
  split
  · rename_i hk _ _
    have hk' : c.msg.kind = .response := by
      unfold Ctx.isRequest at hk
      cases h : c.msg.kind with
      | request => rw [h] at hk; exact nomatch hk
      | response => rfl
    split
    · exact .pure _
    · have := recorded_int hm (str "age") (f := .age_) (by decide +kernel) rfl (by rw [hk']; rfl) fun _ => age_parsed
      rcases this with h | h | ⟨n, h⟩ <;> rw [h] <;> dsimp only <;> tame
      all_goals (first | (rename_i hne; exact nomatch hne) | (rename_i hne; exact absurd rfl (hne n)) | (rename_i _ hne; exact absurd rfl (hne n)))
  · exact .pure _

theorem last_modified_returns {c : Ctx} (hm : TypedHeaders c.env c.msg) (hk : c.msg.kind = .response) (add : AddNote) (h : Handler) :
    Returns (F.last_modified.evaluate c add h) := by
  have hs : Returns (W.lift (F.servDate c)) := by
    have := recorded_int hm (str "date") (f := .date_) (by decide +kernel) rfl (by rw [hk]; rfl) fun _ => date_parsed
    unfold F.servDate
    rcases this with h | h | ⟨n, h⟩ <;> rw [h] <;> dsimp only
    · exact ⟨_, rfl⟩
    · exact ⟨_, rfl⟩
    · split <;> exact ⟨_, rfl⟩
  unfold F.last_modified.evaluate
  tame
  exact hs

theorem tokenPolicy_returns (add : AddNote) (ro t b) {h : Handler} (hs : SfShape (str "item") h.value) : Returns (F.tokenPolicy add ro t b h) := by
  obtain ⟨a, p, h0, _⟩ := item_idx (shape_item hs)
  unfold F.tokenPolicy
  refine .bind (lift_ok h0) fun _ _ => ?_
  tame

theorem referer_returns {c : Ctx} (hC : Contract c.env) (add : AddNote) (h : Handler) : Returns (F.referer.evaluate c add h) := by
  unfold F.referer.evaluate
  tame
  · rename_i he hne
    exact (he (hC.urlsplit _ _ hne)).elim
  · rename_i hne _ he
    exact absurd (hC.urlsplit _ _ he) hne

theorem transfer_encoding_returns {c : Ctx} (hrel : ∀ r, c.related = some r → TypedHeaders c.env r) (add : AddNote) {h : Handler}
    (hl : ListOf c.env .transfer_encoding_ h.value) : Returns (F.transfer_encoding.evaluate c add h) := by
  obtain ⟨l, e, hl⟩ := hl
  unfold F.transfer_encoding.evaluate
  rw [e]
  refine .bind .iter fun items hi => ?_
  cases hi
  refine .bind (.mapM _ _ fun a ha => ?_) fun codings _ => ?_
  · obtain ⟨s, d, rfl⟩ := pair_parsed (.inl rfl) (hl a ha)
    exact .bind ⟨_, rfl⟩ fun _ _ => .pure _
  · dsimp only
    have tail : ∀ u : List Str, Returns (do
        W.forEach u fun x => add.add .TRANSFER_CODING_UNWANTED [(str "coding", .str x)]
        W.when (codings.contains (str "identity")) (add.add .TRANSFER_CODING_IDENTITY)) :=
      fun u => .bind (.forEach _ _ fun _ _ => .add ..) fun _ _ => .when fun _ => .add ..
    split
    · exact .bind (.pure _) fun _ _ => tail _
    · split
      · rename_i req _ hreq
        split
        · rename_i hk
          obtain ⟨ts, ht, hx⟩ := codings_list (hrel req hreq) hk (n := str "te") (f := .te_) (by decide +kernel) (.inr rfl)
          rw [ht]
          refine .bind .iter fun items hi => ?_
          cases hi
          refine .bind (.mapM _ _ fun a ha => ?_) fun _ _ => .bind (.pure _) fun _ _ => tail _
          obtain ⟨s, d, rfl⟩ := hx a ha
          exact ⟨_, rfl⟩
        · exact .bind (.pure _) fun _ _ => tail _
      · exact .bind (.pure _) fun _ _ => tail _

theorem server_timing_returns {env : Env} (add : AddNote) {h : Handler} (hl : ListOf env .server_timing_ h.value) : Returns (F.server_timing.evaluate add h) := by
  obtain ⟨l, e, hl⟩ := hl
  unfold F.server_timing.evaluate
  rw [e]
  refine .bind .iter fun items hi => ?_
  cases hi
  refine .forEach _ _ fun a ha => ?_
  obtain ⟨s, d, rfl⟩ := pair_parsed (.inr rfl) (hl a ha)
  refine .bind (lift_ok rfl) fun v hv => ?_
  cases hv
  tame

theorem checkDirective_returns (r names add d) : Returns (F.cache_control.checkDirective r names add d) := by
  unfold F.cache_control.checkDirective
  tame

theorem ofList {f : FieldId} {v : Val} (h : ListOf env f v) : Returns (W.lift v.iter) := by
  obtain ⟨l, rfl, _⟩ := h
  exact .iter

theorem ofListContains {f : FieldId} {v x : Val} (h : ListOf env f v) : Returns (W.lift (v.contains x)) := by
  obtain ⟨l, rfl, _⟩ := h
  exact ⟨_, rfl⟩

theorem assign_returns {h : Handler} {w : W Val} (hw : Returns w) : Returns (h.assign w).2 := by
  obtain ⟨v, hv⟩ := hw
  unfold Handler.assign
  rw [hv]
  exact ⟨_, rfl⟩

/-- **C07** (evaluation) a value of the right shape is evaluated without an exception. -/
theorem evaluate_returns {c : Ctx} (hC : Contract c.env) (hm : TypedHeaders c.env c.msg)
    (hrel : ∀ r, c.related = some r → TypedHeaders c.env r ∧ (c.msg.kind = .response → r.kind = .request))
    (add : AddNote) (h : Handler) (hv : h.fid.validIn c.msg.kind = true ∨ h.fid.info.kind = .broken) (hp : ¬Perilous h.fid)
    (hr : Readied c.env h.fid h.value) : Returns (h.evaluate c add).2 := by
  unfold Readied at hr
  unfold Perilous at hp
  have hresp : h.fid.info.kind ≠ .broken → h.fid.info.validReq = false → c.msg.kind = .response := by
    intro hb hq
    rcases hv with hv | hv
    · cases hk : c.msg.kind with
      | response => rfl
      | request => rw [hk] at hv; exact nomatch hv.symm.trans hq
    · exact absurd hv hb
  unfold Handler.evaluate
  split
  all_goals first | (rename_i hf; rw [hf] at hr hresp; try dsimp only [Handler.keep]) | exact .pure _
  · exact accept_ch_returns add hr
  · exact assign_returns (accept_query_returns hC add hr)
  · obtain ⟨s, e⟩ := str_parsed rfl hr
    unfold F.access_control_allow_origin.evaluate F.checkAllowOrigin
    rw [e]
    refine .bind (lift_ok rfl) fun s' _ => ?_
    split
    · exact .pure _
    · rename_i o ho
      obtain ⟨r, hr', ho'⟩ := Option.bind_eq_some_iff.1 ho
      obtain ⟨t, ht⟩ := originStr_ok (hrel r hr').1 ((hrel r hr').2 (hresp (by decide) rfl)) ho'
      refine .bind (lift_ok ht) fun _ _ => ?_
      tame
  · unfold F.alt_svc.evaluate; tame
  · obtain ⟨a, p, h0, _⟩ := item_idx (shape_item hr)
    unfold F.available_dictionary.evaluate
    refine .bind (lift_ok h0) fun _ _ => ?_
    tame
  · unfold F.cache_control.evaluate F.cache_control.checkPrePost
    tame
    exact .forEach _ _ fun _ _ => checkDirective_returns ..
  · obtain ⟨l, e, hl⟩ := shape_list hr
    unfold F.cache_group_invalidation.evaluate
    rw [e]
    tame
    · exact badTypes_returns (by rename_i hi; cases hi; exact hl)
    · exact .iter
    · exact badTypes_returns (by rename_i hi; cases hi; exact hl)
    · exact .iter
  · obtain ⟨l, e, hl⟩ := shape_list hr
    unfold F.cache_groups.evaluate
    rw [e]
    tame
    · exact badTypes_returns (by rename_i hi; cases hi; exact hl)
    · exact .iter
  · exact absurd hf (by simp at hp; exact hp.2.2.2.2.2)
  · exact cdn_returns add hr
  · unfold F.clear_site_data.evaluate; tame; exact ofList hr
  · unfold F.content_language.evaluate; tame
    · exact .forEach _ _ fun _ _ => .add ..
    · exact ofList hr
  · unfold F.content_length.evaluate; tame
  · unfold F.csp.evaluate; tame
  · unfold F.csp.evaluate; tame
  · exact tokenPolicy_returns add _ _ _ hr
  · unfold F.coepRO.evaluate; tame; exact tokenPolicy_returns add _ _ _ hr
  · exact tokenPolicy_returns add _ _ _ hr
  · unfold F.coopRO.evaluate; tame; exact tokenPolicy_returns add _ _ _ hr
  · unfold F.corp.evaluate; tame
  · exact date_returns hm add h
  · obtain ⟨a, p, h0, _, _, _, hb⟩ := item_idx (shape_item hr)
    unfold F.deprecation.evaluate
    refine .bind (lift_ok h0) fun x hx => ?_
    cases h0.symm.trans hx
    tame
    exact .lift (hC.pyStr _ (.inl hb))
  · unfold F.expect.evaluate; tame; exact ofList hr
  · exact last_modified_returns hm (hresp (by decide) rfl) add h
  · exact absurd hf (by simp at hp; exact hp.1)
  · unfold F.max_forwards.evaluate; tame
  · exact absurd hf (by simp at hp; exact hp.2.2.2.1)
  · exact permissions_policy_returns hC add hr
  · unfold F.pragma.evaluate; tame; exact ofList hr
  · exact proxy_status_returns hC add hr
  · exact referer_returns hC add h
  · unfold F.referrer_policy.evaluate; tame
    · exact .forEach _ _ fun _ _ => .when fun _ => .add ..
    · exact ofList hr
  · exact absurd hf (by simp at hp; exact hp.2.2.2.2.1)
  · exact absurd hf (by simp at hp; exact hp.2.1)
  · exact server_timing_returns add hr
  · unfold F.set_cookie.evaluate; tame
    · exact ⟨_, rfl⟩
    · exact ofList hr
  · exact absurd hf (by simp at hp; exact hp.2.2.1)
  · unfold F.hsts.evaluate; tame
  · unfold F.sunset.evaluate; tame
  · exact transfer_encoding_returns (fun r h => (hrel r h).1) add hr
  · exact use_as_dictionary_returns add hr
  · refine assign_returns ?_; unfold F.vary.evaluate; tame; exact ofList hr
  · unfold F.via.evaluate; tame; exact ofList hr
  · unfold F.x_content_type_options.evaluate; tame; exact ofListContains hr
  · obtain ⟨c', add', h', s, _, hf', hr'⟩ := hr
    unfold Handler.parse at hr'
    rw [hf'] at hr'
    replace hr' : Except.ok (Val.str (F.upper s)) = .ok h.value := hr'
    unfold F.x_frame_options.evaluate
    rw [← Except.ok.inj hr']
    tame <;> exact ⟨_, rfl⟩

end

end HL.Props
