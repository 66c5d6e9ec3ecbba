import Verif.Props.StructuredThm

/-!
# Cache-Status and Proxy-Status, in full (C95)

`hit=?0`, `stored=?0` and `collapsed=?0` make `evaluate` raise (F46): the theorems are about sections that were processed.
-/

namespace HL.Props
open HL.F

/-! ### specification -/

/-- the parameters of a member, by name -/
def memberParams : Val → List (Str × Val)
  | .dict xs => xs.filterMap fun x => match x with | .tuple [k, v] => some (k.text?.getD [], v) | _ => none
  | _ => []

/-- the parameters defined for `Cache-Status` (RFC 9211, section 2) -/
inductive CacheParam (v : Val) : Str → Prop where
  | hit : v.isBool = true → CacheParam v (str "hit")
  | stored : v.isBool = true → CacheParam v (str "stored")
  | collapsed : v.isBool = true → CacheParam v (str "collapsed")
  | fwd (s) : v = .token s → s ∈ [str "bypass", str "method", str "uri-miss", str "vary-miss", str "miss", str "request", str "stale", str "partial"] → CacheParam v (str "fwd")
  | fwdStatus : v.isInt = true → CacheParam v (str "fwd-status")
  | ttl : v.isInt = true → CacheParam v (str "ttl")
  | key : v.isStr = true → CacheParam v (str "key")
  | detail : v.isToken = true ∨ v.isStr = true → CacheParam v (str "detail")

def cacheParams : List Str := [str "hit", str "fwd", str "fwd-status", str "ttl", str "stored", str "collapsed", str "key", str "detail"]

/-- the parameters defined for `Proxy-Status` (RFC 9209, section 2.1) -/
inductive ProxyParam (v : Val) : Str → Prop where
  | error : v.isToken = true → ProxyParam v (str "error")
  | nextHop : v.isToken = true ∨ v.isStr = true → ProxyParam v (str "next-hop")
  | nextProtocol : v.isToken = true → ProxyParam v (str "next-protocol")
  | receivedStatus : v.isInt = true → ProxyParam v (str "received-status")
  | details : v.isToken = true ∨ v.isStr = true → ProxyParam v (str "details")

def proxyParams : List Str := [str "error", str "next-hop", str "next-protocol", str "received-status", str "details"]

open Classical in
/-- what is reported on a parameter -/
noncomputable def statusParamReports (defined : List Str) (ok : Val → Str → Prop) (unknown bad : NoteId) (p : Str × Val) : List Report :=
  if p.1 ∉ defined then [{ cls := unknown, vars := [(str "param", .str p.1)] }]
  else if ¬ ok p.2 p.1 then [{ cls := bad, vars := [(str "param", .str p.1), (str "value", p.2)] }]
  else []

/-- `s` in the place of the first `%s` of `d` -/
def filled (s : Str) : Str → Str
  | 37 :: 115 :: r => s ++ r
  | c :: r => c :: filled s r
  | [] => []

/-- a value as it is shown -/
def shown (env : Env) (v : Val) : Str := match env.render.toStr v with | .ok s => s | .error _ => []

open Classical in
/-- how a parameter is described: by the text for its value or that for the parameter, or as it is if it isn't right or has no such text -/
noncomputable def paramShown (env : Env) (known : List KnownParam) (ok : Val → Str → Prop) (p : Str × Val) : Str :=
  let raw := str "* `" ++ p.1 ++ str "`: `" ++ shown env p.2 ++ str "`"
  match known.find? (fun k => k.name == p.1) with
  | none => raw
  | some k =>
    if ¬ ok p.2 p.1 then raw
    else match k.valueDesc, k.desc with
      | [], none => raw
      | [], some d => str "* " ++ (if p.2 = .bool true then d else filled (shown env p.2) d)
      | ds, _ => match ds.find? (fun q => decide (p.2 = .token q.1)) with
        | some q => str "* " ++ q.2
        | none => raw

/-- the name of the cache or proxy -/
def targetShown (env : Env) : Val → Str
  | .bytes b => b.map fun x => if x < 128 then x else 65533
  | v => shown env v

/-- what is reported on a list of caches or proxies: each parameter that isn't defined or has the wrong value, and a description of all -/
noncomputable def statusReports (env : Env) (known : List KnownParam) (defined : List Str) (ok : Val → Str → Prop) (note unknown bad : NoteId) (l : List (Val × Val)) : List Report :=
  (l.flatMap fun e => (memberParams e.2).flatMap (statusParamReports defined ok unknown bad)) ++
  sayIf (l != []) { cls := note, vars := [(str "status", .str (join (str "\n\n")
    (l.map fun e => str "**" ++ targetShown env e.1 ++ str "**:\n" ++ join [10] ((memberParams e.2).map (paramShown env known ok)))))] }

/-! ### proof -/

theorem filled_eq (s : Str) : ∀ d, (match descFormat.go d with | some (a, b) => a ++ s ++ b | none => d) = filled s d := by
  intro d
  fun_induction descFormat.go d with
  | case1 r => simp [filled]
  | case2 c r h ih =>
    rw [filled]
    · cases hg : descFormat.go r with
      | none => rw [hg] at ih; simp only [Option.map_none]; rw [← ih]
      | some q => rw [hg] at ih; simp only [Option.map_some]; rw [← ih]; simp
    · intro r' h1 h2; exact h r' h1 h2
  | case3 => rfl

/-- the specification of the parameters agrees with a table -/
structure TableSays (known : List KnownParam) (defined : List Str) (ok : Val → Str → Prop) : Prop where
  names : ∀ s, s ∈ defined ↔ (known.find? (fun k => k.name == s)).isSome = true
  types : ∀ s k, known.find? (fun k => k.name == s) = some k → ∀ v, ok v s ↔ k.type.has v = true ∧ (k.values = [] ∨ ∃ t ∈ k.values, v = .token t)
  tokens : ∀ k ∈ known, (k.values ≠ [] ∨ k.valueDesc ≠ []) → k.type = .token
  described : ∀ k ∈ known, k.valueDesc ≠ [] ∨ k.desc.isSome = true

theorem raw_tells {Xs add} {env : Env} {name : Str} {v : Val} :
    Tells Xs add (W.lift (rawParamLine env.render name v)) [] (fun s => s = str "* `" ++ name ++ str "`: `" ++ shown env v ++ str "`") := by
  refine Tells.lifted fun s hs => ?_
  unfold rawParamLine at hs
  unfold shown
  cases h : env.render.toStr v with
  | error e => rw [h] at hs; exact nomatch hs
  | ok x => rw [h] at hs; injection hs with hs; exact hs.symm

theorem token_of {v : Val} (h : SfType.token.has v = true) : ∃ s, v = .token s := by
  unfold SfType.has at h
  dsimp only at h
  unfold Val.isToken at h
  split at h
  · exact ⟨_, rfl⟩
  · exact nomatch h

theorem pyEq_token (s t : Str) : Val.pyEq (.token s) (.token t) = decide (Val.token s = .token t) := by
  show (s == t) = _
  rw [Bool.eq_iff_iff]
  simp

/-- how a parameter with a right value is described -/
def describedBy (env : Env) (k : KnownParam) (name : Str) (v : Val) : Str :=
  match k.valueDesc, k.desc with
  | [], none => str "* `" ++ name ++ str "`: `" ++ shown env v ++ str "`"
  | [], some d => str "* " ++ (if v = .bool true then d else filled (shown env v) d)
  | ds, _ => match ds.find? (fun q => decide (v = .token q.1)) with
    | some q => str "* " ++ q.2
    | none => str "* `" ++ name ++ str "`: `" ++ shown env v ++ str "`"

theorem shown_ok {env known} {ok : Val → Str → Prop} {name v k} (hf : known.find? (fun k : KnownParam => k.name == name) = some k) (hy : ok v name) :
    paramShown env known ok (name, v) = describedBy env k name v := by
  unfold paramShown
  dsimp only
  rw [hf]
  dsimp only
  rw [if_neg (fun h => h hy)]
  rfl

theorem shown_bad {env known} {ok : Val → Str → Prop} {name v k} (hf : known.find? (fun k : KnownParam => k.name == name) = some k) (hy : ¬ ok v name) :
    paramShown env known ok (name, v) = str "* `" ++ name ++ str "`: `" ++ shown env v ++ str "`" := by
  unfold paramShown
  dsimp only
  rw [hf]
  dsimp only
  rw [if_pos hy]

theorem described_tells {Xs : List NoteId} {add : AddNote} {env : Env} {k : KnownParam} {name v} (hne : k.valueDesc ≠ [] ∨ k.desc.isSome = true)
    (ht : k.valueDesc ≠ [] → ∃ s, v = .token s) :
    Tells Xs add (if !k.valueDesc.isEmpty then
      match k.valueDesc.find? (fun p => Val.pyEq v (.token p.1)) with
      | some (_, d) => pure (str "* " ++ d)
      | none => W.lift (rawParamLine env.render name v)
    else match k.desc with
      | some d =>
        if v = .bool true then pure (str "* " ++ d)
        else W.lift ((descFormat env.render d v).map (str "* " ++ ·))
      | none =>
        if v = .bool true then pure (str "* `" ++ name ++ str "`")
        else W.lift (rawParamLine env.render name v)) [] (fun s => s = describedBy env k name v) := by
  unfold describedBy
  cases hv : k.valueDesc with
  | nil =>
    rw [if_neg (by simp)]
    cases hd : k.desc with
    | none => rw [hv, hd] at hne; simp at hne
    | some d =>
      dsimp only
      by_cases hb : v = .bool true
      · rw [if_pos hb, if_pos hb]; exact Tells.pure rfl
      · rw [if_neg hb, if_neg hb]
        refine Tells.lifted fun s hs => ?_
        cases hq : descFormat env.render d v with
        | error e => rw [hq] at hs; exact nomatch hs
        | ok x =>
          rw [hq] at hs
          injection hs with hs
          rw [← hs, ← filled_eq]
          congr 1
          unfold descFormat at hq
          unfold shown
          cases hg : descFormat.go d with
          | none =>
            rw [hg] at hq
            dsimp only at hq ⊢
            split at hq <;> first | (injection hq with hq; exact hq.symm) | exact nomatch hq
          | some q =>
            rw [hg] at hq
            dsimp only at hq ⊢
            cases hr : env.render.toStr v with
            | error e => rw [hr] at hq; exact nomatch hq
            | ok y => rw [hr] at hq; injection hq with hq; exact hq.symm
  | cons q0 qs =>
    rw [if_pos (by rfl)]
    obtain ⟨s, rfl⟩ := ht (by rw [hv]; simp)
    have he : (fun p : Str × Str => Val.pyEq (.token s) (.token p.1)) = fun q => decide (Val.token s = .token q.1) := by
      funext p; exact pyEq_token _ _
    rw [he]
    dsimp only
    cases (q0 :: qs).find? (fun q : Str × Str => decide (Val.token s = .token q.1)) with
    | none => exact raw_tells
    | some q => exact Tells.pure rfl

theorem param_tells {Xs : List NoteId} {add : AddNote} {env : Env} {known : List KnownParam} {defined ok unknown bad} (hT : TableSays known defined ok)
    (hu : Xs.contains unknown = true) (hb : Xs.contains bad = true) (name : Str) (v : Val) :
    Tells Xs add (checkSfParam env.render known add unknown bad name v) (statusParamReports defined ok unknown bad (name, v)) (fun s => s = paramShown env known ok (name, v)) := by
  have hn := hT.names name
  have ht := hT.types name
  have hmem : ∀ k, known.find? (fun k => k.name == name) = some k → k ∈ known := fun k h => List.mem_of_find?_eq_some h
  unfold checkSfParam statusParamReports
  cases hf : known.find? (fun k => k.name == name) with
  | none =>
    rw [hf] at hn
    have : name ∉ defined := fun h => nomatch hn.1 h
    rw [if_pos (show (name, v).1 ∉ defined from this)]
    refine ((Tells.add hu).bind fun _ _ => raw_tells).mono fun s hs => ?_
    rw [hs]
    unfold paramShown
    dsimp only
    rw [hf]
  | some k =>
    have hk := hmem k hf
    have ht := ht k hf v
    rw [hf] at hn
    rw [if_neg (c := (name, v).1 ∉ defined) (fun h => h (hn.2 rfl))]
    dsimp only
    have hbad : ∀ (hno : ¬ ok v name), Tells Xs add (do
        add.add bad [(str "param", .str name), (str "value", v)]
        W.lift (rawParamLine env.render name v)) [{ cls := bad, vars := [(str "param", .str name), (str "value", v)] }] (fun s => s = paramShown env known ok (name, v)) := by
      intro hno
      rw [shown_bad hf hno]
      exact (Tells.add hb).bind fun _ _ => raw_tells
    by_cases h1 : k.type.has v = true
    · rw [if_neg (c := (!k.type.has v) = true) (by rw [h1]; simp)]
      have htok : k.values ≠ [] ∨ k.valueDesc ≠ [] → ∃ s, v = .token s := fun h => by
        have := hT.tokens k hk h
        rw [this] at h1
        exact token_of h1
      by_cases h2 : (!k.values.isEmpty && !k.values.any (fun t => Val.pyEq v (.token t))) = true
      · have hno : ¬ ok v name := by
          intro hy
          rw [Bool.and_eq_true] at h2
          have hne : k.values ≠ [] := by simpa using h2.1
          obtain ⟨s, rfl⟩ := htok (.inl hne)
          rcases (ht.1 hy).2 with h | ⟨t, hm, h⟩
          · exact hne h
          · have : k.values.any (fun t => Val.pyEq (.token s) (.token t)) = true := List.any_eq_true.2 ⟨t, hm, by rw [pyEq_token]; simpa using h⟩
            rw [this] at h2
            exact nomatch h2.2
        rw [if_pos h2, if_pos hno]
        exact hbad hno
      · have hy : ok v name := by
          refine ht.2 ⟨h1, ?_⟩
          by_cases hne : k.values = []
          · exact .inl hne
          · refine .inr ?_
            obtain ⟨s, rfl⟩ := htok (.inl hne)
            have hany : k.values.any (fun t => Val.pyEq (.token s) (.token t)) = true := by
              cases hq : k.values.any (fun t => Val.pyEq (.token s) (.token t)) with
              | true => rfl
              | false => rw [hq] at h2; exact absurd (by simpa using hne) h2
            obtain ⟨t, hm, h⟩ := List.any_eq_true.1 hany
            rw [pyEq_token] at h
            exact ⟨t, hm, by simpa using h⟩
        rw [if_neg h2, if_neg (c := ¬ ok v name) (fun h => h hy), shown_ok hf hy]
        exact described_tells (hT.described k hk) fun h => htok (.inr h)
    · have hno : ¬ ok v name := fun hy => h1 (ht.1 hy).1
      rw [if_pos (c := (!k.type.has v) = true) (by simpa using h1), if_pos hno]
      exact hbad hno

theorem params_tells {Xs : List NoteId} {add : AddNote} {env : Env} {known : List KnownParam} {defined ok unknown bad} (hT : TableSays known defined ok)
    (hu : Xs.contains unknown = true) (hb : Xs.contains bad = true) (ps : Val) :
    Tells Xs add (checkSfParams env.render known add unknown bad ps) ((memberParams ps).flatMap (statusParamReports defined ok unknown bad))
      (fun s => s = join [10] ((memberParams ps).map (paramShown env known ok))) := by
  unfold checkSfParams
  refine Tells.silent fun items hi => ?_
  have hm : memberParams ps = items.map fun p => (p.1.text?.getD [], p.2) := by
    unfold Val.items at hi
    split at hi
    · injection hi with hi
      rw [← hi]
      rw [List.map_filterMap]
      unfold memberParams
      dsimp only
      apply congrArg (fun f => List.filterMap f _)
      funext x
      split
      · rfl
      · rename_i hx
        split
        · exact absurd rfl (hx _ _)
        · rfl
    · exact nomatch hi
  rw [hm, List.flatMap_map, List.map_map]
  refine ((Tells.mapM items (g := fun p => statusParamReports defined ok unknown bad (p.1.text?.getD [], p.2)) (p := fun p s => s = paramShown env known ok (p.1.text?.getD [], p.2))
    fun p _ => param_tells hT hu hb _ _).bind (l' := []) fun bs hbs => ?_).of (List.append_nil _)
  refine Tells.pure ?_
  congr 1
  clear hi hm
  induction hbs with
  | nil => rfl
  | cons h _ ih => rw [List.map_cons, ← ih, h]; rfl

theorem target_of {c : Ctx} {v : Val} {s : Str} (h : targetStr c v = .ok s) : s = targetShown c.env v := by
  unfold targetStr at h
  unfold targetShown
  split at h
  · injection h with h; exact h.symm
  · rename_i hb
    split
    · exact absurd rfl (hb _)
    · unfold shown; rw [h]

theorem status_tells {c : Ctx} {add : AddNote} {hd : Handler} {Xs : List NoteId} {known : List KnownParam} {defined ok note unknown bad} (hT : TableSays known defined ok)
    (hn : Xs.contains note = true) (hu : Xs.contains unknown = true) (hb : Xs.contains bad = true) {l : List (Val × Val)} (hv : hd.value = ofMembers l) :
    Tells Xs add (statusList c add known note unknown bad hd) (statusReports c.env known defined ok note unknown bad l) (fun _ => True) := by
  unfold statusList statusReports
  refine Tells.silent fun items hi => ?_
  rw [hv] at hi
  injection hi with hi
  subst hi
  have hm := Tells.mapM (Xs := Xs) (add := add) (f := fun item : Val => do
      let (target, params) ← W.lift item.unpack2
      let t ← W.lift (targetStr c target)
      let p ← checkSfParams c.env.render known add unknown bad params
      return str "**" ++ t ++ str "**:\n" ++ p)
    (g := fun item => match item with | .tuple [_, ps] => (memberParams ps).flatMap (statusParamReports defined ok unknown bad) | _ => [])
    (p := fun item s => match item with | .tuple [v, ps] => s = str "**" ++ targetShown c.env v ++ str "**:\n" ++ join [10] ((memberParams ps).map (paramShown c.env known ok)) | _ => True)
    (l.map fun p => Val.tuple [p.1, p.2]) (by
      intro x hx
      obtain ⟨e, _, rfl⟩ := List.mem_map.1 hx
      refine Tells.silent fun u hu' => ?_
      injection hu' with hu'
      subst hu'
      dsimp only
      refine Tells.silent fun t ht => ?_
      rw [target_of ht]
      exact ((params_tells hT hu hb e.2).bind (l' := []) fun q hq => Tells.pure (by rw [hq])).of (List.append_nil _))
  rw [List.flatMap_map] at hm
  refine hm.bind fun ss hss => ?_
  have hs : ss = l.map fun e => str "**" ++ targetShown c.env e.1 ++ str "**:\n" ++ join [10] ((memberParams e.2).map (paramShown c.env known ok)) := by
    clear hv hm
    induction l generalizing ss with
    | nil => cases hss; rfl
    | cons e l ih =>
      cases hss with
      | cons h1 h2 => rw [List.map_cons, ← ih _ h2, h1]
  rw [hs]
  refine (Tells.when hn).of ?_
  congr 1
  cases l <;> rfl

theorem cache_table : TableSays cache_status.known cacheParams CacheParam where
  names s := by
    rw [List.find?_isSome]
    constructor
    · intro h
      have : ∀ s ∈ cacheParams, ∃ k ∈ cache_status.known, (k.name == s) = true := by decide +kernel
      exact this s h
    · rintro ⟨k, hk, h⟩
      have : ∀ k ∈ cache_status.known, k.name ∈ cacheParams := by decide +kernel
      have := this k hk
      rwa [eq_of_beq h] at this
  types s k hf v := by
    have hname := List.find?_some hf
    have hmem := List.mem_of_find?_eq_some hf
    have hs : s = k.name := (eq_of_beq hname).symm
    subst hs
    clear hf hname
    unfold cache_status.known at hmem
    simp only [List.mem_cons, List.not_mem_nil, or_false] at hmem
    rcases hmem with rfl | rfl | rfl | rfl | rfl | rfl | rfl | rfl
    · exact ⟨fun h => by cases h; exact ⟨‹_›, .inl rfl⟩, fun h => .hit h.1⟩
    · constructor
      · intro h
        cases h with
        | fwd s h1 h2 => subst h1; exact ⟨rfl, .inr ⟨s, h2, rfl⟩⟩
      · rintro ⟨_, h | ⟨t, h1, h2⟩⟩
        · exact nomatch h
        · exact .fwd t h2 h1
    · exact ⟨fun h => by cases h; exact ⟨‹_›, .inl rfl⟩, fun h => .fwdStatus h.1⟩
    · exact ⟨fun h => by cases h; exact ⟨‹_›, .inl rfl⟩, fun h => .ttl h.1⟩
    · exact ⟨fun h => by cases h; exact ⟨‹_›, .inl rfl⟩, fun h => .stored h.1⟩
    · exact ⟨fun h => by cases h; exact ⟨‹_›, .inl rfl⟩, fun h => .collapsed h.1⟩
    · exact ⟨fun h => by cases h; exact ⟨‹_›, .inl rfl⟩, fun h => .key h.1⟩
    · exact ⟨fun h => by cases h; exact ⟨by simpa [SfType.has] using ‹_ ∨ _›, .inl rfl⟩, fun h => .detail (by simpa [SfType.has] using h.1)⟩
  tokens := by decide +kernel
  described := by decide +kernel

theorem proxy_table : TableSays proxy_status.known proxyParams ProxyParam where
  names s := by
    rw [List.find?_isSome]
    constructor
    · intro h
      have : ∀ s ∈ proxyParams, ∃ k ∈ proxy_status.known, (k.name == s) = true := by decide +kernel
      exact this s h
    · rintro ⟨k, hk, h⟩
      have : ∀ k ∈ proxy_status.known, k.name ∈ proxyParams := by decide +kernel
      have := this k hk
      rwa [eq_of_beq h] at this
  types s k hf v := by
    have hname := List.find?_some hf
    have hmem := List.mem_of_find?_eq_some hf
    have hs : s = k.name := (eq_of_beq hname).symm
    subst hs
    clear hf hname
    unfold proxy_status.known at hmem
    simp only [List.mem_cons, List.not_mem_nil, or_false] at hmem
    rcases hmem with rfl | rfl | rfl | rfl | rfl
    · exact ⟨fun h => by cases h; exact ⟨‹_›, .inl rfl⟩, fun h => .error h.1⟩
    · exact ⟨fun h => by cases h; exact ⟨by simpa [SfType.has] using ‹_ ∨ _›, .inl rfl⟩, fun h => .nextHop (by simpa [SfType.has] using h.1)⟩
    · exact ⟨fun h => by cases h; exact ⟨‹_›, .inl rfl⟩, fun h => .nextProtocol h.1⟩
    · exact ⟨fun h => by cases h; exact ⟨‹_›, .inl rfl⟩, fun h => .receivedStatus h.1⟩
    · exact ⟨fun h => by cases h; exact ⟨by simpa [SfType.has] using ‹_ ∨ _›, .inl rfl⟩, fun h => .details (by simpa [SfType.has] using h.1)⟩
  tokens := by decide +kernel
  described := by decide +kernel

theorem statusReports_clean {env known defined ok note unknown bad l} {Xs : List NoteId} (hn : Xs.contains note = true) (hu : Xs.contains unknown = true) (hb : Xs.contains bad = true) :
    ∀ r ∈ statusReports env known defined ok note unknown bad l, r.Clean ∧ Xs.contains r.cls = true := by
  intro r hr
  unfold statusReports at hr
  rcases List.mem_append.1 hr with hr | hr
  · obtain ⟨e, _, hr⟩ := List.mem_flatMap.1 hr
    obtain ⟨p, _, hr⟩ := List.mem_flatMap.1 hr
    unfold statusParamReports at hr
    split at hr
    · rw [List.mem_singleton] at hr; subst hr; exact ⟨⟨by simp, by simp⟩, hu⟩
    · split at hr
      · rw [List.mem_singleton] at hr; subst hr
        exact ⟨⟨show ([str "param", str "value"] : List Str).Nodup by decide, by simp⟩, hb⟩
      · exact absurd hr (by simp)
  · obtain ⟨_, rfl⟩ := mem_sayIf.1 hr
    exact ⟨⟨by simp, by simp⟩, hn⟩

section
variable {env : Env} {related : Option Msg} {t : Bool} {ls : List Line} {m m' : Msg}

/-- **C95** `Cache-Status`, in full -/
theorem C95_cache_status (P : Processed env related t ls m m') (hk : m.kind = .response) (hi : ListShape env) :
    Reported [.CACHE_STATUS, .CACHE_STATUS_UNKNOWN_PARAM, .CACHE_STATUS_BAD_PARAM_VAL] m m' ((namesFor .cache_status_ ls).flatMap fun n =>
      (onParsed (listOf env ls n) (statusReports env cache_status.known cacheParams CacheParam .CACHE_STATUS .CACHE_STATUS_UNKNOWN_PARAM .CACHE_STATUS_BAD_PARAM_VAL)).map (fieldSubject n, ·)) := by
  have hX : EvalAmong [.CACHE_STATUS, .CACHE_STATUS_UNKNOWN_PARAM, .CACHE_STATUS_BAD_PARAM_VAL] [.cache_status_] := by eval_among
  refine P.members_tells hX hi rfl (by rw [hk]; rfl) _ (fun l => statusReports_clean rfl rfl rfl) ?_
  intro c add hd l hdur hf hval
  unfold Handler.evaluate
  rw [hf, ← hdur.env]
  exact status_tells cache_table rfl rfl rfl hval

/-- **C95** `Proxy-Status`, in full -/
theorem C95_proxy_status (P : Processed env related t ls m m') (hk : m.kind = .response) (hi : ListShape env) :
    Reported [.PROXY_STATUS, .PROXY_STATUS_UNKNOWN_PARAM, .PROXY_STATUS_BAD_PARAM_VAL] m m' ((namesFor .proxy_status_ ls).flatMap fun n =>
      (onParsed (listOf env ls n) (statusReports env proxy_status.known proxyParams ProxyParam .PROXY_STATUS .PROXY_STATUS_UNKNOWN_PARAM .PROXY_STATUS_BAD_PARAM_VAL)).map (fieldSubject n, ·)) := by
  have hX : EvalAmong [.PROXY_STATUS, .PROXY_STATUS_UNKNOWN_PARAM, .PROXY_STATUS_BAD_PARAM_VAL] [.proxy_status_] := by eval_among
  refine P.members_tells hX hi rfl (by rw [hk]; rfl) _ (fun l => statusReports_clean rfl rfl rfl) ?_
  intro c add hd l hdur hf hval
  unfold Handler.evaluate
  rw [hf, ← hdur.env]
  exact status_tells proxy_table rfl rfl rfl hval

end

end HL.Props
