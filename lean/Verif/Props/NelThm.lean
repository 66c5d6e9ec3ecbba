import Verif.Props.PostThm

/-!
# NEL at the end of a response (C103)
-/

namespace HL.Props
open HL.F

/-! ### specification -/

/-- where a policy of `NEL` asks for reports to be sent -/
def nelTarget (policy : Val) : Option Str :=
  if policy.isDict then (match policy.get (str "report_to") with | some (.str s) => if s = [] then none else some s | _ => none) else none

/-- can an endpoint be used: is its URL a string, and secure? -/
def usable (env : Env) (base : Str) (url : Val) : Bool := match stringOf url with | some s => !insecureUrl env base s | none => false

/-- the endpoints that can be used -/
def usableEndpoints (env : Env) (base : Str) (endpoints : List (Str × Val × Val)) : List Str :=
  (endpoints.filter fun e => usable env base e.2.1).map (·.1)

/-- the endpoints that reports on the network will be sent to: those of policies nothing was wrong with -/
def nelEndpoints (env : Env) (base : Str) (endpoints : List (Str × Val × Val)) (l : List Val) : List Str :=
  l.filterMap fun p => match nelTarget p with
    | some s => if s ∈ usableEndpoints env base endpoints ∧ nelReports p = [] then some s else none
    | none => none

/-- what is reported on a `NEL` at the end: each endpoint that isn't defined; and which endpoints are in use, if any -/
def nelEndReports (env : Env) (base : Str) (endpoints : List (Str × Val × Val)) (l : List Val) : List Report :=
  (l.flatMap fun p => match nelTarget p with
    | some s => if s ∈ endpoints.map (·.1) then [] else [{ cls := .NEL_REPORT_TO_MISSING, vars := [(str "key", .str (str "report_to")), (str "value", .str s)] }]
    | none => []) ++
  sayIf (nelEndpoints env base endpoints l != []) { cls := .NEL_CONFIGURED, vars := [(str "endpoints", .str (join (str ", ") ((nelEndpoints env base endpoints l).map fun e => str "`" ++ e ++ str "`")))] }

/-! ### proof -/

theorem nel_member_res {add : AddNote} {policy : Val} {key : Str} {required ok expected} :
    (nel.member add policy key required ok expected).res = .ok (memberReports .NEL_MISSING_KEY .NEL_BAD_TYPE required ok expected key (policy.get key)).isEmpty := by
  unfold nel.member memberReports
  cases policy.get key with
  | none => cases required <;> rfl
  | some v => dsimp only; cases ok v <;> rfl

theorem nel_fraction_res {add : AddNote} {policy : Val} {key details : Str} :
    (nel.fraction add policy key details).res = .ok (fractionReports key details (policy.get key)).isEmpty := by
  unfold nel.fraction fractionReports
  cases policy.get key with
  | none => rfl
  | some v =>
    dsimp only
    rw [numVal_eq]
    cases numberOf v with
    | none => rfl
    | some q =>
      dsimp only
      by_cases hq : 0 ≤ q ∧ q ≤ 1
      · rw [if_pos hq, if_pos hq]; rfl
      · rw [if_neg hq, if_neg hq]; rfl

theorem isEmpty_both {α} (a b : List α) : (a ++ b).isEmpty = (a.isEmpty && b.isEmpty) := by cases a <;> rfl

theorem nel_policy_res {add : AddNote} (policy : Val) : (nel.policy add policy).res = .ok (nelReports policy).isEmpty := by
  unfold nel.policy nelReports
  cases policy.isDict with
  | false => rfl
  | true =>
    rw [if_neg (by simp), if_pos rfl]
    rw [W.bind_ok nel_member_res, W.bind_ok nel_member_res, W.bind_ok nel_member_res, W.bind_ok nel_fraction_res, W.bind_ok nel_fraction_res]
    show Except.ok _ = _
    simp only [isEmpty_both]

theorem nel_evaluate_res {add : AddNote} {hd : Handler} {l : List Val} (hv : hd.value = .list l) :
    (nel.evaluate add hd).res = .ok (l.map fun p => .bool (nelReports p).isEmpty) := by
  unfold nel.evaluate
  rw [hv]
  rw [W.bind_ok (show (W.lift (Val.list l).iter).res = .ok l from rfl)]
  dsimp only
  clear hv
  induction l with
  | nil => rfl
  | cons p l ih =>
    rw [List.mapM_cons]
    have h1 : (nel.policy add p >>= fun clean => (pure (.bool clean) : W Val)).res = .ok (.bool (nelReports p).isEmpty) := by
      rw [W.bind_ok (nel_policy_res p)]; rfl
    rw [W.bind_ok h1]
    dsimp only
    rw [W.bind_ok ih]
    rfl

theorem nel_finish {c : Ctx} {add : AddNote} {h0 : Handler} {xs : List Str} (hf : h0.fid = .nel_) (ha : h0.aux = {}) (hx : h0.value = textVal xs) (hok : (h0.finish c add).2.res = .ok ())
    {l : List Val} (hv : (h0.finish c add).1.value = .list l) : (h0.finish c add).1.aux.vals = l.map fun p => .bool (nelReports p).isEmpty := by
  have e : h0.finish c add = h0.finishJson c add := by unfold Handler.finish; rw [hf]; rfl
  rw [e] at hok hv ⊢
  unfold Handler.finishJson at hok hv ⊢
  by_cases ht : (!h0.value.truthy) = true
  · rw [if_pos ht] at hv ⊢
    rw [hx] at hv ht
    have : l = [] := by
      have : xs.map Val.str = l := by simpa [textVal] using hv
      cases xs with
      | nil => exact this.symm
      | cons x xs => exact absurd ht (by simp [textVal, Val.truthy])
    subst this
    rw [ha]; rfl
  · rw [if_neg ht, hx, joinValue_text] at hok hv ⊢
    dsimp only at hok hv ⊢
    generalize c.env.jsonLoads _ = r at hok hv ⊢
    cases r with
    | raises e =>
      cases hok
    | decodeError e => dsimp only at hv; cases hv
    | ok v =>
      dsimp only at hv ⊢
      unfold Handler.evalAfter at hv ⊢
      dsimp only at hv ⊢
      by_cases hn : v = .none
      · rw [if_pos hn] at hv; dsimp only at hv; rw [hn] at hv; cases hv
      · rw [if_neg hn] at hv ⊢
        generalize hh : ({ h0 with value := v } : Handler) = h1 at hv ⊢
        have e1 : h1.evaluate c add = h1.appendVals (nel.evaluate add h1) := by unfold Handler.evaluate; subst hh; rw [hf]
        rw [e1] at hv ⊢
        have hvl : h1.value = .list l := by
          revert hv
          unfold Handler.appendVals
          cases (nel.evaluate add h1).res <;> exact id
        unfold Handler.appendVals
        rw [nel_evaluate_res hvl]
        show h1.aux.vals ++ _ = _
        rw [← hh]
        show h0.aux.vals ++ _ = _
        rw [ha]
        rfl

section
variable {env : Env} {related : Option Msg} {ls ts : List Line} {chunks : List Str} {co : Bool} {m0 m m' : Msg}

/-- what `NEL` has noted of its policies -/
theorem Left.nel {t} {k : Msg} {n : Str} {h : Handler} (L : Left env related t ls k n h) (hn : n ∈ namesOf ls) (hc : classOf n = .nel_) (hk : k.kind = .response)
    {l : List Val} (hv : h.value = .list l) : h.aux.vals = l.map fun p => .bool (nelReports p).isEmpty := by
  obtain ⟨ctx, hd, hok, rfl⟩ := L.from_
  have hcs : classOf (spelling ls n) = .nel_ := by rw [classOf_spelling hn, hc]
  have hrh : readHandler ⟨env, k, related⟩ ls n = fedLines ⟨env, k, related⟩ (spelling ls n) (sent k.kind n ls) := by
    unfold readHandler handlerFor
    rw [if_pos]
    show okName k.kind (spelling ls n) = true
    rw [okName_class hcs (by decide), hk]
    rfl
  rw [hrh, fed_text (k := .json) (by rw [hcs]; rfl) (.inl rfl)] at hok hv ⊢
  unfold finishIn at hok hv ⊢
  refine nel_finish ?_ ?_ rfl hok hv
  · show (mkHandler _ _).fid = _; rw [mkHandler_fid, hcs]
  · show (mkHandler _ _).aux = _; rw [mkHandler_aux]

theorem validEndpoints_of {c : Ctx} {l : List (Str × Val × Val)} {vs : List Val}
    (h : validEndpoints c (l.map fun e => (Val.str e.1, Val.tuple [e.2.1, e.2.2])) = .ok vs) : vs = (usableEndpoints c.env c.msg.baseUri l).map .str := by
  unfold validEndpoints at h
  dsimp only [bind, Except.bind] at h
  split at h
  · cases h
  · rename_i r hr
    injection h with h
    subst h
    revert r
    induction l with
    | nil => intro r hr; injection hr with hr; subst hr; rfl
    | cons e l ih =>
      intro r hr
      rw [List.map_cons, List.mapM_cons] at hr
      dsimp only [bind, Except.bind] at hr
      split at hr
      · cases hr
      · rename_i x hx
        split at hr
        · cases hr
        · rename_i xs hxs
          injection hr with hr
          subst hr
          rw [List.flatten_cons, ih _ hxs]
          have : x = if usable c.env c.msg.baseUri e.2.1 then [Val.str e.1] else [] := by
            unfold usable
            rw [show (Val.tuple [e.2.1, e.2.2]).idx 0 = .ok e.2.1 from rfl] at hx
            dsimp only at hx
            have key : ∀ s, (Except.bind (insecureScheme c s) fun v => (pure (if v = true then [] else [Val.str e.1]) : Except Exn _)) = .ok x →
                x = if (!insecureUrl c.env c.msg.baseUri s) then [Val.str e.1] else [] := by
              intro s hx
              unfold Except.bind at hx
              split at hx
              · cases hx
              · rename_i b hb
                rw [← insecure_of hb]
                injection hx with hx
                subst hx
                cases b <;> rfl
            rcases string_cases e.2.1 with ⟨s, h | h⟩ | h
            · rw [h] at hx ⊢; exact key s hx
            · rw [h] at hx ⊢; exact key s hx
            · rw [h]
              split at hx
              · rename_i h'; rw [h'] at h; cases h
              · rename_i h'; rw [h'] at h; cases h
              · injection hx with hx; subst hx; rfl
          rw [this]
          unfold usableEndpoints
          rw [List.filter_cons]
          split <;> rfl

theorem mem_names {s : Str} {l : List Str} : (l.map Val.str).any (Val.pyEq (.str s)) = decide (s ∈ l) := mem_named

/-- one round of the loop of nel.py:118-131 -/
def nelRound (add : AddNote) (known valid vals : List Val) (x : Val × Nat) : W (List Str) :=
      if !x.1.isDict then pure []
      else match x.1.get (str "report_to") with
        | some (.str (ch :: r)) =>
          let rt : Val := .str (ch :: r)
          if !known.any (Val.pyEq rt) then do
            add.add .NEL_REPORT_TO_MISSING [(str "key", .str (str "report_to")), (str "value", rt)]
            return []
          else if valid.any (Val.pyEq rt) then
            match vals[x.2]? with
            | some v => return if v.truthy then [ch :: r] else []
            | none => W.throw .indexError
          else return []
        | _ => pure []

theorem nelTarget_cases (p : Val) : (p.isDict = false ∧ nelTarget p = none) ∨
    (p.isDict = true ∧ ((∃ ch r, p.get (str "report_to") = some (.str (ch :: r)) ∧ nelTarget p = some (ch :: r)) ∨
      (nelTarget p = none ∧ ∀ ch r, p.get (str "report_to") ≠ some (.str (ch :: r))))) := by
  unfold nelTarget
  cases p.isDict with
  | false => exact .inl ⟨rfl, rfl⟩
  | true =>
    refine .inr ⟨rfl, ?_⟩
    rw [if_pos rfl]
    split
    · rename_i s hs
      cases s with
      | nil => exact .inr ⟨rfl, fun _ _ h => by rw [hs] at h; cases h⟩
      | cons ch r => exact .inl ⟨ch, r, hs, rfl⟩
    · rename_i h
      exact .inr ⟨rfl, fun ch r he => h _ he⟩

theorem usable_known {env base eps} {s : Str} (h : s ∈ usableEndpoints env base eps) : s ∈ eps.map (·.1) := by
  unfold usableEndpoints at h
  rw [List.mem_map] at h ⊢
  obtain ⟨e, he, rfl⟩ := h
  exact ⟨e, (List.mem_filter.1 he).1, rfl⟩

/-- what a policy adds to the endpoints in use -/
def nelUse (env : Env) (base : Str) (eps : List (Str × Val × Val)) (p : Val) : Option Str :=
  match nelTarget p with
    | some s => if s ∈ usableEndpoints env base eps ∧ nelReports p = [] then some s else none
    | none => none

/-- what is missing for a policy -/
def nelMissing (eps : List (Str × Val × Val)) (p : Val) : List Report :=
  match nelTarget p with
    | some s => if s ∈ eps.map (·.1) then [] else [{ cls := .NEL_REPORT_TO_MISSING, vars := [(str "key", .str (str "report_to")), (str "value", .str s)] }]
    | none => []

theorem nelRound_tells {Xs : List NoteId} {add : AddNote} {env base} {eps : List (Str × Val × Val)} (h1 : Xs.contains .NEL_REPORT_TO_MISSING = true)
    {vals : List Val} {x : Val × Nat} (hx : vals[x.2]? = some (.bool (nelReports x.1).isEmpty)) :
    Tells Xs add (nelRound add (eps.map fun e => .str e.1) ((usableEndpoints env base eps).map .str) vals x) (nelMissing eps x.1)
      (fun r => r = (nelUse env base eps x.1).toList) := by
  unfold nelRound
  obtain ⟨p, i⟩ := x
  dsimp only at hx ⊢
  rcases nelTarget_cases p with ⟨hd, ht⟩ | ⟨hd, ⟨ch, r, hg, ht⟩ | ⟨ht, hg⟩⟩
  · rw [hd, if_pos (by rfl)]
    unfold nelMissing nelUse
    rw [ht]
    exact Tells.pure rfl
  · rw [hd, if_neg (by simp), hg]
    dsimp only
    have hk : (eps.map fun e => Val.str e.1).any (Val.pyEq (.str (ch :: r))) = decide ((ch :: r) ∈ eps.map (·.1)) := by
      rw [show (eps.map fun e => Val.str e.1) = (eps.map (·.1)).map .str by rw [List.map_map]; rfl, mem_named]
    rw [hk, mem_named]
    unfold nelMissing nelUse
    rw [ht]
    dsimp only
    by_cases hm : (ch :: r) ∈ eps.map (·.1)
    · rw [if_pos hm, if_neg (by simpa using hm)]
      by_cases hu : (ch :: r) ∈ usableEndpoints env base eps
      · rw [if_pos (by simpa using hu), hx]
        dsimp only
        refine Tells.pure ?_
        cases hp : nelReports p with
        | nil => rw [if_pos (c := _ ∧ _) ⟨hu, rfl⟩]; rfl
        | cons a b => rw [if_neg (c := _ ∧ _) (by simp)]; rfl
      · rw [if_neg (by simpa using hu), if_neg (c := _ ∧ _) fun h => hu h.1]
        exact Tells.pure rfl
    · rw [if_neg hm, if_pos (by simpa using hm)]
      refine (Tells.add h1).bind (l' := []) fun _ _ => Tells.pure ?_
      rw [if_neg (c := _ ∧ _) fun h => hm (usable_known h.1)]
      rfl
  · rw [hd, if_neg (by simp)]
    unfold nelMissing nelUse
    rw [ht]
    split
    · rename_i ch r h; exact absurd h (hg ch r)
    · exact Tells.pure rfl

theorem each_toList {α β γ} {f : α → Option β} {g : γ → α} {xs : List γ} {rs : List (List β)} (h : Each (fun x r => r = (f (g x)).toList) xs rs) :
    rs.flatten = (xs.map g).filterMap f := by
  induction h with
  | nil => rfl
  | cons h _ ih =>
    rw [List.flatten_cons, ih, h, List.map_cons, List.filterMap_cons]
    cases f (g _) <;> rfl

theorem zipIdx_fst {α} (l : List α) (n : Nat) : (l.zipIdx n).map (·.1) = l := by
  induction l generalizing n with
  | nil => rfl
  | cons x l ih => rw [List.zipIdx_cons, List.map_cons, ih]

theorem nelPost_tells {Xs : List NoteId} {add : AddNote} {c : Ctx} {eps : List (Str × Val × Val)}
    (he : ∀ items, (W.lift (if ((dget c.msg.headers.parsed (str "reporting-endpoints")).getD .none).truthy then ((dget c.msg.headers.parsed (str "reporting-endpoints")).getD .none).items else .ok [])).res = .ok items →
      items = eps.map fun e => (Val.str e.1, Val.tuple [e.2.1, e.2.2])) (h1 : Xs.contains .NEL_REPORT_TO_MISSING = true) (h2 : Xs.contains .NEL_CONFIGURED = true)
    {h : Handler} {l : List Val} (hv : h.value = .list l) (ha : h.aux.vals = l.map fun p => .bool (nelReports p).isEmpty) :
    Tells Xs add (nel.postCheck c add h) (nelEndReports c.env c.msg.baseUri eps l) (fun _ => True) := by
  unfold nel.postCheck
  by_cases ht : l = []
  · subst ht
    rw [if_pos (by rw [hv]; rfl)]
    exact Tells.pure trivial
  · rw [if_neg (by rw [hv]; simp [Val.truthy, ht])]
    dsimp only
    refine Tells.silent fun items hi => ?_
    have hi' := he items hi
    subst hi'
    refine Tells.silent fun valid hval => ?_
    have hval' := validEndpoints_of hval
    subst hval'
    refine Tells.silent fun ps hps => ?_
    rw [hv] at hps
    injection hps with hps
    subst hps
    rw [ha]
    unfold nelEndReports
    refine Tells.bind (p := fun r => r.flatten = nelEndpoints c.env c.msg.baseUri eps l) ?_ ?_
    · have hM := Tells.mapM (Xs := Xs) (add := add) (f := nelRound add (eps.map fun e => .str e.1) ((usableEndpoints c.env c.msg.baseUri eps).map .str) (l.map fun p => .bool (nelReports p).isEmpty))
        (g := fun x => nelMissing eps x.1) (p := fun x r => r = (nelUse c.env c.msg.baseUri eps x.1).toList) l.zipIdx (fun x hx => by
            refine nelRound_tells h1 ?_
            rw [List.getElem?_map, ((List.mem_zipIdx_iff_getElem? (x := x)).1 hx)]
            rfl)
      have e1 : (l.zipIdx.flatMap fun x => nelMissing eps x.1) = l.flatMap (nelMissing eps) := by
        conv => rhs; rw [← zipIdx_fst l 0, List.flatMap_map]
      rw [e1] at hM
      rw [List.map_map]
      refine (hM.mono fun r hr => ?_)
      rw [each_toList (f := nelUse c.env c.msg.baseUri eps) (g := fun x : Val × Nat => x.1) hr, zipIdx_fst]
      rfl
    · intro r hr
      rw [hr]
      refine (Tells.when h2).of ?_
      congr 1
      cases nelEndpoints c.env c.msg.baseUri eps l <;> rfl

/-- **C103** at the end of a response, each policy of `NEL` that names an endpoint which `Reporting-Endpoints` doesn't define is
reported; and NEL is reported to be configured exactly if some faultless policy names an endpoint that can be used -/
theorem C103_nel (E : Ended env related ls chunks co ts m0 m m') (hu : Unpadded ls) (hk : m0.kind = .response) (hj : JsonShape env) (hd : DictShape env) :
    Gained [.NEL_REPORT_TO_MISSING, .NEL_CONFIGURED] m m'
      (onFields [.nel_] (jsonOf env) (fun _ l => nelEndReports env m'.baseUri (endpointsOf env ls) l) ls ++
       onFields [.nel_] (jsonOf env) (fun _ l => nelEndReports env m'.baseUri (endpointsOf env ls) l) ts) := by
  have hX : PostAmong [.NEL_REPORT_TO_MISSING, .NEL_CONFIGURED] [.nel_] := by post_among
  refine E.tells hX (fun f hf v => ?_) (by rw [hk]; decide) (jsonOf env) Val.list (fun a => by simp) ?_ _ ?_ ?_
  · rw [List.mem_singleton] at hf
    subst hf
    unfold afterCheck
    split <;> simp_all [evaluated]
  · intro k ks n hf
    rw [List.mem_singleton] at hf
    rw [hf, json_value rfl hj]
    cases jsonOf env ks n <;> rfl
  · intro n a r hr
    unfold nelEndReports at hr
    rcases List.mem_append.1 hr with hr | hr
    · rw [List.mem_flatMap] at hr
      obtain ⟨p, _, hr⟩ := hr
      split at hr
      · split at hr
        · exact absurd hr (by simp)
        · rw [List.mem_singleton] at hr
          subst hr
          exact ⟨show ([str "key", str "value"] : List Str).Nodup by decide, by simp⟩
      · exact absurd hr (by simp)
    · rw [(mem_sayIf.1 hr).2]
      exact ⟨show ([str "endpoints"] : List Str).Nodup by decide, by simp⟩
  · intro add h t ks k n l hk' hf hn L _ hfid hv
    rw [List.mem_singleton] at hf
    rw [hf] at hfid
    refine postW_of (by unfold Handler.postCheck; rw [hfid]) (nelPost_tells (c := ⟨env, m', related⟩) (eps := endpointsOf env ls) ?_ rfl rfl hv (L.nel hn hf (hk'.trans hk) hv))
    intro items hi
    dsimp only at hi
    rw [E.endpoints hu hk hd] at hi
    unfold endpointsOf
    by_cases hn : str "reporting-endpoints" ∈ namesOf ls
    · rw [if_pos hn] at hi ⊢
      rw [Option.getD_some] at hi
      cases hdo : dictOf env ls (str "reporting-endpoints") with
      | none => rw [hdo] at hi; injection hi with hi; exact hi.symm
      | some d =>
        rw [hdo] at hi
        dsimp only at hi
        rw [items_entries] at hi
        cases d with
        | nil => injection hi with hi; exact hi.symm
        | cons a d => rw [if_pos (by rfl)] at hi; injection hi with hi; exact hi.symm
    · rw [if_neg hn] at hi ⊢
      injection hi with hi; exact hi.symm

end

end HL.Props
