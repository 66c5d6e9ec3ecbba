import Verif.Props.StatusFields

/-!
# Permissions-Policy, NEL, Report-To and Accept-Query, in full (C96, C97, C98)
-/

namespace HL.Props
open HL.F Syntax

/-! ### Permissions-Policy: specification -/

/-- the features that shouldn't be allowed for all -/
def sensitive : List Str :=
  [str "camera", str "microphone", str "geolocation", str "payment", str "usb", str "serial", str "magnetometer", str "accelerometer", str "gyroscope", str "screen-wake-lock"]

/-- what is said of an item of an allowlist: an origin is a string that doesn't look like a keyword, a keyword is `self` or `src` -/
def allowItem (env : Env) (feature : Str) (v : Val) : List (NoteId × Dict Val) :=
  match v with
  | .token t => if t = str "self" ∨ t = str "src" then [] else [(.PERMISSIONS_POLICY_UNKNOWN_TOKEN, [(str "token", .str t), (str "feature", .str feature)])]
  | .str s => if s = str "self" ∨ s = str "src" ∨ s = str "*" ∨ s = str "none" then [(.PERMISSIONS_POLICY_QUOTED_KEYWORD, [(str "value", .str s), (str "feature", .str feature)])] else []
  | v => [(.PERMISSIONS_POLICY_INVALID_ITEM_TYPE, [(str "item", .str (shown env v)), (str "feature", .str feature)])]

/-- the items of an inner list -/
def innerItems (l : List Val) : List Val := l.filterMap fun i => match i with | .tuple [v, _] => some v | _ => none

/-- what is said of the allowlist of a feature: an inner list, or `*` -/
def allowlistKids (env : Env) (feature : Str) (v : Val) : List (NoteId × Dict Val) :=
  match v with
  | .list l => (innerItems l).flatMap (allowItem env feature)
  | v => if v = .token (str "*") then (if feature ∈ sensitive then [(.PERMISSIONS_POLICY_WILDCARD, [(str "feature", .str feature)])] else [])
    else [(.PERMISSIONS_POLICY_INVALID_VALUE, [(str "feature", .str feature)])]

/-- what is reported on a `Permissions-Policy` -/
def permissionReports (env : Env) (l : List (Str × Val × Val)) : List Report :=
  sayIf (l != []) { cls := .PERMISSIONS_POLICY_PRESENT, kids := l.flatMap fun e => allowlistKids env e.1 e.2.1 }

/-! ### proof -/

theorem tuple_of {v : Val} (h : v.isTuple = true) : ∃ xs, v = .tuple xs := by
  unfold Val.isTuple at h
  split at h
  · exact ⟨_, rfl⟩
  · exact nomatch h

theorem unpack_tuple {xs : List Val} {q : Val × Val} (h : (Val.tuple xs).unpack2 = .ok q) : xs = [q.1, q.2] := by
  unfold Val.unpack2 at h
  change (match (Except.ok xs : Except Exn (List Val)) with | .error e => _ | .ok [a, b] => _ | .ok _ => _) = _ at h
  split at h
  · exact nomatch h
  · rename_i hx
    injection hx with hx
    injection h with h
    rw [hx, ← h]
  · exact nomatch h

theorem allowItem_eq {c : Ctx} {feature : Str} {v p : Val} {ks} (h : permissions_policy.item c (.str feature) (.tuple [v, p]) = .ok ks) : ks = allowItem c.env feature v := by
  unfold permissions_policy.item at h
  rw [if_neg (by simp [Val.isTuple])] at h
  change (match v with | .token t => _ | .str s => _ | v => _) = _ at h
  unfold allowItem
  split
  · dsimp only at h
    split at h
    · rename_i hc
      rw [if_pos (by simpa using hc)]
      injection h with h; exact h.symm
    · rename_i hc
      rw [if_neg (by simpa using hc)]
      injection h with h; exact h.symm
  · dsimp only at h
    split at h
    · rename_i hc
      rw [if_pos (by simpa using hc)]
      injection h with h; exact h.symm
    · rename_i hc
      rw [if_neg (by simpa using hc)]
      injection h with h; exact h.symm
  · rename_i h1 h2
    split at h
    · exact absurd rfl (h1 _)
    · exact absurd rfl (h2 _)
    · unfold shown
      dsimp only [bind, Except.bind] at h
      split at h
      · exact nomatch h
      · rename_i hs
        rw [hs]
        injection h with h
        exact h.symm

theorem item_kids {c : Ctx} {feature : Str} {i : Val} {ks} (h : permissions_policy.item c (.str feature) i = .ok ks) :
    ks = (innerItems [i]).flatMap (allowItem c.env feature) := by
  by_cases ht : i.isTuple = true
  · obtain ⟨xs, rfl⟩ := tuple_of ht
    have hu : ∃ q, (Val.tuple xs).unpack2 = .ok q := by
      unfold permissions_policy.item at h
      rw [if_neg (by simp [Val.isTuple])] at h
      dsimp only [bind, Except.bind] at h
      split at h
      · exact nomatch h
      · exact ⟨_, ‹_›⟩
    obtain ⟨q, hu⟩ := hu
    have := unpack_tuple hu
    subst this
    rw [allowItem_eq h]
    show _ = allowItem c.env feature q.1 ++ []
    rw [List.append_nil]
  · unfold permissions_policy.item at h
    rw [if_pos (by simpa using ht)] at h
    injection h with h
    rw [← h]
    unfold innerItems
    rw [List.filterMap_cons]
    split
    · rfl
    · rename_i b hb
      split at hb
      · exact absurd rfl ht
      · exact nomatch hb

theorem innerItems_cons (i : Val) (l : List Val) : innerItems (i :: l) = innerItems [i] ++ innerItems l := by
  unfold innerItems
  rw [← List.filterMap_append]
  rfl

theorem items_kids {c : Ctx} {feature : Str} : ∀ {l : List Val} {ks}, l.mapM (permissions_policy.item c (.str feature)) = .ok ks →
    ks.flatten = (innerItems l).flatMap (allowItem c.env feature) := by
  intro l
  induction l with
  | nil =>
    intro ks h
    rw [List.mapM_nil] at h
    injection h with h
    rw [← h]; rfl
  | cons i l ih =>
    intro ks h
    rw [List.mapM_cons] at h
    cases h1 : permissions_policy.item c (.str feature) i with
    | error e => rw [h1] at h; exact nomatch h
    | ok k =>
      rw [h1] at h
      cases h2 : l.mapM (permissions_policy.item c (.str feature)) with
      | error e => rw [h2] at h; exact nomatch h
      | ok ks' =>
        rw [h2] at h
        injection h with h
        rw [← h, List.flatten_cons, ih h2, item_kids h1, innerItems_cons i l, List.flatMap_append]

theorem sensitive_iff (feature : Str) : sensitiveFeatures.any (fun f => Val.pyEq (.str feature) (.str f)) = decide (feature ∈ sensitive) := by
  rw [Bool.eq_iff_iff, List.any_eq_true, decide_eq_true_iff]
  constructor
  · rintro ⟨f, hf, he⟩
    have : feature = f := eq_of_beq (a := feature) (b := f) he
    subst this
    exact hf
  · intro h
    exact ⟨feature, h, beq_self_eq_true feature⟩

theorem feature_kids {c : Ctx} {feature : Str} {v p : Val} {ks} (h : permissions_policy.feature c (.str feature) (.tuple [v, p]) = .ok ks) : ks = allowlistKids c.env feature v := by
  unfold permissions_policy.feature at h
  rw [sensitive_iff] at h
  dsimp only [Val.unpack2, Val.iter, bind, Except.bind] at h
  unfold allowlistKids
  split
  · dsimp only at h
    split at h
    · exact nomatch h
    · rename_i l _ ks' hks
      change Except.ok (ks'.flatten ++ if (decide (feature ∈ sensitive) && Val.list l == Val.token [42]) = true then _ else []) = _ at h
      rw [if_neg (by simp)] at h
      injection h with h
      rw [← h, List.append_nil, items_kids hks]
  · rename_i hl
    have hw : (Val.token (str "*") == Val.token [42]) = true := by decide
    split at h
    · exact absurd rfl (hl _)
    · rename_i t
      change Except.ok ((if t = [42] then [] else _) ++ if (decide (feature ∈ sensitive) && Val.token t == Val.token [42]) = true then _ else []) = _ at h
      injection h with h
      rw [← h]
      by_cases ht : t = [42]
      · subst ht
        rw [if_pos rfl, if_pos rfl, List.nil_append]
        by_cases hf : feature ∈ sensitive
        · rw [if_pos hf, if_pos (by simp [hf])]
        · rw [if_neg hf, if_neg (by simp [hf])]
      · have hne : Val.token t ≠ Val.token [42] := fun e => ht (by injection e with e; injection e)
        rw [if_neg ht, if_neg hne, if_neg (by simp [hne]), List.append_nil]
    · rename_i ht
      change Except.ok ([_] ++ if (decide (feature ∈ sensitive) && v == Val.token [42]) = true then _ else []) = _ at h
      have hne : v ≠ Val.token [42] := fun e => ht _ e
      injection h with h
      rw [← h, if_neg hne, if_neg (by simp [hne]), List.append_nil]

theorem features_kids {c : Ctx} : ∀ {l : List (Str × Val × Val)}, (permissions_policy.features c (l.map fun p => (.str p.1, .tuple [p.2.1, p.2.2]))).2 = none →
    (permissions_policy.features c (l.map fun p => (.str p.1, .tuple [p.2.1, p.2.2]))).1 = l.flatMap fun e => allowlistKids c.env e.1 e.2.1 := by
  intro l
  induction l with
  | nil => intro _; rfl
  | cons e l ih =>
    intro h
    rw [List.map_cons] at h ⊢
    unfold permissions_policy.features at h ⊢
    dsimp only at h ⊢
    split at h
    · exact nomatch h
    · rename_i ks hks
      show ks ++ _ = _
      rw [ih h, List.flatMap_cons, feature_kids hks]

theorem Tells.addWith {Xs : List NoteId} {add : AddNote} {X vrs kids} (hX : Xs.contains X = true) : Tells Xs add (add.addWith X vrs none kids) [⟨X, vrs, kids⟩] (fun _ => True) :=
  (Told.addWith.tells fun r hr => by rw [List.mem_singleton] at hr; subst hr; exact hX).mono fun _ _ => trivial

theorem permissions_tells {c : Ctx} {add : AddNote} {hd : Handler} {Xs : List NoteId} {l : List (Str × Val × Val)} (hv : hd.value = ofEntries l) (hX : Xs.contains .PERMISSIONS_POLICY_PRESENT = true) :
    Tells Xs add (permissions_policy.evaluate c add hd) (permissionReports c.env l) (fun _ => True) := by
  unfold permissions_policy.evaluate permissionReports
  rw [hv, items_entries]
  cases l with
  | nil => rw [if_pos (by rfl)]; exact Tells.pure trivial
  | cons e l =>
    rw [if_neg (by rw [show (ofEntries (e :: l)).truthy = true from rfl]; simp)]
    dsimp only
    have hk := @features_kids c (e :: l)
    generalize permissions_policy.features c ((e :: l).map fun p => (.str p.1, .tuple [p.2.1, p.2.2])) = r at hk ⊢
    cases hr : r.2 with
    | some x =>
      intro a ha
      exfalso
      rw [W.bind_ok (a := ()) rfl] at ha
      exact nomatch ha
    | none =>
      rw [hk hr]
      exact (Tells.addWith hX).bind (l' := []) fun _ _ => Tells.pure trivial

section
variable {env : Env} {related : Option Msg} {t : Bool} {ls : List Line} {m m' : Msg}

theorem allowItem_vars {env f v} : ∀ k ∈ allowItem env f v, (k.2.map (·.1)).Nodup := by
  intro k hk
  unfold allowItem at hk
  split at hk <;> (try split at hk) <;> first | (rw [List.mem_singleton] at hk; subst hk; simp) | exact absurd hk (by simp)

theorem allowlistKids_vars {env f v} : ∀ k ∈ allowlistKids env f v, (k.2.map (·.1)).Nodup := by
  intro k hk
  unfold allowlistKids at hk
  split at hk
  · obtain ⟨_, _, hk⟩ := List.mem_flatMap.1 hk
    exact allowItem_vars _ hk
  · split at hk <;> (try split at hk) <;> first | (rw [List.mem_singleton] at hk; subst hk; simp) | exact absurd hk (by simp)

/-- **C96.** What is said of `Permissions-Policy`: that there is one, with each allowlist that isn't right -/
theorem C96_permissions_policy (P : Processed env related t ls m m') (hk : m.kind = .response) (hi : DictShape env) :
    Reported [.PERMISSIONS_POLICY_PRESENT] m m' ((namesFor .permissions_policy_ ls).flatMap fun n =>
      (onParsed (dictOf env ls n) (permissionReports env)).map (fieldSubject n, ·)) := by
  have hX : EvalAmong [.PERMISSIONS_POLICY_PRESENT] [.permissions_policy_] := by eval_among
  refine P.entries_tells hX hi rfl (by rw [hk]; rfl) _ ?_ ?_
  · intro l r hr
    obtain ⟨_, rfl⟩ := mem_sayIf.1 hr
    refine ⟨⟨by simp, ?_⟩, rfl⟩
    intro k hk
    obtain ⟨e, _, hk⟩ := List.mem_flatMap.1 hk
    exact allowlistKids_vars k hk
  · intro c add hd l hdur hf hval
    unfold Handler.evaluate
    rw [hf, ← hdur.env]
    exact permissions_tells hval rfl

end

/-! ### NEL and Report-To: specification -/

/-- the value of a JSON field: the members of the array -/
def jsonOf (env : Env) (ls : List Line) (n : Str) : Option (List Val) :=
  match env.jsonLoads (str "[" ++ join (str ", ") (valuesOf ls n) ++ str "]") with
  | .ok (.list l) => some l
  | _ => none

/-- a text in square brackets is a JSON array, if it is JSON -/
def JsonShape (env : Env) : Prop := ∀ s v, env.jsonLoads (str "[" ++ s ++ str "]") = .ok v → ∃ l, v = .list l

/-- what is reported on a member of an object -/
def memberReports (missing bad : NoteId) (required : Bool) (ok : Val → Bool) (expected : Str) (shownAs : Str) (v : Option Val) : List Report :=
  match v with
  | none => sayIf required { cls := missing, vars := [(str "key", .str shownAs)] }
  | some v => sayIf (!ok v) { cls := bad, vars := [(str "key", .str shownAs), (str "expected", .str expected)] }

/-- a number; `true` is `1` -/
def numberOf : Val → Option Rat
  | .int i => some i
  | .bool true => some 1
  | .bool false => some 0
  | .num q => some q
  | _ => none

/-- what is reported on a fraction: a number from 0 to 1 -/
def fractionReports (key details : Str) (v : Option Val) : List Report :=
  match v with
  | none => []
  | some v => match numberOf v with
    | none => [{ cls := .NEL_BAD_TYPE, vars := [(str "key", .str key), (str "expected", .str (str "number"))] }]
    | some q => if 0 ≤ q ∧ q ≤ 1 then [] else [{ cls := .NEL_BAD_VALUE, vars := [(str "key", .str key), (str "details", .str details)] }]

/-- what is reported on a policy of `NEL` -/
def nelReports (policy : Val) : List Report :=
  if policy.isDict then
    memberReports .NEL_MISSING_KEY .NEL_BAD_TYPE true Val.isStr (str "string") (str "report_to") (policy.get (str "report_to")) ++
    memberReports .NEL_MISSING_KEY .NEL_BAD_TYPE true Val.isInt (str "integer") (str "max_age") (policy.get (str "max_age")) ++
    memberReports .NEL_MISSING_KEY .NEL_BAD_TYPE false Val.isBool (str "boolean") (str "include_subdomains") (policy.get (str "include_subdomains")) ++
    fractionReports (str "success_fraction") (str "itmust be between 0.0 and 1.0") (policy.get (str "success_fraction")) ++
    fractionReports (str "failure_fraction") (str "it must be between 0.0 and 1.0") (policy.get (str "failure_fraction"))
  else [{ cls := .NEL_BAD_STRUCTURE }]

/-- what is reported on an endpoint of a group of `Report-To` -/
def groupEndpointReports (e : Val) : List Report :=
  if e.isDict then memberReports .REPORT_TO_MISSING_KEY .REPORT_TO_BAD_TYPE true Val.isStr (str "string") (str "endpoints[].url") (e.get (str "url"))
  else [{ cls := .REPORT_TO_BAD_STRUCTURE, vars := [(str "details", .str (str "Endpoints must be objects."))] }]

/-- what is reported on a group of `Report-To` -/
def groupReports (g : Val) : List Report :=
  if g.isDict then
    memberReports .REPORT_TO_MISSING_KEY .REPORT_TO_BAD_TYPE true Val.isInt (str "integer") (str "max_age") (g.get (str "max_age")) ++
    memberReports .REPORT_TO_MISSING_KEY .REPORT_TO_BAD_TYPE true Val.isList (str "list") (str "endpoints") (g.get (str "endpoints")) ++
    (match g.get (str "endpoints") with
    | some (.list es) => es.flatMap groupEndpointReports
    | _ => [])
  else [{ cls := .REPORT_TO_BAD_STRUCTURE }]

/-! ### proof -/

section
variable {env : Env} {related : Option Msg} {t : Bool} {ls : List Line} {m m' : Msg}

theorem json_value {f : FieldId} (hk : f.info.kind = .json) (hi : JsonShape env) (n : Str) :
    valueOf env related m f ls n = (match jsonOf env ls n with | some l => .list l | none => .none) := by
  unfold valueOf lineValue jsonOf
  rw [hk]
  dsimp only
  generalize hp : env.jsonLoads (str "[" ++ join (str ", ") (valuesOf ls n) ++ str "]") = r
  cases r with
  | ok v =>
    obtain ⟨l, rfl⟩ := hi _ _ hp
    rfl
  | _ => rfl

/-- a JSON field, in full -/
theorem Processed.json_tells (P : Processed env related t ls m m') {Xs : List NoteId} {f : FieldId} (hX : EvalAmong Xs [f]) (hi : JsonShape env)
    (hk : f.info.kind = .json) (hv : f.validIn m.kind = true) (g : List Val → List Report)
    (hcl : ∀ l, ∀ r ∈ g l, r.Clean ∧ Xs.contains r.cls = true)
    (hs : ∀ (c : Ctx) (add : AddNote) (hd : Handler) l, During env related t m c → hd.fid = f → hd.value = .list l →
      Tells Xs add (hd.evaluate c add).2 (g l) (fun _ => True)) :
    Reported Xs m m' ((namesFor f ls).flatMap fun n => (onParsed (jsonOf env ls n) g).map (fieldSubject n, ·)) :=
  P.parsed_tells hX hv (jsonOf env ls) Val.list (fun a => by simp) (fun n _ => by rw [json_value hk hi n]; cases jsonOf env ls n <;> rfl) g hcl hs

theorem numVal_eq (v : Val) : numVal v = numberOf v := by
  unfold numVal numberOf
  split
  · rfl
  · rename_i b; cases b <;> rfl
  · rfl
  · rename_i h1 h2 h3
    split
    · exact absurd rfl (h1 _)
    · exact absurd rfl (h2 _)
    · exact absurd rfl (h2 _)
    · exact absurd rfl (h3 _)
    · rfl

theorem nel_member {Xs : List NoteId} {add : AddNote} {policy : Val} {key : Str} {required ok expected} (h1 : Xs.contains .NEL_MISSING_KEY = true) (h2 : Xs.contains .NEL_BAD_TYPE = true) :
    Tells Xs add (nel.member add policy key required ok expected) (memberReports .NEL_MISSING_KEY .NEL_BAD_TYPE required ok expected key (policy.get key)) (fun _ => True) := by
  unfold nel.member memberReports
  cases policy.get key with
  | none =>
    cases required with
    | true => exact (Tells.add h1).bind (l' := []) fun _ _ => Tells.pure trivial
    | false => exact Tells.pure trivial
  | some v =>
    dsimp only
    cases ok v with
    | true => exact Tells.pure trivial
    | false => exact (Tells.add h2).bind (l' := []) fun _ _ => Tells.pure trivial

theorem nel_fraction {Xs : List NoteId} {add : AddNote} {policy : Val} {key details : Str} (h1 : Xs.contains .NEL_BAD_VALUE = true) (h2 : Xs.contains .NEL_BAD_TYPE = true) :
    Tells Xs add (nel.fraction add policy key details) (fractionReports key details (policy.get key)) (fun _ => True) := by
  unfold nel.fraction fractionReports
  cases policy.get key with
  | none => exact Tells.pure trivial
  | some v =>
    dsimp only
    rw [numVal_eq]
    cases numberOf v with
    | none => exact (Tells.add h2).bind (l' := []) fun _ _ => Tells.pure trivial
    | some q =>
      dsimp only
      by_cases hq : 0 ≤ q ∧ q ≤ 1
      · rw [if_pos hq, if_pos hq]; exact Tells.pure trivial
      · rw [if_neg hq, if_neg hq]; exact (Tells.add h1).bind (l' := []) fun _ _ => Tells.pure trivial

def nelNotes : List NoteId := [.NEL_BAD_STRUCTURE, .NEL_MISSING_KEY, .NEL_BAD_TYPE, .NEL_BAD_VALUE]

theorem nel_policy {add : AddNote} (policy : Val) : Tells nelNotes add (nel.policy add policy) (nelReports policy) (fun _ => True) := by
  unfold nel.policy nelReports
  cases policy.isDict with
  | false => exact (Tells.add rfl).bind (l' := []) fun _ _ => Tells.pure trivial
  | true =>
    rw [if_neg (by simp), if_pos rfl]
    refine Tells.of ((nel_member rfl rfl).bind fun _ _ => (nel_member rfl rfl).bind fun _ _ => (nel_member rfl rfl).bind fun _ _ =>
      (nel_fraction rfl rfl).bind fun _ _ => (nel_fraction rfl rfl).bind (l' := []) fun _ _ => Tells.pure trivial) ?_
    simp only [List.append_nil, List.append_assoc]

theorem nel_tells {add : AddNote} {hd : Handler} {l : List Val} (hv : hd.value = .list l) :
    Tells nelNotes add (nel.evaluate add hd) (l.flatMap nelReports) (fun _ => True) := by
  unfold nel.evaluate
  refine Tells.silent fun items hi => ?_
  rw [hv] at hi
  injection hi with hi
  subst hi
  exact (Tells.mapM (p := fun _ _ => True) l fun p _ => ((nel_policy p).bind (l' := []) fun _ _ => Tells.pure trivial).of (List.append_nil _)).mono fun _ _ => trivial

theorem append_tells {Xs : List NoteId} {add : AddNote} {hd : Handler} {w : W (List Val)} {l p} (h : Tells Xs add w l p) : Tells Xs add (hd.appendVals w).2 l (fun _ => True) := by
  intro a ha
  unfold Handler.appendVals at ha ⊢
  cases hr : w.res with
  | error e => rw [hr] at ha; exact nomatch ha
  | ok v => exact ⟨(h v hr).1, trivial⟩

theorem assign_tells {Xs : List NoteId} {add : AddNote} {hd : Handler} {w : W Val} {l p} (h : Tells Xs add w l p) : Tells Xs add (hd.assign w).2 l (fun _ => True) := by
  intro a ha
  unfold Handler.assign at ha ⊢
  cases hr : w.res with
  | error e => rw [hr] at ha; exact nomatch ha
  | ok v => exact ⟨(h v hr).1, trivial⟩

theorem memberReports_clean {missing bad required ok expected key v} : ∀ r ∈ memberReports missing bad required ok expected key v, r.Clean ∧ (r.cls = missing ∨ r.cls = bad) := by
  intro r hr
  unfold memberReports at hr
  split at hr
  · obtain ⟨_, rfl⟩ := mem_sayIf.1 hr
    exact ⟨⟨by simp, by simp⟩, .inl rfl⟩
  · obtain ⟨_, rfl⟩ := mem_sayIf.1 hr
    exact ⟨⟨by simp, by simp⟩, .inr rfl⟩

theorem fractionReports_clean {key details v} : ∀ r ∈ fractionReports key details v, r.Clean ∧ nelNotes.contains r.cls = true := by
  intro r hr
  unfold fractionReports at hr
  split at hr
  · exact absurd hr (by simp)
  · split at hr
    · rw [List.mem_singleton] at hr; subst hr
      exact ⟨⟨by simp, by simp⟩, rfl⟩
    · split at hr
      · exact absurd hr (by simp)
      · rw [List.mem_singleton] at hr; subst hr
        exact ⟨⟨by simp, by simp⟩, rfl⟩

theorem nelReports_clean {p} : ∀ r ∈ nelReports p, r.Clean ∧ nelNotes.contains r.cls = true := by
  intro r hr
  unfold nelReports at hr
  have hm : ∀ {required ok expected key v}, r ∈ memberReports .NEL_MISSING_KEY .NEL_BAD_TYPE required ok expected key v → r.Clean ∧ nelNotes.contains r.cls = true := by
    intro _ _ _ _ _ h
    obtain ⟨h1, h2 | h2⟩ := memberReports_clean r h
    · exact ⟨h1, by rw [h2]; rfl⟩
    · exact ⟨h1, by rw [h2]; rfl⟩
  split at hr
  · simp only [List.mem_append] at hr
    rcases hr with (((hr | hr) | hr) | hr) | hr
    · exact hm hr
    · exact hm hr
    · exact hm hr
    · exact fractionReports_clean r hr
    · exact fractionReports_clean r hr
  · rw [List.mem_singleton] at hr; subst hr
    exact ⟨⟨by simp, by simp⟩, rfl⟩

/-- **C97.** What is said of the policies of `NEL` -/
theorem C97_nel (P : Processed env related t ls m m') (hk : m.kind = .response) (hi : JsonShape env) :
    Reported [.NEL_BAD_STRUCTURE, .NEL_MISSING_KEY, .NEL_BAD_TYPE, .NEL_BAD_VALUE] m m' ((namesFor .nel_ ls).flatMap fun n =>
      (onParsed (jsonOf env ls n) fun l => l.flatMap nelReports).map (fieldSubject n, ·)) := by
  have hX : EvalAmong [.NEL_BAD_STRUCTURE, .NEL_MISSING_KEY, .NEL_BAD_TYPE, .NEL_BAD_VALUE] [.nel_] := by eval_among
  refine P.json_tells hX hi rfl (by rw [hk]; rfl) _ ?_ ?_
  · intro l r hr
    obtain ⟨_, _, hr⟩ := List.mem_flatMap.1 hr
    exact nelReports_clean r hr
  · intro c add hd l hdur hf hval
    unfold Handler.evaluate
    rw [hf]
    exact append_tells (nel_tells hval)

def reportToNotes : List NoteId := [.REPORT_TO_BAD_STRUCTURE, .REPORT_TO_MISSING_KEY, .REPORT_TO_BAD_TYPE]

theorem groupEndpoint_tells {add : AddNote} (e : Val) : Tells reportToNotes add (report_to.endpoint add e) (groupEndpointReports e) (fun _ => True) := by
  unfold report_to.endpoint groupEndpointReports
  cases e.isDict with
  | false => exact Tells.add rfl
  | true =>
    rw [if_neg (by simp), if_pos rfl]
    unfold memberReports
    cases e.get (str "url") with
    | none => exact Tells.add rfl
    | some v => exact Tells.when rfl

theorem group_tells {add : AddNote} {hd : Handler} {l : List Val} (hv : hd.value = .list l) :
    Tells reportToNotes add (report_to.evaluate add hd) (l.flatMap groupReports) (fun _ => True) := by
  unfold report_to.evaluate
  refine Tells.silent fun items hi => ?_
  rw [hv] at hi
  injection hi with hi
  subst hi
  refine Tells.forEach fun g _ => ?_
  unfold groupReports
  cases g.isDict with
  | false => exact Tells.add rfl
  | true =>
    rw [if_neg (by simp), if_pos rfl, List.append_assoc]
    have h2 : Tells reportToNotes add (match g.get (str "endpoints") with
      | none => add.add .REPORT_TO_MISSING_KEY [(str "key", .str (str "endpoints"))]
      | some (.list es) => W.forEach es (report_to.endpoint add)
      | some _ => add.add .REPORT_TO_BAD_TYPE [(str "key", .str (str "endpoints")), (str "expected", .str (str "list"))])
      (memberReports .REPORT_TO_MISSING_KEY .REPORT_TO_BAD_TYPE true Val.isList (str "list") (str "endpoints") (g.get (str "endpoints")) ++
        (match g.get (str "endpoints") with
        | some (.list es) => es.flatMap groupEndpointReports
        | _ => [])) (fun _ => True) := by
      unfold memberReports
      cases g.get (str "endpoints") with
      | none => exact Tells.add rfl
      | some v =>
        dsimp only
        by_cases hl : v.isList = true
        · have : ∃ es, v = .list es := by
            unfold Val.isList at hl
            split at hl
            · exact ⟨_, rfl⟩
            · exact nomatch hl
          obtain ⟨es, rfl⟩ := this
          exact Tells.forEach fun e _ => groupEndpoint_tells e
        · have hn : ∀ es, v ≠ .list es := fun es e => hl (by rw [e]; rfl)
          rw [(by simpa using hl : v.isList = false)]
          split
          · rename_i e; exact nomatch e
          · rename_i e; injection e with e; exact absurd e (hn _)
          · refine (Tells.add rfl).of ?_
            split
            · rename_i e; injection e with e; exact absurd e (hn _)
            · rfl
    unfold memberReports at h2 ⊢
    cases g.get (str "max_age") with
    | none => exact (Tells.add rfl).bind fun _ _ => h2
    | some v => exact (Tells.when rfl).bind fun _ _ => h2

theorem groupReports_clean {g} : ∀ r ∈ groupReports g, r.Clean ∧ reportToNotes.contains r.cls = true := by
  intro r hr
  unfold groupReports at hr
  have hm : ∀ {required ok expected key v}, r ∈ memberReports .REPORT_TO_MISSING_KEY .REPORT_TO_BAD_TYPE required ok expected key v → r.Clean ∧ reportToNotes.contains r.cls = true := by
    intro _ _ _ _ _ h
    obtain ⟨h1, h2 | h2⟩ := memberReports_clean r h
    · exact ⟨h1, by rw [h2]; rfl⟩
    · exact ⟨h1, by rw [h2]; rfl⟩
  split at hr
  · simp only [List.mem_append] at hr
    rcases hr with (hr | hr) | hr
    · exact hm hr
    · exact hm hr
    · split at hr
      · obtain ⟨e, _, hr⟩ := List.mem_flatMap.1 hr
        unfold groupEndpointReports at hr
        split at hr
        · exact hm hr
        · rw [List.mem_singleton] at hr; subst hr
          exact ⟨⟨by simp, by simp⟩, rfl⟩
      · exact absurd hr (by simp)
  · rw [List.mem_singleton] at hr; subst hr
    exact ⟨⟨by simp, by simp⟩, rfl⟩

/-- **C97.** What is said of the groups of `Report-To` -/
theorem C97_report_to (P : Processed env related t ls m m') (hk : m.kind = .response) (hi : JsonShape env) :
    Reported [.REPORT_TO_BAD_STRUCTURE, .REPORT_TO_MISSING_KEY, .REPORT_TO_BAD_TYPE] m m' ((namesFor .report_to_ ls).flatMap fun n =>
      (onParsed (jsonOf env ls n) fun l => l.flatMap groupReports).map (fieldSubject n, ·)) := by
  have hX : EvalAmong [.REPORT_TO_BAD_STRUCTURE, .REPORT_TO_MISSING_KEY, .REPORT_TO_BAD_TYPE] [.report_to_] := by eval_among
  refine P.json_tells hX hi rfl (by rw [hk]; rfl) _ ?_ ?_
  · intro l r hr
    obtain ⟨_, _, hr⟩ := List.mem_flatMap.1 hr
    exact groupReports_clean r hr
  · intro c add hd l hdur hf hval
    unfold Handler.evaluate
    rw [hf]
    exact group_tells hval

/-! ### Accept-Query -/

/-- what is reported on a member of `Accept-Query`: it is a media range, as a string or a token -/
noncomputable def queryReports (env : Env) (v : Val) : List Report :=
  match v with
  | .token s => rangeReports .ACCEPT_QUERY_BAD_SYNTAX (str "https://www.rfc-editor.org/rfc/rfc10008.html#section-3") true true (lower s)
  | .str s => rangeReports .ACCEPT_QUERY_BAD_SYNTAX (str "https://www.rfc-editor.org/rfc/rfc10008.html#section-3") true true (lower s)
  | v => [{ cls := .ACCEPT_QUERY_BAD_TYPE, vars := [(str "value", .str (shown env v))] }]

theorem query_tells {c : Ctx} {add : AddNote} {v p : Val} :
    Tells [.ACCEPT_QUERY_BAD_SYNTAX, .ACCEPT_QUERY_BAD_TYPE] add (accept_query.item c add (.tuple [v, p])) (queryReports c.env v) (fun _ => True) := by
  unfold accept_query.item
  refine Tells.silent fun q hq => ?_
  injection hq with hq
  subst hq
  dsimp only
  unfold queryReports
  split
  · exact (((media_heard add _ _ _ true true rfl ⟨rfl, rfl⟩).tells).bind (l' := []) fun _ _ => Tells.pure trivial).of (List.append_nil _)
  · exact (((media_heard add _ _ _ true true rfl ⟨rfl, rfl⟩).tells).bind (l' := []) fun _ _ => Tells.pure trivial).of (List.append_nil _)
  · rename_i h1 h2
    split
    · exact absurd rfl (h1 _)
    · exact absurd rfl (h2 _)
    · refine Tells.silent fun s hs => ?_
      unfold shown
      rw [hs]
      exact (Tells.add rfl).bind (l' := []) fun _ _ => Tells.pure trivial

/-- **C98.** What is said of `Accept-Query` -/
theorem C98_accept_query (P : Processed env related t ls m m') (hk : m.kind = .response) (hi : ListShape env) :
    Reported [.ACCEPT_QUERY_BAD_SYNTAX, .ACCEPT_QUERY_BAD_TYPE] m m' ((namesFor .accept_query_ ls).flatMap fun n =>
      (onParsed (listOf env ls n) fun l => l.flatMap fun e => queryReports env e.1).map (fieldSubject n, ·)) := by
  have hX : EvalAmong [.ACCEPT_QUERY_BAD_SYNTAX, .ACCEPT_QUERY_BAD_TYPE] [.accept_query_] := by eval_among
  refine P.members_tells hX hi rfl (by rw [hk]; rfl) _ ?_ ?_
  · intro l r hr
    obtain ⟨e, _, hr⟩ := List.mem_flatMap.1 hr
    unfold queryReports at hr
    split at hr
    · obtain ⟨h1, h2⟩ := rangeReports_clean r hr
      exact ⟨h1, by rw [h2]; rfl⟩
    · obtain ⟨h1, h2⟩ := rangeReports_clean r hr
      exact ⟨h1, by rw [h2]; rfl⟩
    · rw [List.mem_singleton] at hr; subst hr
      exact ⟨⟨by simp, by simp⟩, rfl⟩
  · intro c add hd l hdur hf hval
    unfold Handler.evaluate
    rw [hf, ← hdur.env]
    refine assign_tells (w := accept_query.evaluate c add hd) (p := fun _ => True) ?_
    unfold accept_query.evaluate
    refine Tells.silent fun items hi => ?_
    rw [hval] at hi
    injection hi with hi
    subst hi
    refine ((Tells.mapM (p := fun _ _ => True) (g := fun i => match i with | .tuple [v, _] => queryReports c.env v | _ => []) _ ?_).bind (l' := []) fun _ _ => Tells.pure trivial).of ?_
    · intro x hx
      obtain ⟨e, _, rfl⟩ := List.mem_map.1 hx
      exact query_tells
    · rw [List.append_nil, List.flatMap_map]

end

end HL.Props
