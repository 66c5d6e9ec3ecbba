import Verif.Props.PostFrame
import Verif.Props.StatusFields
import Verif.Props.CliBodyThm

/-!
# What the fields are checked for at the end of a message (C100 onwards)
-/

namespace HL.Props
open HL.F

/-! ### the calls that lint a message -/

theorem feeds_runs {env : Env} {chunks : List Str} {w w' : World} (h : RunsTo env (chunks.map .feed) w w') :
    w'.related = w.related ∧ w'.msg = feedAll env chunks w.msg ∧ w' = Op.runAll env (chunks.map .feed) w := by
  induction chunks generalizing w with
  | nil => cases h; exact ⟨rfl, rfl, rfl⟩
  | cons c cs ih =>
    obtain ⟨w1, h1, h2⟩ := h
    obtain ⟨a, b, d⟩ := ih h2
    have e : w1 = (Op.run env (.feed c) w).1 := by rw [h1]
    refine ⟨?_, ?_, ?_⟩
    · rw [a, e]; rfl
    · rw [b, e]; rfl
    · rw [d, e]; rfl

/-- the calls made to lint a message: its first line, its headers, its content in pieces and its end.  When none of them raises, its linting
has ended in the sense of `Ended` -/
theorem Ended.of_calls {env : Env} {kind start noContent head related} {top : Op} (htop : (∃ a b c, top = .requestTopline a b c) ∨ ∃ a b c, top = .responseTopline a b c)
    {ls : List Line} {chunks : List Str} {co : Bool} {ts : List Line} {w' : World}
    (h : RunsTo env ([top, .headers ls] ++ chunks.map .feed ++ [.finish co ts]) ⟨fresh env kind start noContent head, related⟩ w') :
    ∃ m0 m, m0 = (top.run env ⟨fresh env kind start noContent head, related⟩).1.msg ∧ m0.kind = kind ∧ Ended env related ls chunks co ts m0 m w'.msg := by
  obtain ⟨w3, h3, w4, h4, h5⟩ := RunsTo.append.1 h
  obtain ⟨w2, ⟨w0, h0, w1, h1, h2⟩, h3⟩ := RunsTo.append.1 h3
  obtain rfl : w1 = w2 := h2
  obtain rfl : w4 = w' := h5
  obtain ⟨r3, f3, a3⟩ := feeds_runs h3
  have e0 : w0 = (top.run env ⟨fresh env kind start noContent head, related⟩).1 := by rw [h0]
  have hs : SameSections (fresh env kind start noContent head) w0.msg ∧ w0.related = related := by
    rw [e0]
    rcases htop with ⟨a, b, c, rfl⟩ | ⟨a, b, c, rfl⟩
    · exact ⟨requestTopline_sections .., rfl⟩
    · exact ⟨responseTopline_sections .., rfl⟩
  have e1 : w1 = (Op.run env (.headers ls) w0).1 := by rw [h1]
  have hr1 : w1.related = related := by rw [e1]; exact hs.2
  have hreach : ∀ ops : List Op, Reachable env (Op.runAll env ops w0).msg := fun ops =>
    ⟨kind, start, noContent, head, related, top :: ops, by rw [e0]; rfl⟩
  refine ⟨w0.msg, w3.msg, by rw [e0], hs.1.2.2, ⟨w0.msg, hreach [], .inl rfl⟩, ?_, ?_, ?_, ⟨w1.msg, ?_, f3⟩, ?_, ?_⟩
  · rw [hs.1.1]; rfl
  · rw [hs.1.1]; rfl
  · rw [hs.1.2.1]; rfl
  · obtain ⟨e, e'⟩ := Prod.mk.inj h1
    have h1' : w1.msg = (w0.msg.processHeaders env w0.related ls).1 := by rw [e1]; rfl
    rw [hs.2] at h1' e'
    exact Prod.ext h1'.symm e'
  · have := hreach (.headers ls :: chunks.map .feed)
    rw [show Op.runAll env (.headers ls :: chunks.map .feed) w0 = w3 from by rw [a3, e1]; rfl] at this
    exact this
  · refine ⟨(w3.msg.finishContent env related co ts).2, ?_⟩
    unfold Finishes
    have e4 : w4 = (Op.run env (.finish co ts) w3).1 := by rw [h4]
    have e5 : (Op.run env (.finish co ts) w3).2 = .ok () := by rw [h4]
    unfold Op.run at e4 e5
    dsimp only at e4 e5
    rw [r3, hr1] at e4 e5
    rw [e4]
    exact Prod.ext (Prod.ext rfl e5) rfl

/-! ### endpoints for reports -/

/-- the names of the endpoints that `Reporting-Endpoints` defines -/
def endpointsOf (env : Env) (ls : List Line) : List (Str × Val × Val) :=
  if str "reporting-endpoints" ∈ namesOf ls then (dictOf env ls (str "reporting-endpoints")).getD [] else []

/-- the value of a parameter of a structured item -/
def itemParam (p : Val) (k : Str) : Option Val := ((memberParams p).find? fun q => q.1 == k).map (·.2)

/-- is it true, in the sense of Python: neither empty nor zero? -/
def isGiven : Val → Bool
  | .none => false
  | .bool b => b
  | .int i => i != 0
  | .num q => q != 0
  | .str s | .md s | .token s | .disp s | .bytes s => s != []
  | .atom _ => true
  | .seq _ xs => xs != []

open Classical in
/-- what is reported on a policy with parameters `p`: an endpoint to report to that isn't defined -/
noncomputable def reportToReports (X : NoteId) (reportOnly : Bool) (endpoints : List Str) (p : Val) : List Report :=
  match itemParam p (str "report-to") with
  | some e => if isGiven e = true ∧ ¬ ∃ n ∈ endpoints, e = .str n ∨ e = .md n ∨ e = .token n ∨ e = .disp n then
      [{ cls := X, vars := [(str "endpoint", e), (str "report_only", .str (if reportOnly then str " (for reporting only)" else []))] }] else []
  | none => []

theorem isGiven_eq (v : Val) : v.truthy = isGiven v := by
  cases v with
  | atom a =>
    cases a <;> try rfl
    all_goals (rename_i s; cases s <;> rfl)
  | seq k xs => cases xs <;> rfl

theorem memberParams_items {ps : Val} {items : List (Val × Val)} (hi : ps.items = .ok items) : memberParams ps = items.map fun p => (p.1.text?.getD [], p.2) := by
  unfold Val.items at hi
  split at hi
  · injection hi with hi
    rw [← hi, List.map_filterMap]
    unfold memberParams
    dsimp only
    apply congrArg (fun f => List.filterMap f _)
    funext x
    split
    · rfl
    · rename_i hx
      split
      · exact absurd rfl (hx _ _)
      · rfl
  · exact nomatch hi

theorem itemParam_items {ps : Val} {items : List (Val × Val)} (hi : ps.items = .ok items) {k : Str} (hk : k ≠ []) :
    (items.find? fun p => Val.pyEq p.1 (.str k)).map (·.2) = itemParam ps k := by
  unfold itemParam
  rw [memberParams_items hi, List.find?_map, Option.map_map]
  have : ((fun q : Str × Val => q.1 == k) ∘ fun p : Val × Val => (p.1.text?.getD [], p.2)) = fun p => Val.pyEq p.1 (.str k) := by
    funext p
    simp only [Function.comp, Val.pyEq]
    cases h : p.1.text? with
    | none =>
      have h1 : ([] == k) = false := by cases k <;> simp_all
      have h2 : (p.1 == Val.str k) = false := by
        rw [beq_eq_false_iff_ne]; rintro e; rw [e] at h; exact nomatch h
      simp only [Option.getD_none, h1, h2]
    | some s => rfl
  rw [this]
  rfl

theorem pyEq_named (e : Val) (n : Str) : Val.pyEq e (.str n) = true ↔ e = .str n ∨ e = .md n ∨ e = .token n ∨ e = .disp n := by
  unfold Val.pyEq
  cases e with
  | atom a => cases a <;> simp [Val.text?]
  | seq k xs => simp [Val.text?]

section
variable {env : Env} {related : Option Msg} {ls ts : List Line} {chunks : List Str} {co : Bool} {m0 m m' : Msg}

theorem Ended.endpoints (E : Ended env related ls chunks co ts m0 m m') (hu : Unpadded ls) (hk : m0.kind = .response) (hd : DictShape env) :
    dget m'.headers.parsed (str "reporting-endpoints") = if str "reporting-endpoints" ∈ namesOf ls then
      some (match dictOf env ls (str "reporting-endpoints") with | some l => ofEntries l | none => .none) else none := by
  have hc : classOf (str "reporting-endpoints") = .reporting_endpoints_ := by decide +kernel
  have := E.header hu (n := str "reporting-endpoints") (by rw [hc]; decide) (by rw [hc]; decide) (by rw [hc, hk]; rfl)
  rw [this, hc]
  split
  · congr 1
    rw [dict_value (by decide) hd]
    unfold afterCheck
    cases dictOf env ls (str "reporting-endpoints") <;> rfl
  · rfl

theorem Ended.endpointNames (E : Ended env related ls chunks co ts m0 m m') (hu : Unpadded ls) (hk : m0.kind = .response) (hd : DictShape env) :
    F.endpointNames ⟨env, m', related⟩ = .ok ((endpointsOf env ls).map fun p => .str p.1) := by
  unfold F.endpointNames endpointsOf
  dsimp only
  rw [E.endpoints hu hk hd]
  by_cases hn : str "reporting-endpoints" ∈ namesOf ls
  · rw [if_pos hn, if_pos hn]
    dsimp only
    cases dictOf env ls (str "reporting-endpoints") with
    | none => rfl
    | some l =>
      dsimp only [Option.getD_some]
      rw [items_entries]
      cases l with
      | nil => rfl
      | cons p l =>
        rw [if_pos (by rfl)]
        simp only [Except.map, List.map_map]
        rfl
  · rw [if_neg hn, if_neg hn]
    rfl

theorem tokenPost_tells {Xs : List NoteId} {add : AddNote} {c : Ctx} {names : List Str} (hn : F.endpointNames c = .ok (names.map .str)) (b : Bool) {X : NoteId} (hX : Xs.contains X = true)
    {h : Handler} {v p : Val} (hv : h.value = .tuple [v, p]) :
    Tells Xs add (tokenPolicyPostCheck c add (roOf b) X h) (reportToReports X b names p) (fun _ => True) := by
  unfold tokenPolicyPostCheck
  rw [hv]
  refine Tells.silent fun q hq => ?_
  injection hq with hq
  subst hq
  refine Tells.silent fun items hi => ?_
  rw [itemParam_items hi (by decide)]
  unfold reportToReports
  cases itemParam p (str "report-to") with
  | none => exact Tells.pure trivial
  | some e =>
    dsimp only
    rw [isGiven_eq]
    have hany : (names.map Val.str).any (Val.pyEq e) = true ↔ ∃ n ∈ names, e = .str n ∨ e = .md n ∨ e = .token n ∨ e = .disp n := by
      rw [List.any_map, List.any_eq_true]
      simp only [Function.comp, pyEq_named]
    by_cases hg : isGiven e = true
    · rw [if_neg (c := (!isGiven e) = true) (by simp [hg]), hn]
      refine Tells.silent fun q hq => ?_
      injection hq with hq
      subst hq
      refine (Tells.when hX).of ?_
      have : (roOf b).string = if b then str " (for reporting only)" else [] := by cases b <;> rfl
      rw [this]
      by_cases hx : ∃ n ∈ names, e = .str n ∨ e = .md n ∨ e = .token n ∨ e = .disp n
      · rw [hany.2 hx, if_neg (c := _ ∧ ¬ _) (fun h => h.2 hx)]; rfl
      · rw [if_pos (c := _ ∧ ¬ _) ⟨hg, hx⟩]
        have : (names.map Val.str).any (Val.pyEq e) = false := by
          rw [Bool.eq_false_iff]; exact fun h => hx (hany.1 h)
        rw [this]; rfl
    · rw [if_pos (c := (!isGiven e) = true) (by simp [hg]), if_neg (c := _ ∧ ¬ _) fun h => hg h.1]
      exact Tells.pure trivial

theorem postW_of {Xs : List NoteId} {c : Ctx} {add : AddNote} {h : Handler} {w : W Unit} {l p} (e : h.postCheck c add [] = appendW [] w) (hw : Tells Xs add w l p) :
    Tells Xs add (postW c add h) l p := by
  unfold postW
  rw [e]
  exact hw

theorem reportTo_clean {X b names p} : ∀ r ∈ reportToReports X b names p, r.Clean := by
  intro r hr
  unfold reportToReports at hr
  split at hr
  · split at hr
    · rw [List.mem_singleton] at hr
      subst hr
      exact ⟨show ([str "endpoint", str "report_only"] : List Str).Nodup by decide, by simp⟩
    · exact absurd hr (by simp)
  · exact absurd hr (by simp)

/-- the fields of `Cross-Origin-Embedder-Policy` -/
def coepFields : List FieldId := [.cross_origin_embedder_policy_, .cross_origin_embedder_policy_report_only_]
/-- the fields of `Cross-Origin-Opener-Policy` -/
def coopFields : List FieldId := [.cross_origin_opener_policy_, .cross_origin_opener_policy_report_only_]

/-- **C100** (embedder policy) at the end of a response, each `Cross-Origin-Embedder-Policy` that asks for reports to an endpoint which the
`Reporting-Endpoints` header doesn't define is reported, and nothing else is -/
theorem C100_embedder_endpoint (E : Ended env related ls chunks co ts m0 m m') (hu : Unpadded ls) (hk : m0.kind = .response) (hi : ItemShape env) (hd : DictShape env) :
    Gained [.COEP_REPORT_TO_MISSING] m m'
      (onFields coepFields (itemOf env) (fun n a => reportToReports .COEP_REPORT_TO_MISSING (decide (classOf n = .cross_origin_embedder_policy_report_only_)) ((endpointsOf env ls).map (·.1)) a.2) ls ++
       onFields coepFields (itemOf env) (fun n a => reportToReports .COEP_REPORT_TO_MISSING (decide (classOf n = .cross_origin_embedder_policy_report_only_)) ((endpointsOf env ls).map (·.1)) a.2) ts) := by
  have hX : PostAmong [.COEP_REPORT_TO_MISSING] coepFields := by post_among
  have hn := E.endpointNames hu hk hd
  refine E.tells hX (fun f hf v => ?_) (by rw [hk]; decide) (itemOf env) (fun a => .tuple [a.1, a.2]) (fun a => by simp) ?_ _ (fun n a r hr => reportTo_clean r hr) ?_
  · simp only [coepFields, List.mem_cons, List.not_mem_nil, or_false] at hf
    unfold afterCheck
    rcases hf with rfl | rfl <;> (split <;> simp_all [evaluated])
  · intro k ks n hf
    rw [item_value (by simp only [coepFields, List.mem_cons, List.not_mem_nil, or_false] at hf; rcases hf with hf | hf <;> rw [hf] <;> rfl) hi]
    cases itemOf env ks n <;> rfl
  · intro add h t ks k n a _ hf _ _ _ hfid hv
    simp only [coepFields, List.mem_cons, List.not_mem_nil, or_false] at hf
    rcases hf with hf | hf <;> rw [hf] at hfid ⊢
    · exact postW_of (by unfold Handler.postCheck; rw [hfid]; rfl) (tokenPost_tells (names := (endpointsOf env ls).map (·.1)) (by rw [hn, List.map_map]; rfl) false rfl hv)
    · exact postW_of (by unfold Handler.postCheck; rw [hfid]; rfl) (tokenPost_tells (names := (endpointsOf env ls).map (·.1)) (by rw [hn, List.map_map]; rfl) true rfl hv)

/-- **C100** (opener policy) the same for `Cross-Origin-Opener-Policy` -/
theorem C100_opener_endpoint (E : Ended env related ls chunks co ts m0 m m') (hu : Unpadded ls) (hk : m0.kind = .response) (hi : ItemShape env) (hd : DictShape env) :
    Gained [.COOP_REPORT_TO_MISSING] m m'
      (onFields coopFields (itemOf env) (fun n a => reportToReports .COOP_REPORT_TO_MISSING (decide (classOf n = .cross_origin_opener_policy_report_only_)) ((endpointsOf env ls).map (·.1)) a.2) ls ++
       onFields coopFields (itemOf env) (fun n a => reportToReports .COOP_REPORT_TO_MISSING (decide (classOf n = .cross_origin_opener_policy_report_only_)) ((endpointsOf env ls).map (·.1)) a.2) ts) := by
  have hX : PostAmong [.COOP_REPORT_TO_MISSING] coopFields := by post_among
  have hn := E.endpointNames hu hk hd
  refine E.tells hX (fun f hf v => ?_) (by rw [hk]; decide) (itemOf env) (fun a => .tuple [a.1, a.2]) (fun a => by simp) ?_ _ (fun n a r hr => reportTo_clean r hr) ?_
  · simp only [coopFields, List.mem_cons, List.not_mem_nil, or_false] at hf
    unfold afterCheck
    rcases hf with rfl | rfl <;> (split <;> simp_all [evaluated])
  · intro k ks n hf
    rw [item_value (by simp only [coopFields, List.mem_cons, List.not_mem_nil, or_false] at hf; rcases hf with hf | hf <;> rw [hf] <;> rfl) hi]
    cases itemOf env ks n <;> rfl
  · intro add h t ks k n a _ hf _ _ _ hfid hv
    simp only [coopFields, List.mem_cons, List.not_mem_nil, or_false] at hf
    rcases hf with hf | hf <;> rw [hf] at hfid ⊢
    · exact postW_of (by unfold Handler.postCheck; rw [hfid]; rfl) (tokenPost_tells (names := (endpointsOf env ls).map (·.1)) (by rw [hn, List.map_map]; rfl) false rfl hv)
    · exact postW_of (by unfold Handler.postCheck; rw [hfid]; rfl) (tokenPost_tells (names := (endpointsOf env ls).map (·.1)) (by rw [hn, List.map_map]; rfl) true rfl hv)

/-! ### lists among the headers -/

theorem valuesOf_absent {n : Str} (h : n ∉ namesOf ls) : valuesOf ls n = [] := by
  unfold valuesOf
  rw [List.map_eq_nil_iff, List.filter_eq_nil_iff]
  intro l hl he
  exact h (mem_dedup.2 (List.mem_map.2 ⟨l, hl, beq_iff_eq.1 he⟩))

theorem elementsOf_absent {n : Str} (h : n ∉ namesOf ls) : elementsOf ls n = [] := by
  unfold elementsOf
  rw [valuesOf_absent h]
  rfl

/-- a header that is a list, as the checks at the end see it -/
theorem Ended.listed (E : Ended env related ls chunks co ts m0 m m') (hu : Unpadded ls) {n : Str} {f : FieldId} (hc : classOf n = f) (hk : f.info.kind = .list)
    (hne : f ≠ .unknownField) (hv : f.validIn m0.kind = true) (he : ∀ v, evaluated f v = v) (g : Str → Val) (hg : ∀ x, parseText ⟨env, m0, related⟩ f x = .ok (g x)) :
    (dget m'.headers.parsed n).getD (.list []) = .list ((elementsOf ls n).map g) := by
  rw [E.header hu (by rw [hc]; exact hne) (by rw [hc, hk]; simp) (by rw [hc]; exact hv), hc]
  by_cases hn : n ∈ namesOf ls
  · rw [if_pos hn, valueOf_list hk g hg]
    unfold afterCheck elementsOf
    rw [if_neg (by simp), he, List.map_map]
    rfl
  · rw [if_neg hn, elementsOf_absent hn]
    rfl

theorem mem_named {s : Str} {l : List Str} : (l.map Val.str).any (Val.pyEq (.str s)) = decide (s ∈ l) := by
  rw [Bool.eq_iff_iff, List.any_map, List.any_eq_true, decide_eq_true_iff]
  constructor
  · rintro ⟨x, hx, h⟩
    have := (pyEq_named (.str s) x).1 h
    simp at this
    exact this ▸ hx
  · intro h
    exact ⟨s, h, (pyEq_named (.str s) s).2 (.inl rfl)⟩

/-- the names a response says it varies by, as the checks at the end see them -/
theorem Ended.varies (E : Ended env related ls chunks co ts m0 m m') (hu : Unpadded ls) (hk : m0.kind = .response) :
    ∃ l : List Str, (∀ s, s ∈ l ↔ s ∈ lowerElements ls (str "vary")) ∧ (dget m'.headers.parsed (str "vary") = some (.list (l.map .str)) ∨ dget m'.headers.parsed (str "vary") = none ∧ l = []) := by
  have hc : classOf (str "vary") = .vary_ := by decide +kernel
  rw [E.header hu (n := str "vary") (by rw [hc]; decide) (by rw [hc]; decide) (by rw [hc, hk]; rfl), hc]
  by_cases hn : str "vary" ∈ namesOf ls
  · refine ⟨dedup (lowerElements ls (str "vary")), fun s => mem_dedup, .inl ?_⟩
    rw [if_pos hn, lower_value rfl (fun _ => rfl)]
    unfold afterCheck
    rw [if_neg (by simp)]
    show some (Val.list _) = _
    rw [List.map_map]
    congr 3
    congr 1
    have : (Val.asStr ∘ Val.str) = id := rfl
    rw [this, List.map_id]
  · refine ⟨[], fun s => ?_, .inr ⟨if_neg hn, rfl⟩⟩
    unfold lowerElements
    rw [elementsOf_absent hn]
    rfl

/-! ### Accept-CH (C101) -/

/-- was the response found to be storable by a cache? -/
def foundStorable (m : Msg) : Bool := match m.caching with
  | some k => k.storeShared || k.storePrivate
  | none => false

/-- was the request made in the clear? -/
def inTheClear (related : Option Msg) : Bool := match related with
  | some q => (match q.uri with | some u => (str "http:").isPrefixOf (lower u) | none => false)
  | none => false

open Classical in
/-- what is reported on an `Accept-CH`: that it came in the clear; and if the response can be stored, which of the fields it asks for the response
doesn't say it varies by -/
noncomputable def acceptChEndReports (env : Env) (clear storable : Bool) (vary : List Str) (l : List (Val × Val)) : List Report :=
  let missing := l.filter fun e => decide (¬ ∃ n ∈ vary, e.1 = .str n ∨ e.1 = .md n ∨ e.1 = .token n ∨ e.1 = .disp n)
  sayIf clear { cls := .ACCEPT_CH_IN_PLAIN_HTTP } ++
  sayIf (storable && missing != []) { cls := .ACCEPT_CH_MISSING_VARY, vars := [(str "missing_fields", .str (join (str ", ") (missing.map fun e => shown env e.1)))] }

theorem missing_tells {Xs add} {c : Ctx} {vary : Val} {names : List Str} (hv : ∀ x, vary.contains x = .ok ((names.map Val.str).any (Val.pyEq x))) (l : List (Val × Val)) :
    Tells Xs add (accept_ch.missing c vary (l.map fun p => .tuple [p.1, p.2])) []
      (fun r => r = (l.filter fun e => !(names.map Val.str).any (Val.pyEq e.1)).map fun e => shown c.env e.1) := by
  induction l with
  | nil => exact Tells.pure rfl
  | cons p l ih =>
    rw [List.map_cons]
    unfold accept_ch.missing
    refine Tells.silent fun a ha => ?_
    injection ha with ha
    subst ha
    rw [hv]
    refine Tells.silent fun b hb => ?_
    injection hb with hb
    rw [List.filter_cons]
    cases h : (names.map Val.str).any (Val.pyEq p.1) with
    | true =>
      have hbt : b = true := by rw [← hb]; exact h
      rw [hbt, if_pos rfl]
      refine Tells.bind (l := []) (l' := []) (Tells.pure (p := fun s => s = []) rfl) fun s hs => ?_
      subst hs
      refine Tells.bind (l := []) (l' := []) ih fun r hr => Tells.pure ?_
      subst hr
      rfl
    | false =>
      have hbf : b = false := by rw [← hb]; exact h
      rw [hbf, if_neg (by simp)]
      refine Tells.silent fun t ht => ?_
      refine Tells.bind (l := []) (l' := []) (p := fun s => s = [shown c.env p.1]) (Tells.pure ?_) fun s hs => ?_
      · unfold shown; rw [ht]
      subst hs
      refine Tells.bind (l := []) (l' := []) ih fun r hr => Tells.pure ?_
      subst hr
      rfl

theorem startsWith_prefix (a s : Str) : startsWith a s = a.isPrefixOf s := by
  rfl

/-- **C101.** At the end of a response, each `Accept-CH` that came in the clear is reported; and if the response was found to be storable, so are the
fields that an `Accept-CH` asks for and `Vary` doesn't list, and nothing else -/
theorem C101_accept_ch (E : Ended env related ls chunks co ts m0 m m') (hu : Unpadded ls) (hk : m0.kind = .response) (hl : ListShape env) :
    Gained [.ACCEPT_CH_IN_PLAIN_HTTP, .ACCEPT_CH_MISSING_VARY] m m'
      (onFields [.accept_ch_] (listOf env) (fun _ l => acceptChEndReports env (inTheClear related) (foundStorable m') (lowerElements ls (str "vary")) l) ls ++
       onFields [.accept_ch_] (listOf env) (fun _ l => acceptChEndReports env (inTheClear related) (foundStorable m') (lowerElements ls (str "vary")) l) ts) := by
  have hX : PostAmong [.ACCEPT_CH_IN_PLAIN_HTTP, .ACCEPT_CH_MISSING_VARY] [.accept_ch_] := by post_among
  obtain ⟨names, hn, hvary⟩ := E.varies hu hk
  refine E.tells hX (fun f hf v => ?_) (by rw [hk]; decide) (listOf env) ofMembers (fun a => by unfold ofMembers; simp) ?_ _ (fun n a r hr => ?_) ?_
  · rw [List.mem_singleton] at hf
    subst hf
    unfold afterCheck
    split <;> simp_all [evaluated]
  · intro k ks n hf
    rw [List.mem_singleton] at hf
    rw [hf, list_value (by decide) hl]
    cases listOf env ks n <;> rfl
  · unfold acceptChEndReports at hr
    rcases List.mem_append.1 hr with hr | hr
    · obtain ⟨_, rfl⟩ := mem_sayIf.1 hr; exact ⟨by simp, by simp⟩
    · obtain ⟨_, rfl⟩ := mem_sayIf.1 hr; exact ⟨by simp, by simp⟩
  · intro add h t ks k n l _ hf _ _ _ hfid hv
    rw [List.mem_singleton] at hf
    rw [hf] at hfid
    refine postW_of (w := accept_ch.postCheck ⟨env, m', related⟩ add h) (by unfold Handler.postCheck; rw [hfid]) ?_
    unfold accept_ch.postCheck acceptChEndReports
    dsimp only
    generalize hK : (if storable ⟨env, m', related⟩ = true then _ else _ : W Unit) = K
    generalize hL : sayIf (foundStorable m' && _) _ = L
    suffices key : Tells [.ACCEPT_CH_IN_PLAIN_HTTP, .ACCEPT_CH_MISSING_VARY] add K L (fun _ => True) by
      clear hK hL
      unfold Ctx.request inTheClear
      cases related with
      | none => exact key
      | some q =>
        dsimp only [Option.bind_some]
        cases q.uri with
        | none => exact key
        | some u => exact Tells.bind (Tells.when rfl) fun _ _ => key
    · subst hK hL
      have : storable ⟨env, m', related⟩ = foundStorable m' := rfl
      rw [this]
      cases foundStorable m' with
      | false => rw [if_neg (by simp)]; exact Tells.pure trivial
      | true =>
        rw [if_pos rfl, hv, Bool.true_and]
        refine Tells.silent fun items hi => ?_
        unfold ofMembers at hi
        injection hi with hi
        subst hi
        have hcon : ∀ x, ((dget m'.headers.parsed (str "vary")).getD (.list [])).contains x = .ok ((names.map Val.str).any (Val.pyEq x)) := by
          intro x
          rcases hvary with e | ⟨e, rfl⟩ <;> rw [e] <;> rfl
        refine Tells.bind (l := []) (missing_tells (c := ⟨env, m', related⟩) hcon l) fun r hr => ?_
        have hsame : (l.filter fun e => !(names.map Val.str).any (Val.pyEq e.1)) =
            l.filter fun e => decide (¬ ∃ n ∈ lowerElements ls (str "vary"), e.1 = .str n ∨ e.1 = .md n ∨ e.1 = .token n ∨ e.1 = .disp n) := by
          apply List.filter_congr
          intro e _
          rw [Bool.eq_iff_iff, decide_eq_true_iff, Bool.not_eq_true', Bool.eq_false_iff]
          apply not_congr
          rw [List.any_map, List.any_eq_true]
          simp only [Function.comp, pyEq_named, hn]
        dsimp only at hr
        rw [hsame] at hr
        generalize (l.filter fun e => decide (¬ ∃ n ∈ lowerElements ls (str "vary"), e.1 = .str n ∨ e.1 = .md n ∨ e.1 = .token n ∨ e.1 = .disp n)) = missing at hr ⊢
        subst hr
        refine (Tells.when rfl).of ?_
        cases missing <;> rfl

/-! ### compression with a dictionary (C102) -/

/-- the codings for compression with a dictionary -/
def dictionaryCodings : List Str := [str "dcb", str "dcz"]

theorem support_codings (ds : List (Str × Val)) :
    available_dictionary.hasSupport (ds.map fun p => .tuple [.str p.1, p.2]) = .ok (ds.any fun p => dictionaryCodings.contains p.1) := by
  induction ds with
  | nil => rfl
  | cons p ds ih =>
    rw [List.map_cons]
    unfold available_dictionary.hasSupport
    show (if (Val.pyEq (.str p.1) (.str (str "dcb")) || Val.pyEq (.str p.1) (.str (str "dcz"))) = true then _ else _) = _
    have : (Val.pyEq (.str p.1) (.str (str "dcb")) || Val.pyEq (.str p.1) (.str (str "dcz"))) = dictionaryCodings.contains p.1 := by
      show (p.1 == str "dcb" || p.1 == str "dcz") = ([str "dcb", str "dcz"] : List Str).contains p.1
      simp only [List.contains_cons, List.contains_nil, Bool.or_false]
    rw [this, List.any_cons]
    cases dictionaryCodings.contains p.1 with
    | true => rfl
    | false => rw [if_neg (by simp), ih]; rfl

theorem coding_parses (q : Msg) : ∃ ds : Str → Val, ∀ x, parseText ⟨env, q, related⟩ .accept_encoding_ x = .ok (.tuple [.str (lower (beforeC 59 x)), ds x]) := by
  have : ∀ x, ∃ d, Heard [] ⟨[], [], []⟩ (codingParse env ⟨[], [], []⟩ x) [] (.tuple [.str (lower (beforeC 59 x)), d]) := by
    intro x
    obtain ⟨d, hd, _⟩ := params_heard env ⟨[], [], []⟩ (afterC 59 x) (.names [str "q"]) [] (by simp)
    refine ⟨Val.ofDict d, ?_⟩
    unfold codingParse
    rw [splitSemi_eq]
    exact Heard.bind hd .pure
  exact ⟨fun x => (this x).choose, fun x => (this x).choose_spec.res⟩

theorem Ended.kind (E : Ended env related ls chunks co ts m0 m m') : m'.kind = m0.kind := by
  obtain ⟨_, hk, _⟩ := E.pieces
  obtain ⟨rn, hf⟩ := E.finish
  have hs := finishContent_sections env related co ts m
  unfold Finishes at hf
  rw [hf] at hs
  rw [← hk]
  refine hs.2.2.trans ?_
  split
  · rfl
  · exact (processSection_ext env related true ts (finishStart env co m)).kind

/-- **C102** (requests) at the end of a request, each `Available-Dictionary` is reported if `Accept-Encoding` lists neither of the codings that use
dictionaries -/
theorem C102_available_dictionary (E : Ended env related ls chunks co ts m0 m m') (hu : Unpadded ls) (hk : m0.kind = .request) (hi : ItemShape env) :
    Gained [.AVAILABLE_DICTIONARY_MISSING_AE] m m'
      (onFields [.available_dictionary_] (itemOf env) (fun _ _ => sayIf (!(codingsOf ls (str "accept-encoding")).any dictionaryCodings.contains) { cls := .AVAILABLE_DICTIONARY_MISSING_AE }) ls ++
       onFields [.available_dictionary_] (itemOf env) (fun _ _ => sayIf (!(codingsOf ls (str "accept-encoding")).any dictionaryCodings.contains) { cls := .AVAILABLE_DICTIONARY_MISSING_AE }) ts) := by
  have hX : PostAmong [.AVAILABLE_DICTIONARY_MISSING_AE] [.available_dictionary_] := by post_among
  obtain ⟨ds, hp⟩ := coding_parses (env := env) (related := related) m0
  have hae := E.listed hu (n := str "accept-encoding") (f := .accept_encoding_) (by decide +kernel) rfl (by decide) (by rw [hk]; rfl) (fun _ => rfl) _ hp
  refine E.tells hX (fun f hf v => ?_) (by rw [hk]; decide) (itemOf env) (fun a => .tuple [a.1, a.2]) (fun a => by simp) ?_ _ (fun n a r hr => ?_) ?_
  · rw [List.mem_singleton] at hf
    subst hf
    unfold afterCheck
    split <;> simp_all [evaluated]
  · intro k ks n hf
    rw [List.mem_singleton] at hf
    rw [hf, item_value (by decide) hi]
    cases itemOf env ks n <;> rfl
  · obtain ⟨_, rfl⟩ := mem_sayIf.1 hr; exact ⟨by simp, by simp⟩
  · intro add h t ks k n l _ hf _ _ _ hfid hv
    rw [List.mem_singleton] at hf
    rw [hf] at hfid
    refine postW_of (w := available_dictionary.postCheck ⟨env, m', related⟩ add) (by unfold Handler.postCheck; rw [hfid]) ?_
    unfold available_dictionary.postCheck
    have hreq : (⟨env, m', related⟩ : Ctx).isRequest = true := by
      show decide (m'.kind = .request) = true
      rw [E.kind, hk]; rfl
    rw [hreq, if_neg (by simp)]
    dsimp only
    rw [hae]
    refine Tells.silent fun items hi => ?_
    injection hi with hi
    subst hi
    have := support_codings ((elementsOf ls (str "accept-encoding")).map fun x => (lower (beforeC 59 x), ds x))
    rw [List.map_map] at this
    rw [show (elementsOf ls (str "accept-encoding")).map (fun x => Val.tuple [.str (lower (beforeC 59 x)), ds x]) =
      (elementsOf ls (str "accept-encoding")).map ((fun p : Str × Val => Val.tuple [.str p.1, p.2]) ∘ fun x => (lower (beforeC 59 x), ds x)) from rfl, this]
    refine Tells.silent fun b hb => ?_
    injection hb with hb
    subst hb
    refine (Tells.when rfl).of ?_
    congr 2
    unfold codingsOf
    rw [List.any_map, List.any_map]
    rfl

theorem iter_error {v : Val} {e} (h : v.iter = .error e) : e.isValueError = false := by
  unfold Val.iter at h
  split at h <;> cases h
  rfl

theorem idx_error {v : Val} {i e} (h : v.idx i = .error e) : e.isValueError = false := by
  unfold Val.idx at h
  split at h
  all_goals first
    | (injection h with h; subst h; rfl)
    | (split at h <;> cases h <;> rfl)

theorem contentEncoding_res (c : Ctx) (x : Str) : parseText c .content_encoding_ x = .ok (.str (lower x)) ∨
    ∃ e, parseText c .content_encoding_ x = .error e ∧ e.isValueError = false := by
  show (content_encoding.parse c ⟨[], [], []⟩ x).res = _ ∨ ∃ e, (content_encoding.parse c ⟨[], [], []⟩ x).res = _ ∧ _
  unfold content_encoding.parse
  split
  · split
    · rename_i req _ _ _
      dsimp only
      cases hi : ((dget req.headers.parsed (str "accept-encoding")).getD (.list [])).iter with
      | error e => exact .inr ⟨e, by rw [W.bind_err (show (W.lift (Except.error e : Except Exn (List Val))).res = .error e from rfl)], iter_error hi⟩
      | ok items =>
        rw [W.bind_ok (show (W.lift (Except.ok items : Except Exn (List Val))).res = .ok items from rfl)]
        dsimp only
        cases hn : (items.mapM fun a => W.lift (a.idx 0)).res with
        | error e =>
          refine .inr ⟨e, by rw [W.bind_err hn], ?_⟩
          clear hi
          induction items with
          | nil => exact nomatch hn
          | cons a items ih =>
            rw [List.mapM_cons] at hn
            cases ha : a.idx 0 with
            | error e' =>
              rw [ha, W.bind_err (show (W.lift (Except.error e' : Except Exn Val)).res = .error e' from rfl)] at hn
              injection hn with hn
              subst hn
              exact idx_error ha
            | ok b =>
              rw [ha, W.bind_ok (show (W.lift (Except.ok b : Except Exn Val)).res = .ok b from rfl)] at hn
              dsimp only at hn
              cases hr : (items.mapM fun a => W.lift (a.idx 0)).res with
              | error e' =>
                rw [W.bind_err hr] at hn
                injection hn with hn
                subst hn
                exact ih hr
              | ok bs => rw [W.bind_ok hr] at hn; exact nomatch hn
        | ok names =>
          refine .inl ?_
          rw [W.bind_ok hn]
          dsimp only
          rw [W.bind_ok when_res]
          rfl
    · exact .inl rfl
  · exact .inl rfl

/-- the elements of a processed header of a class whose parser returns or fails with an error that isn't a `ValueError` have all been parsed -/
theorem Ended.contentEncoding (E : Ended env related ls chunks co ts m0 m m') (hu : Unpadded ls) :
    (dget m'.headers.parsed (str "content-encoding")).getD (.list []) = .list ((lowerElements ls (str "content-encoding")).map .str) := by
  have hc : classOf (str "content-encoding") = .content_encoding_ := by decide +kernel
  rw [E.header hu (n := str "content-encoding") (by rw [hc]; decide) (by rw [hc]; decide) (by rw [hc]; cases m0.kind <;> rfl), hc]
  by_cases hn : str "content-encoding" ∈ namesOf ls
  · rw [if_pos hn]
    obtain ⟨⟨m1, h1, _⟩, _, _⟩ := E.pieces
    unfold processSection at h1
    split at h1
    · simp at h1
    · rename_i m2 heq
      have hcl := processLines_clean (E.start.ready false) (Ext.refl false m0) heq
      clear h1
      have hok : ∀ x ∈ (valuesOf ls (str "content-encoding")).flatMap splitListField, parseText ⟨env, m0, related⟩ .content_encoding_ (strip x) = .ok (.str (lower (strip x))) := by
        intro x hx
        obtain ⟨v, hv, hx⟩ := List.mem_flatMap.1 hx
        unfold valuesOf at hv
        obtain ⟨l, hl, rfl⟩ := List.mem_map.1 hv
        obtain ⟨hl, hln⟩ := List.mem_filter.1 hl
        have hnm : lower (decodeName l.1) = str "content-encoding" := beq_iff_eq.1 hln
        have hcc : classOf (decodeName l.1) = .content_encoding_ := by
          rw [← hc]; exact classOf_lower (by rw [hnm]; rfl)
        have hce := hcl l hl (by
          unfold accepted
          rw [hcc, Bool.and_eq_true]
          refine ⟨by cases m0.kind <;> rfl, ?_⟩
          cases ht : isToken (strip (decodeName l.1)) with
          | true => rfl
          | false => rw [classOf_notToken ht] at hcc; exact nomatch hcc) (by rw [hcc]; rfl)
        rw [hcc] at hce
        cases hp : parseText ⟨env, m0, related⟩ .content_encoding_ (strip x) with
        | error e =>
          have hve := hce x hx e hp
          rcases contentEncoding_res ⟨env, m0, related⟩ (strip x) with h | ⟨e', h, h'⟩
          · rw [h] at hp; exact nomatch hp
          · rw [h] at hp; injection hp with hp; subst hp; rw [h'] at hve; exact nomatch hve
        | ok r =>
          rcases contentEncoding_res ⟨env, m0, related⟩ (strip x) with h | ⟨e', h, h'⟩
          · rw [← hp, h]
          · rw [h] at hp; exact nomatch hp
      unfold valueOf lineValue
      show (some (afterCheck .content_encoding_ (.list _))).getD _ = _
      unfold afterCheck
      rw [if_neg (by simp)]
      show Val.list _ = _
      congr 1
      unfold lowerElements elementsOf
      rw [List.map_map, List.map_map]
      generalize (valuesOf ls (str "content-encoding")).flatMap splitListField = xs at hok
      induction xs with
      | nil => rfl
      | cons x xs ih =>
        rw [List.filterMap_cons, hok x (by simp)]
        exact congrArg _ (ih fun y hy => hok y (by simp [hy]))
  · rw [if_neg hn]
    unfold lowerElements
    rw [elementsOf_absent hn]
    rfl

/-- **C102** (responses) at the end of a response that was found to be storable and whose `Content-Encoding` uses a dictionary, it's reported (for each
`Content-Encoding` there is, in the headers and the trailers) that `Vary` doesn't list `Available-Dictionary`, if it doesn't -/
theorem C102_content_encoding (E : Ended env related ls chunks co ts m0 m m') (hu : Unpadded ls) (hk : m0.kind = .response) :
    Gained [.DICTIONARY_COMPRESSED_MISSING_VARY] m m' ((namesFor .content_encoding_ ls ++ namesFor .content_encoding_ ts).flatMap fun n =>
      (sayIf ((lowerElements ls (str "content-encoding")).any dictionaryCodings.contains && foundStorable m' && !(lowerElements ls (str "vary")).contains (str "available-dictionary"))
        { cls := .DICTIONARY_COMPRESSED_MISSING_VARY }).map (fieldSubject n, ·)) := by
  have hX : PostAmong [.DICTIONARY_COMPRESSED_MISSING_VARY] [.content_encoding_] := by post_among
  obtain ⟨names, hn, hvary⟩ := E.varies hu hk
  have hce := E.contentEncoding hu
  have := E.reports hX (fun f hf v => by
      rw [List.mem_singleton] at hf
      subst hf
      unfold afterCheck
      split <;> simp_all [evaluated])
    (fun _ _ => sayIf ((lowerElements ls (str "content-encoding")).any dictionaryCodings.contains && foundStorable m' && !(lowerElements ls (str "vary")).contains (str "available-dictionary"))
        { cls := .DICTIONARY_COMPRESSED_MISSING_VARY }) (fun _ _ r hr => by obtain ⟨_, rfl⟩ := mem_sayIf.1 hr; exact ⟨by simp, by simp⟩) (by
      intro add h t ks k n _ hn' _ hfid _
      have hc := examined_class hn'
      rw [hc] at hfid
      refine postW_of (w := content_encoding.postCheck ⟨env, m', related⟩ add) (by unfold Handler.postCheck; rw [hfid]) ?_
      unfold content_encoding.postCheck
      have hreq : (⟨env, m', related⟩ : Ctx).isRequest = false := by
        show decide (m'.kind = .request) = false
        rw [E.kind, hk]; rfl
      rw [hreq, if_neg (by simp)]
      dsimp only
      rw [hce]
      refine Tells.silent fun items hi => ?_
      injection hi with hi
      subst hi
      have hany : ((lowerElements ls (str "content-encoding")).map Val.str).any (fun e => Val.pyEq e (.str (str "dcb")) || Val.pyEq e (.str (str "dcz"))) =
          (lowerElements ls (str "content-encoding")).any dictionaryCodings.contains := by
        rw [List.any_map]
        congr 1
        funext x
        show (x == str "dcb" || x == str "dcz") = ([str "dcb", str "dcz"] : List Str).contains x
        simp only [List.contains_cons, List.contains_nil, Bool.or_false]
      rw [hany, show storable ⟨env, m', related⟩ = foundStorable m' from rfl]
      generalize ((lowerElements ls (str "content-encoding")).any dictionaryCodings.contains && foundStorable m') = b
      cases b with
      | false => rw [if_neg (by simp)]; exact Tells.pure trivial
      | true =>
        rw [if_pos rfl, Bool.true_and]
        have hcon : ((dget m'.headers.parsed (str "vary")).getD (.set [])).contains (.str (str "available-dictionary")) = .ok ((lowerElements ls (str "vary")).contains (str "available-dictionary")) := by
          have : (names.map Val.str).any (Val.pyEq (.str (str "available-dictionary"))) = (lowerElements ls (str "vary")).contains (str "available-dictionary") := by
            rw [mem_named, Bool.eq_iff_iff, decide_eq_true_iff, List.contains_iff_mem, hn]
          rw [← this]
          rcases hvary with e | ⟨e, rfl⟩ <;> rw [e] <;> rfl
        rw [hcon]
        refine Tells.silent fun p hp => ?_
        injection hp with hp
        subst hp
        exact Tells.when rfl)
  have hex : ∀ (k : Msg) ks, examined env related k [.content_encoding_] ks = namesFor .content_encoding_ ks := by
    intro k ks
    have e : namesAmong [.content_encoding_] ks = namesFor .content_encoding_ ks := by
      unfold namesAmong namesFor
      apply List.filter_congr
      intro n _
      simp [eq_comm]
    unfold examined
    rw [e]
    apply List.filter_eq_self.2
    intro n hn'
    rw [(mem_namesFor.1 hn').2, Bool.and_eq_true]
    exact ⟨by cases k.kind <;> rfl, by unfold valueOf lineValue; rfl⟩
  rw [hex, hex, ← List.flatMap_append] at this
  exact this

end

end HL.Props
