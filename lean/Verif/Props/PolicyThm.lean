import Verif.Props.Reports

/-!
# Referrer-Policy, Clear-Site-Data and the cross-origin policies (C74, C75, C76)
-/

namespace HL.Props
open HL.F

section
variable {env : Env} {related : Option Msg} {t : Bool} {ls : List Line} {m m' : Msg}

theorem examined_of {f : FieldId} (hv : f.validIn m.kind = true) (hn : ∀ n ∈ namesFor f ls, valueOf env related m f ls n ≠ .none) :
    examined env related m [f] ls = namesFor f ls := by
  unfold examined namesAmong namesFor
  rw [List.filter_filter]
  apply List.filter_congr
  intro n hn0
  by_cases h : classOf n = f
  · have h1 := hn n (mem_namesFor.2 ⟨hn0, h⟩)
    rw [h, hv]
    have : (valueOf env related m f ls n != .none) = true := by simpa using h1
    rw [this]
    simp
  · simp [h]

theorem examined_list {f : FieldId} (hk : f.info.kind = .list) (hv : f.validIn m.kind = true) : examined env related m [f] ls = namesFor f ls := by
  apply examined_of hv
  intro n _
  unfold valueOf lineValue
  rw [hk]
  simp

theorem examined_class {f n} (h : n ∈ examined env related m [f] ls) : classOf n = f := by
  have := (mem_examined.1 h).2.1
  simpa using this

end

section
variable {env : Env} {related : Option Msg} {t : Bool} {ls : List Line} {m m' : Msg}

theorem flatMap_congr' {α β} {l : List α} {f g : α → List β} (h : ∀ a ∈ l, f a = g a) : l.flatMap f = l.flatMap g := flatMap_congr_mem h

theorem Reported.congr {Xs : List NoteId} {a b : List (Str × Report)} (h : Reported Xs m m' a) (e : a = b) : Reported Xs m m' b := e ▸ h

theorem filter_all {Xs : List NoteId} {l : List Report} (h : ∀ r ∈ l, Xs.contains r.cls = true) : (l.filter fun r => Xs.contains r.cls) = l :=
  List.filter_eq_self.2 h

theorem mem_sayIf {b r x} : x ∈ sayIf b r ↔ b = true ∧ x = r := by
  unfold sayIf
  cases b <;> simp

/-- a field class whose value can always be read, in full -/
theorem Processed.full_reports (P : Processed env related t ls m m') {Xs : List NoteId} {f : FieldId} (hX : EvalAmong Xs [f]) (hv : f.validIn m.kind = true)
    (hne : ∀ n ∈ namesFor f ls, valueOf env related m f ls n ≠ .none) (g : Str → List Report)
    (hcl : ∀ n, ∀ r ∈ g n, r.Clean ∧ Xs.contains r.cls = true)
    (hs : ∀ (c : Ctx) (add : AddNote) (hd : Handler), ∀ n ∈ namesFor f ls, During env related t m c → Seen env related t ls m (before n (namesOf ls)) c →
      (add, hd) = evalSetup m t c related ls n → hd.fid = f → hd.value = valueOf env related m f ls n →
      (hd.evaluate c add).2.notes = (g n).map (Report.note add)) :
    Reported Xs m m' ((namesFor f ls).flatMap fun n => (g n).map (fieldSubject n, ·)) := by
  have := P.reports_all hX g (fun n _ r hr => (hcl n r hr).1) (by
    intro c add hd n hn hd1 hsn hse hf hval
    have hc := examined_class hn
    rw [hc] at hf hval
    exact hs c add hd n (mem_namesFor.2 ⟨(mem_examined.1 hn).1, hc⟩) hd1 hsn hse hf hval)
  rw [examined_of hv hne] at this
  refine this.congr (flatMap_congr' fun n _ => ?_)
  rw [filter_all fun r hr => (hcl _ r hr).2]

/-- the same for several field classes -/
theorem Processed.full_among (P : Processed env related t ls m m') {Xs : List NoteId} {fs : List FieldId} (hX : EvalAmong Xs fs) (hv : ∀ f ∈ fs, f.validIn m.kind = true)
    (hne : ∀ n ∈ namesAmong fs ls, valueOf env related m (classOf n) ls n ≠ .none) (g : Str → List Report)
    (hcl : ∀ n, ∀ r ∈ g n, r.Clean ∧ Xs.contains r.cls = true)
    (hs : ∀ (c : Ctx) (add : AddNote) (hd : Handler), ∀ n ∈ namesAmong fs ls, During env related t m c → Seen env related t ls m (before n (namesOf ls)) c →
      (add, hd) = evalSetup m t c related ls n → hd.fid = classOf n → hd.value = valueOf env related m (classOf n) ls n →
      (hd.evaluate c add).2.notes = (g n).map (Report.note add)) :
    Reported Xs m m' ((namesAmong fs ls).flatMap fun n => (g n).map (fieldSubject n, ·)) := by
  have := P.reports_all hX g (fun n _ r hr => (hcl n r hr).1) (by
    intro c add hd n hn hd1 hsn hse hf hval
    exact hs c add hd n (List.mem_filter.1 hn).1 hd1 hsn hse hf hval)
  have he : examined env related m fs ls = namesAmong fs ls := by
    unfold examined
    rw [List.filter_eq_self]
    intro n hn
    rw [hv _ (mem_namesAmong.1 hn).2]
    simpa using hne n hn
  rw [he] at this
  refine this.congr (flatMap_congr' fun n _ => ?_)
  rw [filter_all fun r hr => (hcl _ r hr).2]

theorem singleton_value {f : FieldId} (hk : f.info.kind = .singleton) (n : Str) (hn : n ∈ namesOf ls) :
    valueOf env related m f ls n = (parseText ⟨env, m, related⟩ f (textOf ls n)).toOption.getD .none := by
  unfold valueOf lineValue textOf
  rw [hk]
  cases h : valuesOf ls n with
  | nil => exact absurd h (valuesOf_ne hn)
  | cons v vs => rfl

end

/-! ### Referrer-Policy -/

/-- the elements of a list field, in lower case -/
def lowerElements (ls : List Line) (n : Str) : List Str := (elementsOf ls n).map lower

/-- the policies of the Referrer Policy specification -/
def referrerPolicies : List Str :=
  [str "no-referrer", str "no-referrer-when-downgrade", str "same-origin", str "origin", str "strict-origin",
   str "origin-when-cross-origin", str "strict-origin-when-cross-origin", str "unsafe-url"]

/-- those that never send more than the origin across origins, and nothing over an insecure connection -/
def strictPolicies : List Str := [str "no-referrer", str "same-origin", str "strict-origin", str "strict-origin-when-cross-origin"]

/-- the policy in effect: the last one that is known -/
def effectivePolicy (toks : List Str) : Option Str := toks.reverse.find? fun x => referrerPolicies.contains x

/-- what is reported about a list of policies -/
def referrerReports (toks : List Str) : List Report :=
  ((toks.filter fun x => !referrerPolicies.contains x).map fun x => { cls := .REFERRER_POLICY_UNKNOWN, vars := [(str "policy", .str x)] }) ++
  match effectivePolicy toks with
  | none => [{ cls := .REFERRER_POLICY_EMPTY }]
  | some p =>
    sayIf (decide (2 ≤ toks.countP fun x => referrerPolicies.contains x)) { cls := .REFERRER_POLICY_MULTIPLE, vars := [(str "effective", .str p)] } ++
    sayIf (p == str "unsafe-url") { cls := .REFERRER_POLICY_UNSAFE } ++
    sayIf (strictPolicies.contains p) { cls := .REFERRER_POLICY_STRICT, vars := [(str "policy", .str p)] }

/-- the classes of note on a `Referrer-Policy` -/
def referrerClasses : List NoteId :=
  [.REFERRER_POLICY_UNKNOWN, .REFERRER_POLICY_EMPTY, .REFERRER_POLICY_MULTIPLE, .REFERRER_POLICY_UNSAFE, .REFERRER_POLICY_STRICT]

theorem getLast_filter {α} (p : α → Bool) (l : List α) : (l.filter p).getLast? = l.reverse.find? p := by
  rw [← List.head?_reverse, ← List.filter_reverse, List.head?_filter]

theorem referrer_told (add : AddNote) (hd : Handler) (toks : List Str) (hv : hd.value = .list (toks.map .str)) :
    Told add (referrer_policy.evaluate add hd) (referrerReports toks) () := by
  unfold referrer_policy.evaluate referrerReports
  refine (Told.bind (a := toks.map Val.str) (l := []) (.lift (by rw [hv]; rfl)) ?_).of (List.nil_append _)
  dsimp only
  rw [asStr_map]
  refine Told.bind (a := ()) ((Told.forEach (g := fun x => sayIf (!referrerPolicies.contains x) { cls := .REFERRER_POLICY_UNKNOWN, vars := [(str "policy", .str x)] })
    fun x _ => Told.when).of ?_) ?_
  · unfold sayIf
    exact flatMap_ite_map ..
  · unfold effectivePolicy
    rw [← getLast_filter]
    show Told add (match (toks.filter fun x => referrerPolicies.contains x).getLast? with | none => _ | some eff => _) _ _
    cases (toks.filter fun x => referrerPolicies.contains x).getLast? with
    | none => exact .add
    | some p =>
      dsimp only
      rw [List.countP_eq_length_filter, List.append_assoc]
      refine Told.bind (a := ()) .when ?_
      by_cases hu : p = str "unsafe-url"
      · rw [if_pos hu]
        subst hu
        exact .add
      · rw [if_neg hu]
        have : (p == str "unsafe-url") = false := by simpa using hu
        rw [this]
        exact .when

section
variable {env : Env} {related : Option Msg} {t : Bool} {ls : List Line} {m m' : Msg}

theorem lower_value {f : FieldId} (hk : f.info.kind = .list) (hg : ∀ x, parseText ⟨env, m, related⟩ f x = .ok (.str (lower x))) (n : Str) :
    valueOf env related m f ls n = .list ((lowerElements ls n).map .str) := by
  rw [valueOf_list hk _ hg]
  unfold lowerElements elementsOf
  rw [List.map_map, List.map_map]
  rfl

theorem elements_value {f : FieldId} (hk : f.info.kind = .list) (hg : ∀ x, parseText ⟨env, m, related⟩ f x = .ok (.str x)) (n : Str) :
    valueOf env related m f ls n = .list ((elementsOf ls n).map .str) := by
  rw [valueOf_list hk _ hg]
  unfold elementsOf
  rw [List.map_map]
  rfl

/-- **C74** a response's `Referrer-Policy` is reported on exactly as the policies it lists deserve: each unknown one is named; if none is
known it is called empty; otherwise the last known one is in effect, and that is said if there are several, as is whether it is
unsafe or strict -/
theorem C74_referrer_policy (P : Processed env related t ls m m') (hk : m.kind = .response) :
    Reported referrerClasses m m' ((namesFor .referrer_policy_ ls).flatMap fun n => (referrerReports (lowerElements ls n)).map (fieldSubject n, ·)) := by
  have hval : ∀ n, valueOf env related m .referrer_policy_ ls n = .list ((lowerElements ls n).map .str) := lower_value rfl fun _ => rfl
  have hcl : ∀ toks, ∀ r ∈ referrerReports toks, r.Clean ∧ referrerClasses.contains r.cls = true := by
    intro toks r hr
    unfold referrerReports at hr
    rcases List.mem_append.1 hr with hr | hr
    · obtain ⟨x, _, rfl⟩ := List.mem_map.1 hr
      exact ⟨⟨by simp, by simp⟩, rfl⟩
    · split at hr
      · rw [List.mem_singleton] at hr; subst hr; exact ⟨⟨by simp, by simp⟩, rfl⟩
      · simp only [List.mem_append, mem_sayIf] at hr
        rcases hr with (⟨_, rfl⟩ | ⟨_, rfl⟩) | ⟨_, rfl⟩ <;> exact ⟨⟨by simp, by simp⟩, rfl⟩
  refine P.full_reports (by eval_among) (by rw [hk]; rfl) (fun n _ => by rw [hval]; simp) _ (fun n => hcl _) ?_
  intro c add hd n _ _ _ _ hf hv
  unfold Handler.evaluate
  rw [hf]
  exact (referrer_told add hd _ (hv.trans (hval n))).notes

end

/-! ### the cross-origin policies -/

/-- what the text of a field parses to as a Structured Item: its bare item and its parameters -/
def itemOf (env : Env) (ls : List Line) (n : Str) : Option (Val × Val) :=
  match env.sfParse (str "item") (strip (join (str ", ") (valuesOf ls n))) with
  | .ok (.tuple [v, p]) _ => some (v, p)
  | _ => none

/-- the parser of Structured Fields returns pairs for Items -/
def ItemShape (env : Env) : Prop := ∀ s v dups, env.sfParse (str "item") s = .ok v dups → ∃ a p, v = .tuple [a, p]

/-- the verdict on a `Cross-Origin-Embedder-Policy` -/
def coepVerdict (v : Val) : NoteId :=
  if v = .token (str "require-corp") then .COEP_REQUIRE_CORP
  else if v = .token (str "credentialless") then .COEP_CREDENTIALLESS
  else if v = .token (str "unsafe-none") then .COEP_UNSAFE_NONE
  else .CROSS_ORIGIN_EMBEDDER_POLICY_BAD_VALUE

/-- the verdict on a `Cross-Origin-Opener-Policy` -/
def coopVerdict (v : Val) : NoteId :=
  if v = .token (str "same-origin") then .COOP_SAME_ORIGIN
  else if v = .token (str "same-origin-allow-popups") then .COOP_SAME_ORIGIN_ALLOW_POPUPS
  else if v = .token (str "unsafe-none") then .COOP_UNSAFE_NONE
  else .CROSS_ORIGIN_OPENER_POLICY_BAD_VALUE

/-- the variables of such a verdict: a bad value is shown -/
def verdictVars (X bad : NoteId) (v : Val) (onlyReport : Bool) : Dict Val :=
  let s : Str := if onlyReport then str " (for reporting only)" else []
  let text : Str := if onlyReport then str "\n\nBrowsers will only report violations of this policy, not enforce it." else []
  if X = bad then [(str "value", v), (str "report_only", .str s)] else [(str "report_only", .str s), (str "report_only_text", .str text)]

/-- what is reported on an embedder policy; `dup` says a report-only one accompanies one that is enforced -/
def coepReports (onlyReport dup : Bool) (v : Val) : List Report :=
  sayIf (onlyReport && dup) { cls := .COEP_REPORT_ONLY_DUPLICATE } ++
  [{ cls := coepVerdict v, vars := verdictVars (coepVerdict v) .CROSS_ORIGIN_EMBEDDER_POLICY_BAD_VALUE v onlyReport }]

/-- what is reported on an opener policy -/
def coopReports (onlyReport dup : Bool) (v : Val) : List Report :=
  sayIf (onlyReport && dup) { cls := .COOP_REPORT_ONLY_DUPLICATE } ++
  [{ cls := coopVerdict v, vars := verdictVars (coopVerdict v) .CROSS_ORIGIN_OPENER_POLICY_BAD_VALUE v onlyReport }]

/-- what the shared code of the two fields reports -/
def tokenReport (ro : ReportOnly) (table : List (Str × NoteId)) (bad : NoteId) (v : Val) : Report :=
  match v with
  | .token t => (match table.find? (fun p => p.1 == t) with
    | some (_, n) => { cls := n, vars := [(str "report_only", .str ro.string), (str "report_only_text", .str ro.text)] }
    | none => { cls := bad, vars := [(str "value", v), (str "report_only", .str ro.string)] })
  | _ => { cls := bad, vars := [(str "value", v), (str "report_only", .str ro.string)] }

theorem tokenPolicy_told (add : AddNote) (ro : ReportOnly) (table : List (Str × NoteId)) (bad : NoteId) (hd : Handler) {v p : Val} (hv : hd.value = .tuple [v, p]) :
    Told add (tokenPolicy add ro table bad hd) [tokenReport ro table bad v] () := by
  unfold tokenPolicy tokenReport
  refine (Told.bind (a := v) (l := []) (.lift (by rw [hv]; rfl)) ?_).of (List.nil_append _)
  dsimp only
  clear hv
  rcases v with _ | _ | _
  · rename_i a
    cases a
    all_goals first | exact .add | skip
    rename_i s
    dsimp only
    cases table.find? fun p => p.1 == s with
    | none => exact .add
    | some q => exact .add
  all_goals exact .add

/-- which note a table of three tokens yields -/
theorem tokenReport_three {ro : ReportOnly} {a b c : Str} {A B C bad : NoteId} (v : Val) :
    tokenReport ro [(a, A), (b, B), (c, C)] bad v =
      if v = .token a then { cls := A, vars := [(str "report_only", .str ro.string), (str "report_only_text", .str ro.text)] }
      else if v = .token b then { cls := B, vars := [(str "report_only", .str ro.string), (str "report_only_text", .str ro.text)] }
      else if v = .token c then { cls := C, vars := [(str "report_only", .str ro.string), (str "report_only_text", .str ro.text)] }
      else { cls := bad, vars := [(str "value", v), (str "report_only", .str ro.string)] } := by
  unfold tokenReport
  split
  · rename_i s
    have hi : ∀ x, ((.token s : Val) = .token x) = (x = s) := by
      intro x; simp [eq_comm]
    simp only [hi, List.find?_cons, List.find?_nil]
    by_cases h1 : a = s
    · rw [if_pos h1]; simp [h1]
    · have : (a == s) = false := by simpa using h1
      rw [if_neg h1, this]
      by_cases h2 : b = s
      · rw [if_pos h2]; simp [h2]
      · have : (b == s) = false := by simpa using h2
        rw [if_neg h2, this]
        by_cases h3 : c = s
        · rw [if_pos h3]; simp [h3]
        · have : (c == s) = false := by simpa using h3
          rw [if_neg h3, this]
  · rename_i hne
    rw [if_neg (fun e => hne _ e), if_neg (fun e => hne _ e), if_neg (fun e => hne _ e)]

/-- the texts of a report-only field, or of one that is enforced -/
def roOf (b : Bool) : ReportOnly := if b then coxpReportOnly else {}

theorem coep_report (b : Bool) (v : Val) : tokenReport (roOf b) coepTable .CROSS_ORIGIN_EMBEDDER_POLICY_BAD_VALUE v =
    { cls := coepVerdict v, vars := verdictVars (coepVerdict v) .CROSS_ORIGIN_EMBEDDER_POLICY_BAD_VALUE v b } := by
  unfold coepTable coepVerdict
  rw [tokenReport_three]
  split
  · cases b <;> rfl
  · split
    · cases b <;> rfl
    · split <;> cases b <;> rfl

theorem coop_report (b : Bool) (v : Val) : tokenReport (roOf b) coopTable .CROSS_ORIGIN_OPENER_POLICY_BAD_VALUE v =
    { cls := coopVerdict v, vars := verdictVars (coopVerdict v) .CROSS_ORIGIN_OPENER_POLICY_BAD_VALUE v b } := by
  unfold coopTable coopVerdict
  rw [tokenReport_three]
  split
  · cases b <;> rfl
  · split
    · cases b <;> rfl
    · split <;> cases b <;> rfl

section
variable {env : Env} {related : Option Msg} {t : Bool} {ls : List Line} {m m' : Msg}

theorem item_value {f : FieldId} (hk : f.info.kind = .sf (str "item")) (hi : ItemShape env) (n : Str) :
    valueOf env related m f ls n = match itemOf env ls n with
      | some (v, p) => .tuple [v, p]
      | none => .none := by
  unfold valueOf lineValue itemOf
  rw [hk]
  dsimp only
  generalize hp : env.sfParse (str "item") (strip (join (str ", ") (valuesOf ls n))) = r
  cases r with
  | ok v dups =>
    obtain ⟨a, p, rfl⟩ := hi _ _ _ hp
    rfl
  | _ => rfl

theorem seen_header {c : Ctx} {a : List Str} (h : Seen env related false ls m a c) (n : Str) : dhas c.msg.headers.handlers n = decide (n ∈ namesOf ls) := by
  rw [Bool.eq_iff_iff, dhas_iff_mem_keys, decide_eq_true_iff]
  have : c.msg.headers.handlers.map (·.1) = namesOf ls := h.keys
  rw [this]

/-- the classes of note on a `Cross-Origin-Embedder-Policy` -/
def coepClasses : List NoteId := [.COEP_REPORT_ONLY_DUPLICATE, .COEP_REQUIRE_CORP, .COEP_CREDENTIALLESS, .COEP_UNSAFE_NONE, .CROSS_ORIGIN_EMBEDDER_POLICY_BAD_VALUE]
/-- the classes of note on a `Cross-Origin-Opener-Policy` -/
def coopClasses : List NoteId := [.COOP_REPORT_ONLY_DUPLICATE, .COOP_SAME_ORIGIN, .COOP_SAME_ORIGIN_ALLOW_POPUPS, .COOP_UNSAFE_NONE, .CROSS_ORIGIN_OPENER_POLICY_BAD_VALUE]

theorem verdict_clean (X bad v b) : ((verdictVars X bad v b).map (·.1)).Nodup := by
  unfold verdictVars
  dsimp only
  split
  · show ([str "value", str "report_only"] : List Str).Nodup; decide
  · show ([str "report_only", str "report_only_text"] : List Str).Nodup; decide

/-- what is reported on a field that is a Structured Item: nothing if it can not be parsed -/
def onItem (env : Env) (ls : List Line) (g : Val → List Report) (n : Str) : List Report :=
  match itemOf env ls n with
  | some (v, _) => g v
  | none => []

/-- a field that is a Structured Item, in full: from what its `evaluate` reports on a bare item -/
theorem Processed.item_reports (P : Processed env related t ls m m') {Xs : List NoteId} {fs : List FieldId} (hX : EvalAmong Xs fs) (hi : ItemShape env)
    (hk : ∀ f ∈ fs, f.info.kind = .sf (str "item")) (hv : ∀ f ∈ fs, f.validIn m.kind = true) (g : Str → Val → List Report)
    (hcl : ∀ n v, ∀ r ∈ g n v, r.Clean ∧ Xs.contains r.cls = true)
    (hs : ∀ (c : Ctx) (add : AddNote) (hd : Handler) n v p, n ∈ namesOf ls → classOf n ∈ fs → hd.fid = classOf n → hd.value = .tuple [v, p] →
      Seen env related t ls m (before n (namesOf ls)) c → Told add (hd.evaluate c add).2 (g n v) ()) :
    Reported Xs m m' ((namesAmong fs ls).flatMap fun n => (onItem env ls (g n) n).map (fieldSubject n, ·)) := by
  have hcl' : ∀ n, ∀ r ∈ onItem env ls (g n) n, r.Clean ∧ Xs.contains r.cls = true := by
    intro n r hr
    unfold onItem at hr
    split at hr
    · exact hcl _ _ r hr
    · exact absurd hr (by simp)
  have := P.reports_all (Xs := Xs) (fs := fs) hX (fun n => onItem env ls (g n) n) (fun n _ r hr => (hcl' n r hr).1) (by
      intro c add hd n hn _ hseen _ hf hval
      obtain ⟨hmem, hc, _, hne⟩ := mem_examined.1 hn
      rw [item_value (hk _ hc) hi] at hval hne
      unfold onItem
      cases hio : itemOf env ls n with
      | none => rw [hio] at hne; exact absurd rfl hne
      | some q =>
        rw [hio] at hval
        exact (hs c add hd n q.1 q.2 hmem hc hf hval hseen).notes)
  refine this.congr ?_
  unfold examined
  rw [flatMap_filter_if]
  apply flatMap_congr_mem
  intro n hn
  obtain ⟨_, hf⟩ := mem_namesAmong.1 hn
  rw [item_value (hk _ hf) hi, hv _ hf, filter_all fun r hr => (hcl' n r hr).2]
  unfold onItem
  cases itemOf env ls n with
  | none => simp
  | some p => rfl

/-- **C75** (embedder policy) in a response's headers, every `Cross-Origin-Embedder-Policy` that can be parsed gets the verdict its token
deserves and no other; a report-only one is called a duplicate if the field that is enforced is there too -/
theorem C75_embedder_policy (P : Processed env related false ls m m') (hk : m.kind = .response) (hi : ItemShape env) :
    Reported coepClasses m m' ((namesAmong [.cross_origin_embedder_policy_, .cross_origin_embedder_policy_report_only_] ls).flatMap fun n =>
      (onItem env ls (coepReports (decide (classOf n = .cross_origin_embedder_policy_report_only_)) (decide (str "cross-origin-embedder-policy" ∈ namesOf ls))) n).map (fieldSubject n, ·)) := by
  refine P.item_reports (fs := [.cross_origin_embedder_policy_, .cross_origin_embedder_policy_report_only_]) (by eval_among) hi (by decide) (by rw [hk]; decide)
    (fun n => coepReports (decide (classOf n = .cross_origin_embedder_policy_report_only_)) (decide (str "cross-origin-embedder-policy" ∈ namesOf ls))) ?_ ?_
  · intro n v r hr
    unfold coepReports at hr
    rcases List.mem_append.1 hr with hr | hr
    · obtain ⟨_, rfl⟩ := mem_sayIf.1 hr
      exact ⟨⟨by simp, by simp⟩, rfl⟩
    · rw [List.mem_singleton] at hr
      subst hr
      refine ⟨⟨verdict_clean .., by simp⟩, ?_⟩
      unfold coepVerdict
      split
      · rfl
      · split
        · rfl
        · split <;> rfl
  · intro c add hd n v p hn hc hf hv hs
    simp only [List.mem_cons, List.not_mem_nil, or_false] at hc
    rcases hc with hc | hc <;> rw [hc] at hf ⊢ <;> unfold Handler.evaluate <;> rw [hf] <;> dsimp only
    · refine (tokenPolicy_told add (roOf false) coepTable _ hd hv).of ?_
      rw [coep_report]; rfl
    · refine Told.bind (a := ()) ?_ ((tokenPolicy_told add (roOf true) coepTable _ hd hv).of ?_)
      · rw [seen_header hs]; exact Told.when
      · rw [coep_report]; rfl

/-- **C75** (opener policy) the same for `Cross-Origin-Opener-Policy` -/
theorem C75_opener_policy (P : Processed env related false ls m m') (hk : m.kind = .response) (hi : ItemShape env) :
    Reported coopClasses m m' ((namesAmong [.cross_origin_opener_policy_, .cross_origin_opener_policy_report_only_] ls).flatMap fun n =>
      (onItem env ls (coopReports (decide (classOf n = .cross_origin_opener_policy_report_only_)) (decide (str "cross-origin-opener-policy" ∈ namesOf ls))) n).map (fieldSubject n, ·)) := by
  refine P.item_reports (fs := [.cross_origin_opener_policy_, .cross_origin_opener_policy_report_only_]) (by eval_among) hi (by decide) (by rw [hk]; decide)
    (fun n => coopReports (decide (classOf n = .cross_origin_opener_policy_report_only_)) (decide (str "cross-origin-opener-policy" ∈ namesOf ls))) ?_ ?_
  · intro n v r hr
    unfold coopReports at hr
    rcases List.mem_append.1 hr with hr | hr
    · obtain ⟨_, rfl⟩ := mem_sayIf.1 hr
      exact ⟨⟨by simp, by simp⟩, rfl⟩
    · rw [List.mem_singleton] at hr
      subst hr
      refine ⟨⟨verdict_clean .., by simp⟩, ?_⟩
      unfold coopVerdict
      split
      · rfl
      · split
        · rfl
        · split <;> rfl
  · intro c add hd n v p hn hc hf hv hs
    simp only [List.mem_cons, List.not_mem_nil, or_false] at hc
    rcases hc with hc | hc <;> rw [hc] at hf ⊢ <;> unfold Handler.evaluate <;> rw [hf] <;> dsimp only
    · refine (tokenPolicy_told add (roOf false) coopTable _ hd hv).of ?_
      rw [coop_report]; rfl
    · refine Told.bind (a := ()) ?_ ((tokenPolicy_told add (roOf true) coopTable _ hd hv).of ?_)
      · rw [seen_header hs]; exact Told.when
      · rw [coop_report]; rfl

/-- what is reported on a `Cross-Origin-Resource-Policy` -/
def corpReports (v : Str) : List Report :=
  if v = str "same-origin" then [{ cls := .CORP_SAME_ORIGIN, vars := [(str "report_only_text", .str [])] }]
  else if v = str "same-site" then [{ cls := .CORP_SAME_SITE, vars := [(str "report_only_text", .str [])] }]
  else if v = str "cross-origin" then [{ cls := .CORP_CROSS_ORIGIN, vars := [(str "report_only_text", .str [])] }]
  else [{ cls := .CROSS_ORIGIN_RESOURCE_POLICY_BAD_VALUE, vars := [(str "value", .str v)] }]

/-- the classes of note on a `Cross-Origin-Resource-Policy` -/
def corpClasses : List NoteId := [.CORP_SAME_ORIGIN, .CORP_SAME_SITE, .CORP_CROSS_ORIGIN, .CROSS_ORIGIN_RESOURCE_POLICY_BAD_VALUE]

theorem corp_told (add : AddNote) (hd : Handler) (v : Str) (hv : hd.value = .str v) :
    Told add (corp.evaluate add hd) (corpReports v) () := by
  unfold corp.evaluate corpReports
  dsimp only
  have he : ∀ w, Val.pyEq hd.value (.str w) = true ↔ v = w := by intro w; rw [hv]; show (v == w) = true ↔ _; simp
  simp only [he]
  rw [hv]
  exact Told.ite (fun _ => .add) fun _ => Told.ite (fun _ => .add) fun _ => Told.ite (fun _ => .add) fun _ => .add

/-- **C75** (resource policy) a response's `Cross-Origin-Resource-Policy` gets the verdict its value deserves and no other -/
theorem C75_resource_policy (P : Processed env related t ls m m') (hk : m.kind = .response) :
    Reported corpClasses m m' ((namesFor .cross_origin_resource_policy_ ls).flatMap fun n => (corpReports (textOf ls n)).map (fieldSubject n, ·)) := by
  have hval : ∀ n ∈ namesFor .cross_origin_resource_policy_ ls, valueOf env related m .cross_origin_resource_policy_ ls n = .str (textOf ls n) :=
    fun n hn => singleton_value rfl n (mem_namesFor.1 hn).1
  refine P.full_reports (by eval_among) (by rw [hk]; rfl) (fun n hn => by rw [hval n hn]; simp) (fun n => corpReports (textOf ls n)) (fun n r hr => ?_) ?_
  · unfold corpReports at hr
    split at hr
    · rw [List.mem_singleton] at hr; subst hr; exact ⟨⟨by simp, by simp⟩, rfl⟩
    · split at hr
      · rw [List.mem_singleton] at hr; subst hr; exact ⟨⟨by simp, by simp⟩, rfl⟩
      · split at hr <;> rw [List.mem_singleton] at hr <;> subst hr <;> exact ⟨⟨by simp, by simp⟩, rfl⟩
  · intro c add hd n hn _ _ _ hf hv
    unfold Handler.evaluate
    rw [hf]
    exact (corp_told add hd _ (hv.trans (hval n hn))).notes

end

/-! ### Clear-Site-Data -/

/-- the types of data that can be cleared -/
def clearable : List Str := [str "cache", str "cookies", str "storage", str "executionContexts", str "*"]

/-- the text between quotation marks, if it is there -/
def between? (e : Str) : Option Str := if 2 ≤ e.length ∧ e.head? = some 34 ∧ e.getLast? = some 34 then some (e.drop 1).dropLast else none

/-- what is reported on one element -/
def csdElement (e : Str) : List Report :=
  let v := (between? e).getD e
  if v = [] then [{ cls := .CSD_EMPTY }]
  else if v ∈ clearable then [] else [{ cls := .CSD_UNKNOWN_VALUE, vars := [(str "value", .str v)] }]

/-- the types given without quotation marks, which are ignored -/
def csdBare (es : List Str) : List Str := es.filter fun e => between? e == none && clearable.contains e

/-- the types that are cleared -/
def csdCleared (es : List Str) : List Str := (es.filterMap between?).filter fun v => clearable.contains v && !(csdBare es).contains v

/-- what is reported on the whole -/
def csdReports (es : List Str) : List Report :=
  sayIf (csdBare es != []) { cls := .CSD_UNQUOTED, vars := [(str "values", .str (join (str ", ") (csdBare es)))] } ++
  sayIf (es == []) { cls := .CSD_EMPTY } ++
  sayIf (csdCleared es != []) { cls := .CSD_PRESENT, vars := [(str "values", .str (join (str ", ") ((csdCleared es).map fun v => str "`" ++ v ++ str "`")))] }

/-- the classes of note on `Clear-Site-Data` -/
def csdClasses : List NoteId := [.CSD_EMPTY, .CSD_UNKNOWN_VALUE, .CSD_UNQUOTED, .CSD_PRESENT]

theorem csd_quoted (e : Str) : (decide (e.length ≥ 2) && e.head? == some 34 && e.getLast? == some 34) = (between? e).isSome := by
  unfold between?
  rw [Bool.eq_iff_iff]
  simp only [Bool.and_eq_true, decide_eq_true_eq, beq_iff_eq]
  split
  · rename_i h; simp only [Option.isSome_some, iff_true]; exact ⟨⟨h.1, h.2.1⟩, h.2.2⟩
  · rename_i h; simp only [Option.isSome_none, Bool.false_eq_true, iff_false]; exact fun hh => h ⟨hh.1.1, hh.1.2, hh.2⟩

theorem csd_value (e : Str) : (if (between? e).isSome then (e.drop 1).dropLast else e) = (between? e).getD e := by
  unfold between?
  split <;> rfl

theorem csd_parse_eq (add : AddNote) (aux : Aux) (e : Str) :
    (clear_site_data.parse add aux e).1 = (if between? e == none && clearable.contains e then { aux with vals := aux.vals ++ [.str e] } else aux) ∧
    Told add (clear_site_data.parse add aux e).2 (csdElement e) (.str ((between? e).getD e)) := by
  unfold clear_site_data.parse
  simp only [csd_quoted, csd_value]
  have hk : csdKnown = clearable := rfl
  rw [hk]
  constructor
  · cases hb : between? e with
    | none => rfl
    | some v => rfl
  · unfold csdElement
    dsimp only
    generalize (between? e).getD e = v
    cases v with
    | nil => exact (Told.add (X := .CSD_EMPTY)).bind .pure
    | cons a b =>
      rw [if_neg (c := a :: b = []) (by simp), if_neg (c := (a :: b).isEmpty = true) (by simp)]
      refine (Told.bind (a := ()) (b := Val.str (a :: b)) (f := fun _ => pure (Val.str (a :: b))) .when .pure).of ?_
      rw [List.append_nil]
      unfold sayIf
      by_cases h : a :: b ∈ clearable
      · rw [if_pos h]; simp [h]
      · rw [if_neg h]; simp [h]

theorem csd_told (add : AddNote) (hd : Handler) (es : List Str) (hv : hd.value = .list (es.map fun e => .str ((between? e).getD e)))
    (ha : hd.aux.vals = (csdBare es).map .str) : Told add (clear_site_data.evaluate add hd) (csdReports es) () := by
  unfold clear_site_data.evaluate csdReports
  rw [ha]
  have h1 : ((csdBare es).map Val.str).map Val.asStr = csdBare es := asStr_map _
  dsimp only
  rw [h1, List.append_assoc]
  refine Told.bind (a := ()) ?_ ?_
  · have : (!(csdBare es).isEmpty) = (csdBare es != []) := by cases csdBare es <;> rfl
    rw [this]; exact .when
  · refine (Told.bind (a := es.map fun e => Val.str ((between? e).getD e)) (l := []) (.lift (by rw [hv]; rfl)) ?_).of (List.nil_append _)
    cases hes : es with
    | nil => exact Told.add
    | cons x xs =>
      rw [← hes]
      have h2 : (es.map fun e => Val.str ((between? e).getD e)).isEmpty = false := by rw [hes]; rfl
      have h3 : (es == []) = false := by rw [hes]; rfl
      rw [h2, h3, if_neg (by simp)]
      have h4 : (((es.map fun e => Val.str ((between? e).getD e)).map Val.asStr).filter fun v => csdKnown.contains v && !(csdBare es).contains v) = csdCleared es := by
        have : (es.map fun e => Val.str ((between? e).getD e)).map Val.asStr = es.map fun e => (between? e).getD e := by
          rw [List.map_map]; rfl
        rw [this]
        unfold csdCleared
        have hk : csdKnown = clearable := rfl
        rw [hk]
        have hb : ∀ e ∈ es, between? e = none → clearable.contains e = true → (csdBare es).contains e = true := by
          intro e he h0 hc
          rw [List.contains_iff_mem]
          exact List.mem_filter.2 ⟨he, by rw [h0, hc]; rfl⟩
        generalize csdBare es = B at *
        clear ha hv hes h2 h3 this
        induction es with
        | nil => rfl
        | cons e es ih =>
          have ih' := ih (fun e' he' => hb e' (by simp [he']))
          rw [List.map_cons, List.filter_cons, ih', List.filterMap_cons]
          cases h0 : between? e with
          | none =>
            have hz : (clearable.contains e && !B.contains e) = false := by
              by_cases hc : clearable.contains e = true
              · rw [hb e (by simp) h0 hc]; simp
              · have : clearable.contains e = false := by simpa using hc
                rw [this]; rfl
            rw [if_neg (show ¬ (clearable.contains ((none : Option Str).getD e) && !B.contains ((none : Option Str).getD e)) = true by
              show ¬ (clearable.contains e && !B.contains e) = true
              rw [hz]; simp)]
          | some v =>
            rw [List.filter_cons]
            rfl
      rw [h4]
      have : (!(csdCleared es).isEmpty) = (csdCleared es != []) := by cases csdCleared es <;> rfl
      rw [this]
      exact Told.when

section
variable {env : Env} {related : Option Msg} {t : Bool} {ls : List Line} {m m' : Msg}

/-- **C76** a response's `Clear-Site-Data`, in full: on its lines, each element that is empty or not a known type is reported (and named);
then on the field, the types without quotation marks, whether it has no elements at all, and what will be cleared -/
theorem C76_clear_site_data (P : Processed env related t ls m m') (hk : m.kind = .response) :
    Reported csdClasses m m' (((linesFor m.kind .clear_site_data_ ls).flatMap fun p => (lineElements p.2.2).flatMap fun e => (csdElement e).map (offsetSubject p.1, ·)) ++
      (namesFor .clear_site_data_ ls).flatMap fun n => (csdReports (elementsOf ls n)).map (fieldSubject n, ·)) := by
  have hclE : ∀ es, ∀ r ∈ csdReports es, r.Clean ∧ csdClasses.contains r.cls = true := by
    intro es r hr
    unfold csdReports at hr
    simp only [List.mem_append, mem_sayIf] at hr
    rcases hr with (⟨_, rfl⟩ | ⟨_, rfl⟩) | ⟨_, rfl⟩ <;> exact ⟨⟨by simp, by simp⟩, rfl⟩
  have hclP : ∀ e, ∀ r ∈ csdElement e, r.Clean ∧ csdClasses.contains r.cls = true := by
    intro e r hr
    unfold csdElement at hr
    dsimp only at hr
    split at hr
    · rw [List.mem_singleton] at hr; subst hr; exact ⟨⟨by simp, by simp⟩, rfl⟩
    · split at hr
      · exact absurd hr (by simp)
      · rw [List.mem_singleton] at hr; subst hr; exact ⟨⟨by simp, by simp⟩, rfl⟩
  have hparse : ∀ (c : Ctx) (add : AddNote) (hd : Handler) v, hd.fid = .clear_site_data_ → hd.parse c add v = clear_site_data.parse add hd.aux v := by
    intro c add hd v hf; unfold Handler.parse; rw [hf]
  refine P.list_reports (by only_these) rfl (by rw [hk]; rfl) csdElement (fun n => csdReports (elementsOf ls n)) (fun e r hr => (hclP e r hr).1)
    (fun n _ r hr => (hclE _ r hr).1) ?_ ?_
  · intro add hd v hf
    rw [hparse _ _ _ _ hf]
    exact (csd_parse_eq add hd.aux v).2.among fun r hr => (hclP v r hr).2
  · intro c add hd n hn hdur _ hse hf hv
    obtain ⟨hn0, hc⟩ := mem_namesFor.1 hn
    unfold Handler.evaluate
    rw [hf]
    have hpt : ∀ x, parseText ⟨env, m, related⟩ .clear_site_data_ x = .ok (.str ((between? x).getD x)) := fun x => (csd_parse_eq _ _ x).2.res
    refine (csd_told add hd (elementsOf ls n) ?_ ?_).among fun r hr => (hclE _ r hr).2
    · rw [hv, valueOf_list rfl _ hpt]
      unfold elementsOf
      rw [List.map_map]
      rfl
    · have := list_aux (t := t) (m := m) (env := env) (related := related) (c := c) hn0 hc rfl hdur.env
        (fun aux e => if between? e == none && clearable.contains e then { aux with vals := aux.vals ++ [.str e] } else aux)
        (fun x => ⟨_, hpt x⟩) (fun add h v hf => by rw [hparse _ _ _ _ hf]; exact (csd_parse_eq add h.aux v).1)
      have e : hd = (evalSetup m t c related ls n).2 := congrArg Prod.snd hse
      rw [e, this]
      have key : ∀ (es : List Str) (aux : Aux), (es.foldl (fun (aux : Aux) e => if between? e == none && clearable.contains e then { aux with vals := aux.vals ++ [.str e] } else aux) aux).vals = aux.vals ++ (csdBare es).map .str := by
        intro es
        induction es with
        | nil => intro aux; simp [csdBare]
        | cons x xs ih =>
          intro aux
          rw [List.foldl_cons, ih]
          unfold csdBare
          rw [List.filter_cons]
          split <;> simp
      rw [key]
      rfl

end

end HL.Props
