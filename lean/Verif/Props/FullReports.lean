import Verif.Props.CacheControlThm
import Verif.Props.HopThm
import Verif.Props.ParamFields

/-!
# What is reported on Vary and Cache-Control, in full (C56, C57)

`CacheControlThm` and `ValueNotes` say which notes are added and about what; here also what they say — their variables — and their order.
-/

namespace HL.Props
open HL.F

/-! ### Vary -/

/-- exactly `k` different names are listed -/
def Different (k : Nat) (names : List Str) : Prop := AtLeast k names ∧ ¬ AtLeast (k + 1) names

/-- what is reported on `Vary`, listing these names, `k` of them different -/
def varyReports (names : List Str) (k : Nat) : List Report :=
  sayIf (decide (¬ names.Nodup)) { cls := .VARY_DUPLICATE } ++
  sayIf (names.contains (str "*")) { cls := .VARY_ASTERISK } ++
  sayIf (decide (3 < k)) { cls := .VARY_COMPLEX, vars := [(str "vary_count", .str (fNum k))] } ++
  sayIf (names.contains (str "user-agent")) { cls := .VARY_USER_AGENT } ++
  sayIf (names.contains (str "host")) { cls := .VARY_HOST } ++
  sayIf (names.contains (str "negotiate")) { cls := .VARY_NEGOTIATE }

theorem different_dedup (names : List Str) : Different (dedup names).length names := by
  unfold Different
  rw [dedup_atLeast, dedup_atLeast]
  omega

theorem Different.unique {k k' : Nat} {names : List Str} (h : Different k names) (h' : Different k' names) : k = k' := by
  unfold Different at h h'
  rw [dedup_atLeast, dedup_atLeast] at h h'
  omega

theorem dedup_contains (names : List Str) (x : Str) : (dedup names).contains x = names.contains x := by
  rw [Bool.eq_iff_iff, List.contains_iff_mem, List.contains_iff_mem, mem_dedup]

theorem hasDups_eq (names : List Str) : hasDups names = decide (¬ names.Nodup) := by
  rw [Bool.eq_iff_iff, hasDups_iff, decide_eq_true_iff]

theorem vary_told (add : AddNote) (hd : Handler) (es : List Str) (hv : hd.value = .list (es.map .str)) :
    Told add (vary.evaluate add hd) (varyReports es (dedup es).length) (.list ((dedup es).map .str)) := by
  unfold vary.evaluate varyReports
  refine Told.of (Told.bind (a := es.map Val.str) (l := []) (.lift (by rw [hv]; rfl)) ?_) (List.nil_append _)
  dsimp only
  rw [asStr_map, dedup_contains, dedup_contains, dedup_contains, dedup_contains, hasDups_eq]
  simp only [List.append_assoc]
  refine Told.bind (a := ()) .when (Told.bind (a := ()) .when (Told.bind (a := ()) .when (Told.bind (a := ()) .when (Told.bind (a := ()) .when ?_))))
  refine (Told.bind (a := ()) (l' := []) .when ?_).of (List.append_nil _)
  exact Told.pure

section
variable {env : Env} {related : Option Msg} {t : Bool} {ls : List Line} {m m' : Msg}

/-- **C57** (notes in full) in a response, each `Vary` is reported on in this order, with the number of different names it lists when there are more than three -/
theorem C57_report (P : Processed env related t ls m m') (hk : m.kind = .response) :
    ∃ count : Str → Nat, (∀ n, Different (count n) (varyNames ls n)) ∧
    Reported [.VARY_DUPLICATE, .VARY_ASTERISK, .VARY_COMPLEX, .VARY_USER_AGENT, .VARY_HOST, .VARY_NEGOTIATE] m m'
      ((namesFor .vary_ ls).flatMap fun n => (varyReports (varyNames ls n) (count n)).map (fieldSubject n, ·)) := by
  refine ⟨fun n => (dedup (varyNames ls n)).length, fun n => different_dedup _, ?_⟩
  have := P.strings_reports (Xs := [.VARY_DUPLICATE, .VARY_ASTERISK, .VARY_COMPLEX, .VARY_USER_AGENT, .VARY_HOST, .VARY_NEGOTIATE]) (f := .vary_) (by eval_among) rfl
    (by rw [hk]; rfl) lower (fun _ => rfl) (fun es => varyReports es (dedup es).length)
    (by
      intro es r hr
      unfold varyReports at hr
      simp only [List.mem_append, mem_sayIf] at hr
      rcases hr with ((((⟨_, rfl⟩ | ⟨_, rfl⟩) | ⟨_, rfl⟩) | ⟨_, rfl⟩) | ⟨_, rfl⟩) | ⟨_, rfl⟩ <;> exact ⟨⟨by simp, by simp⟩, rfl⟩)
    (by
      intro c add hd es _ hf hv
      have h := vary_told add hd es hv
      unfold Handler.evaluate
      rw [hf]
      dsimp only
      unfold Handler.assign
      rw [h.res]
      exact ⟨h.notes, rfl⟩)
  have hn : ∀ n, (elementsOf ls n).map lower = varyNames ls n := by
    intro n; unfold elementsOf varyNames; rw [List.map_map]; rfl
  simp only [hn] at this
  exact this

end

/-! ### Cache-Control -/

/-- what is reported on an element of `Cache-Control` -/
def ccElementReports (e : Str) : List Report :=
  sayIf (ccText e != ccName e) { cls := .CC_MISCAP, vars := [(str "directive_lower", .str (ccName e)), (str "directive", .str (ccText e))] } ++
  if ccName e ∈ ccBare then sayIf (ccArg e).isSome { cls := .CC_SHOULD_NOT_HAVE_VALUE, vars := [(str "directive", .str (ccName e))] }
  else if ccName e ∈ ccInts then
    match (ccArg e).bind pyInt with
    | some k => sayIf (decide (k > 2 ^ 31)) { cls := .CC_MAX_AGE_TOO_LARGE, vars := [(str "directive", .str (ccName e))] }
    | none => [{ cls := .CC_BAD_VALUE_TYPE, vars := [(str "directive", .str (ccName e)), (str "expected_type", .str (str "integer")), (str "value", Val.ofOpt (ccArg e))] }]
  else []

theorem cc_expected {d : Str} {i : CcInfo} (h : ccInfo d = some i) (hi : i.conv = .int) : i.expected = str "integer" := by
  have := ((ccInfo_iff d i).1 h).1
  have hall : ∀ i ∈ knownCC, i.conv = .int → i.expected = str "integer" := by decide
  exact hall i this hi

theorem notes_bind_when {β} {add : AddNote} {b : Bool} {X vrs} {f : Unit → W β} {l : List Report} (h : (f ()).notes = l.map (Report.note add)) :
    (W.when b (add.add X vrs) >>= f).notes = (sayIf b ⟨X, vrs, []⟩ ++ l).map (Report.note add) := by
  have hw : Told add (W.when b (add.add X vrs)) (sayIf b ⟨X, vrs, []⟩) () := .when
  rw [W.bind_ok hw.res, List.map_append]
  show _ ++ (f ()).notes = _
  rw [hw.notes, h]

/-- field/parsers/cache_control.py:106-132: `parse` after splitting at the `=` -/
theorem cc_rest_notes (add : AddNote) (tx d : Str) (arg : Option Str) (v : Str) (ht : ccText v = tx) (hd : ccName v = d) (ha : ccArg v = arg) :
    (cache_control.parse add v).notes = (ccElementReports v).map (Report.note add) := by
  have e : cache_control.parse add v = (do
      W.when (tx != d) (add.add .CC_MISCAP [(str "directive_lower", .str d), (str "directive", .str tx)])
      match ccInfo d with
      | none => return .tuple [.str d, Val.ofOpt arg]
      | some info =>
        match info.conv with
        | .none => do
          W.when arg.isSome (add.add .CC_SHOULD_NOT_HAVE_VALUE [(str "directive", .str d)])
          return .tuple [.str d, Val.ofOpt arg]
        | .unquote => return .tuple [.str d, .str (unquoteOpt arg)]
        | .int =>
          match arg.bind pyInt with
          | some n => do
            W.when (n > 2147483648) (add.add .CC_MAX_AGE_TOO_LARGE [(str "directive", .str d)])
            return .tuple [.str d, .int n]
          | none => do
            add.add .CC_BAD_VALUE_TYPE [(str "directive", .str d), (str "expected_type", .str info.expected),
              (str "value", Val.ofOpt arg)]
            W.throw .valueError) := by
    subst ht hd ha
    unfold cache_control.parse
    rcases cc_cases v with ⟨ha, hs, ht⟩ | ⟨b, ha, hs⟩
    · rw [hs, ha]
      dsimp only
      rw [show ccName v = lower v by unfold ccName; rw [ht], ht]
      rfl
    · rw [hs, ha]
      rfl
  rw [e]
  unfold ccElementReports
  rw [ht, hd, ha]
  have h1 := ccInfo_int d
  have h2 := ccInfo_quoted d
  have h3 := ccInfo_bare d
  refine notes_bind_when ?_
  cases hi : ccInfo d with
  | none =>
    rw [hi] at h1 h2 h3
    simp only [Option.any_none] at h1 h2 h3
    rw [if_neg (decide_eq_false_iff_not.1 h3.symm), if_neg (decide_eq_false_iff_not.1 h1.symm)]
    rfl
  | some i =>
    rw [hi] at h1 h2 h3
    simp only [Option.any_some] at h1 h2 h3
    dsimp only
    cases hc : i.conv with
    | none =>
      rw [hc] at h1 h2 h3
      rw [if_pos (decide_eq_true_iff.1 h3.symm)]
      dsimp only
      refine (notes_bind_when (l := []) rfl).trans ?_
      rw [List.append_nil]
    | unquote =>
      rw [hc] at h1 h2 h3
      rw [if_neg (decide_eq_false_iff_not.1 h3.symm), if_neg (decide_eq_false_iff_not.1 h1.symm)]
      rfl
    | int =>
      rw [hc] at h1 h2 h3
      rw [if_neg (decide_eq_false_iff_not.1 h3.symm), if_pos (decide_eq_true_iff.1 h1.symm), cc_expected hi hc]
      dsimp only
      cases arg.bind pyInt with
      | none => rfl
      | some k =>
        dsimp only
        refine (notes_bind_when (l := []) rfl).trans ?_
        rw [List.append_nil]
        rfl

/-- `l` lists the members of `xs`, each once, in some order -/
def Enumerates (l xs : List Str) : Prop := l.Nodup ∧ ∀ x, x ∈ l ↔ x ∈ xs

/-- the conflict that is reported: the first directive of the table that is present with one it makes pointless, and all those present that it does -/
def FirstConflict (names : List Str) : Option (Str × List Str) → Prop
  | none => ¬ ccConflicting names
  | some (d, cs) => ∃ earlier pot later, ccConflicts = earlier ++ (d, pot) :: later ∧
      (∀ p ∈ earlier, ¬ (p.1 ∈ names ∧ ∃ q ∈ p.2, q ∈ names)) ∧ d ∈ names ∧ cs ≠ [] ∧ cs.Nodup ∧ ∀ x, x ∈ cs ↔ x ∈ pot ∧ x ∈ names

/-- what is reported on one directive: that it belongs in the other kind of message or, for a known one, that it is repeated -/
def ccDirectiveReports (kind : MsgKind) (names : List Str) (d : Str) : List Report :=
  if ccWrong kind d then
    [{ cls := .CC_WRONG_MESSAGE, vars := [(str "directive", .str d), (str "other_message", .str (match kind with | .request => str "response" | .response => str "request"))] }]
  else sayIf (decide (d ∈ ccInts ++ ccQuoted ++ ccBare) && decide (1 < names.count d)) { cls := .CC_DUP, vars := [(str "directive", .str d)] }

/-- what is reported on `pre-check` and `post-check` -/
def ccCheckReports (pre post : Option Int) : List Report :=
  match pre, post with
  | none, none => []
  | some a, some b =>
    if a = 0 ∧ b = 0 then [{ cls := .CHECK_ALL_ZERO }]
    else if b > a then [{ cls := .CHECK_POST_BIGGER }]
    else if b = 0 then [{ cls := .CHECK_POST_ZERO }]
    else [{ cls := .CHECK_POST_PRE, vars := [(str "pre_check", .int a), (str "post_check", .int b)] }]
  | _, _ => [{ cls := .CHECK_SINGLE }]

/-- what is reported on the whole of `Cache-Control`, its directives taken in this order, with this conflict -/
def ccValueReports (kind : MsgKind) (names order : List Str) (conflict : Option (Str × List Str)) (pre post : Option Int) : List Report :=
  (match kind, conflict with
    | .response, some (d, cs) => [{ cls := .CC_CONFLICTING, vars := [(str "directive", .str d), (str "conflicts", markdownList cs (str "`"))] }]
    | _, _ => []) ++
  order.flatMap (ccDirectiveReports kind names) ++
  ccCheckReports pre post

theorem ccConflict_first (names : List Str) : FirstConflict names (ccConflict names) := by
  have key : ∀ l earlier : List (Str × List Str), earlier ++ l = ccConflicts → (∀ p ∈ l, p.2.Nodup) → (∀ p ∈ earlier, ¬ (p.1 ∈ names ∧ ∃ q ∈ p.2, q ∈ names)) →
      FirstConflict names (l.findSome? fun (d, pot) =>
        if names.contains d then
          let c := pot.filter names.contains
          if c.isEmpty then none else some (d, c)
        else none) := by
    intro l
    induction l with
    | nil =>
      intro earlier he _ hno
      rw [List.append_nil] at he
      subst he
      rintro ⟨p, hp, h1, h2⟩
      exact hno p hp ⟨h1, h2⟩
    | cons p l ih =>
      obtain ⟨d, pot⟩ := p
      intro earlier he hnd hno
      have next : ¬ (d ∈ names ∧ ∃ q ∈ pot, q ∈ names) → FirstConflict names (l.findSome? fun (d, pot) =>
          if names.contains d then
            let c := pot.filter names.contains
            if c.isEmpty then none else some (d, c)
          else none) := fun h => ih (earlier ++ [(d, pot)]) (by rw [List.append_assoc]; exact he) (fun p hp => hnd p (by simp [hp]))
            (by
              intro p hp
              rcases List.mem_append.1 hp with hp | hp
              · exact hno p hp
              · rw [List.mem_singleton] at hp; subst hp; exact h)
      rw [List.findSome?_cons]
      dsimp only
      by_cases h1 : d ∈ names
      · rw [if_pos (List.contains_iff_mem.2 h1)]
        by_cases h2 : ∃ q ∈ pot, q ∈ names
        · have hne : pot.filter names.contains ≠ [] := by
            rw [ne_eq, List.filter_eq_nil_iff]
            intro h
            obtain ⟨q, hq, hn⟩ := h2
            exact h q hq (List.contains_iff_mem.2 hn)
          rw [if_neg (by rw [List.isEmpty_iff]; exact hne)]
          dsimp only
          refine ⟨earlier, pot, l, he.symm, hno, h1, hne, (hnd (d, pot) (by simp)).sublist List.filter_sublist, fun x => ?_⟩
          rw [List.mem_filter, List.contains_iff_mem]
        · have he' : (pot.filter names.contains).isEmpty = true := by
            rw [List.isEmpty_iff, List.filter_eq_nil_iff]
            intro q hq hn
            exact h2 ⟨q, hq, List.contains_iff_mem.1 hn⟩
          rw [if_pos he']
          exact next fun h => h2 h.2
      · rw [if_neg (by rw [List.contains_iff_mem]; exact h1)]
        exact next fun h => h1 h.1
  exact key conflictingCC [] rfl (by decide) (fun p hp => absurd hp (by simp))

theorem checkDirective_told (c : Ctx) (names : List Str) (add : AddNote) (d : Str) :
    Told add (cache_control.checkDirective c.isRequest names add d) (ccDirectiveReports c.msg.kind names d) () := by
  have h1 := ccInfo_request d
  have h2 := ccInfo_response d
  have h3 := ccKnown_iff d
  unfold cache_control.checkDirective ccDirectiveReports ccWrong Ctx.isRequest
  dsimp only
  rw [h1, h2, h3]
  cases c.msg.kind
  · dsimp only
    by_cases hd : d ∈ ccResponse
    · simp only [decide_eq_true hd]; exact .add
    · simp only [decide_eq_false hd]; exact .when
  · dsimp only
    by_cases hd : d ∈ ccRequest
    · simp only [decide_eq_true hd]; exact .add
    · simp only [decide_eq_false hd]; exact .when

theorem checkPrePost_told (ls : List Line) (n : Str) (add : AddNote) :
    Told add (cache_control.checkPrePost ((elementsOf ls n).filterMap ccPair) add)
      (ccCheckReports (ccNumber ls n (str "pre-check")) (ccNumber ls n (str "post-check"))) () := by
  have h1 := ccNumber_mem ls n (str "pre-check") (by decide)
  have h2 := ccNumber_mem ls n (str "post-check") (by decide)
  have h3 := ccNumber_get ls n (str "pre-check") (by decide)
  have h4 := ccNumber_get ls n (str "post-check") (by decide)
  unfold cache_control.checkPrePost
  dsimp only
  rw [ccPairs_names]
  unfold ccNames at h1 h2
  rw [h1, h2, h3, h4]
  cases ccNumber ls n (str "pre-check") with
  | none =>
    cases ccNumber ls n (str "post-check") with
    | none => exact .pure
    | some b => exact .add
  | some a =>
    cases ccNumber ls n (str "post-check") with
    | none => exact .add
    | some b =>
      unfold ccCheckReports
      simp only [Option.isSome_some, Bool.or_true, Bool.not_true, Bool.or_false, Bool.false_eq_true, if_false, if_true, Option.map_some]
      by_cases h1 : a = 0 ∧ b = 0
      · rw [if_pos h1, if_pos h1]; exact .add
      · rw [if_neg h1, if_neg h1]
        by_cases h2 : b > a
        · rw [if_pos h2, if_pos h2]; exact .add
        · rw [if_neg h2, if_neg h2]
          by_cases h3 : b = 0
          · rw [if_pos h3, if_pos h3]; exact .add
          · rw [if_neg h3, if_neg h3]; exact .add

theorem cc_told (c : Ctx) (add : AddNote) (hd : Handler) (ls : List Line) (n : Str) (hv : hd.value = .list ((elementsOf ls n).filterMap ccRecord)) :
    Told add (cache_control.evaluate c add hd) (ccValueReports c.msg.kind (ccNames ls n) (dedup (ccNames ls n)) (ccConflict (ccNames ls n))
      (ccNumber ls n (str "pre-check")) (ccNumber ls n (str "post-check"))) () := by
  unfold cache_control.evaluate ccValueReports
  dsimp only
  rw [hv, ccPairs_record, ccPairs_names, List.append_assoc]
  refine Told.bind (a := ()) ?_ (Told.bind (a := ()) (Told.forEach fun d _ => checkDirective_told c _ add d) (checkPrePost_told ls n add))
  unfold Ctx.isRequest ccNames
  cases c.msg.kind
  · exact .pure
  · show Told add (match ccConflict _ with | some (d, cs) => _ | none => _) _ ()
    cases ccConflict (List.map ccName (List.filter (fun e => !ccBad e) (elementsOf ls n))) with
    | none => exact .pure
    | some p => exact .add

/-- the classes of note `Cache-Control` uses -/
def ccClasses : List NoteId := [.CC_MISCAP, .CC_BAD_VALUE_TYPE, .CC_SHOULD_NOT_HAVE_VALUE, .CC_MAX_AGE_TOO_LARGE, .CC_CONFLICTING, .CC_WRONG_MESSAGE, .CC_DUP,
  .CHECK_SINGLE, .CHECK_ALL_ZERO, .CHECK_POST_BIGGER, .CHECK_POST_ZERO, .CHECK_POST_PRE]

theorem ccElementReports_clean (e : Str) : ∀ r ∈ ccElementReports e, r.Clean ∧ ccClasses.contains r.cls = true := by
  intro r hr
  unfold ccElementReports at hr
  rcases List.mem_append.1 hr with hr | hr
  · obtain ⟨_, rfl⟩ := mem_sayIf.1 hr; exact ⟨⟨by dsimp only [List.map]; decide, by simp⟩, rfl⟩
  · split at hr
    · obtain ⟨_, rfl⟩ := mem_sayIf.1 hr; exact ⟨⟨by simp, by simp⟩, rfl⟩
    · split at hr
      · split at hr
        · obtain ⟨_, rfl⟩ := mem_sayIf.1 hr; exact ⟨⟨by simp, by simp⟩, rfl⟩
        · rw [List.mem_singleton] at hr; subst hr; exact ⟨⟨by dsimp only [List.map]; decide, by simp⟩, rfl⟩
      · exact absurd hr (by simp)

theorem ccValueReports_clean (kind names order conflict pre post) : ∀ r ∈ ccValueReports kind names order conflict pre post, r.Clean ∧ ccClasses.contains r.cls = true := by
  intro r hr
  unfold ccValueReports at hr
  rcases List.mem_append.1 hr with hr | hr
  · rcases List.mem_append.1 hr with hr | hr
    · split at hr
      · rw [List.mem_singleton] at hr; subst hr; exact ⟨⟨by dsimp only [List.map]; decide, by simp⟩, rfl⟩
      · exact absurd hr (by simp)
    · obtain ⟨d, _, hr⟩ := List.mem_flatMap.1 hr
      unfold ccDirectiveReports at hr
      split at hr
      · rw [List.mem_singleton] at hr; subst hr; exact ⟨⟨by dsimp only [List.map]; decide, by simp⟩, rfl⟩
      · obtain ⟨_, rfl⟩ := mem_sayIf.1 hr; exact ⟨⟨by simp, by simp⟩, rfl⟩
  · unfold ccCheckReports at hr
    split at hr
    · exact absurd hr (by simp)
    · split at hr
      · rw [List.mem_singleton] at hr; subst hr; exact ⟨⟨by simp, by simp⟩, rfl⟩
      · split at hr
        · rw [List.mem_singleton] at hr; subst hr; exact ⟨⟨by simp, by simp⟩, rfl⟩
        · split at hr
          · rw [List.mem_singleton] at hr; subst hr; exact ⟨⟨by simp, by simp⟩, rfl⟩
          · rw [List.mem_singleton] at hr; subst hr; exact ⟨⟨by dsimp only [List.map]; decide, by simp⟩, rfl⟩
    · rw [List.mem_singleton] at hr; subst hr; exact ⟨⟨by simp, by simp⟩, rfl⟩

theorem amongClass_told {Xs : List NoteId} {add : AddNote} {ns : List Note} {l : List Report} (h : ns = l.map (Report.note add))
    (hX : ∀ r ∈ l, Xs.contains r.cls = true) : amongClass Xs ns = l.map (Report.note add) :=
  Told.among (w := ⟨ns, .ok ()⟩) (a := ()) ⟨h, rfl⟩ hX

section
variable {env : Env} {related : Option Msg} {t : Bool} {ls : List Line} {m m' : Msg}

/-- **C56** (notes in full) `Cache-Control` is reported on element by element, about the element's line, then, name by name, as a whole, about the field:
the first conflict with all the directives concerned, then what there is to say on each different directive — in some order, as Python iterates over a set — and
at last the one verdict on `pre-check` and `post-check`; each note says which directive it is about -/
theorem C56_report (P : Processed env related t ls m m') :
    ∃ (order : Str → List Str) (conflict : Str → Option (Str × List Str)),
      (∀ n, Enumerates (order n) (ccNames ls n)) ∧ (∀ n, FirstConflict (ccNames ls n) (conflict n)) ∧
      Reported ccClasses m m' (((linesFor m.kind .cache_control_ ls).flatMap fun p => (lineElements p.2.2).flatMap fun e => (ccElementReports e).map (offsetSubject p.1, ·)) ++
        (namesFor .cache_control_ ls).flatMap fun n => (ccValueReports m.kind (ccNames ls n) (order n) (conflict n)
          (ccNumber ls n (str "pre-check")) (ccNumber ls n (str "post-check"))).map (fieldSubject n, ·)) := by
  refine ⟨fun n => dedup (ccNames ls n), fun n => ccConflict (ccNames ls n), fun n => ⟨dedup_nodup _, fun x => mem_dedup⟩, fun n => ccConflict_first _, ?_⟩
  have hval : ∀ n, valueOf env related m .cache_control_ ls n = .list ((elementsOf ls n).filterMap ccRecord) :=
    fun n => valueOf_elements rfl ccRecord (fun x => (cc_parse _ x).1) n
  have hX : Only ccClasses [.cache_control_] := by only_these
  refine P.list_reports hX rfl (cc_valid _) ccElementReports
    (fun n => ccValueReports m.kind (ccNames ls n) (dedup (ccNames ls n)) (ccConflict (ccNames ls n)) (ccNumber ls n (str "pre-check")) (ccNumber ls n (str "post-check")))
    (fun e r hr => (ccElementReports_clean e r hr).1) (fun n _ r hr => (ccValueReports_clean _ _ _ _ _ _ r hr).1) ?_ ?_
  · intro add hd v hf
    have h : (hd.parse ⟨env, m, related⟩ add v).2 = cache_control.parse add v := by unfold Handler.parse; rw [hf]; rfl
    rw [h]
    exact amongClass_told (cc_rest_notes add _ _ _ v rfl rfl rfl) fun r hr => (ccElementReports_clean v r hr).2
  · intro c add hd n _ hdur _ _ hf hv
    have h : (hd.evaluate c add).2 = cache_control.evaluate c add hd := by unfold Handler.evaluate; rw [hf]; rfl
    rw [h]
    have := cc_told c add hd ls n (hv.trans (hval n))
    rw [hdur.kind] at this
    exact this.among fun r hr => (ccValueReports_clean _ _ _ _ _ _ r hr).2

end

/-- non-vacuity: `Vary` with four names, one of them twice; `Cache-Control` with directives of every sort, in a request and in a response.  All the notes, with what they say -/
example : let ls : List Line := [(str "Vary", str "a, b"), (str "VARY", str "c, B, Host")]
    let r := processSection toyEnv none false ls (fresh toyEnv .response none false false)
    r.2 = .ok () ∧ varyNames ls (str "vary") = [str "a", str "b", str "c", str "b", str "host"] ∧ Different 4 (varyNames ls (str "vary")) ∧
    (varyReports (varyNames ls (str "vary")) 4).map (·.cls) = [.VARY_DUPLICATE, .VARY_COMPLEX, .VARY_HOST] ∧
    r.1.notes.map (fun x => (x.cls, dget x.vars (str "vary_count"))) = [(.VARY_DUPLICATE, none), (.VARY_COMPLEX, some (.str (str "4"))), (.VARY_HOST, none)] := by
  refine ⟨by decide +kernel, by decide +kernel, ?_, by decide +kernel, by decide +kernel⟩
  have h : (dedup (varyNames [(str "Vary", str "a, b"), (str "VARY", str "c, B, Host")] (str "vary"))).length = 4 := by decide +kernel
  exact h ▸ different_dedup _

example : let ls : List Line := [(str "Cache-Control", str "No-Store, max-age=1, max-age=x"), (str "cache-control", str "max-age=5, only-if-cached, pre-check=7, post-check=3")]
    let r := processSection toyEnv none false ls (fresh toyEnv .response none false false)
    r.2 = .ok () ∧
    r.1.notes.map (fun x => (x.cls, dget x.vars (str "directive"))) = [(.CC_MISCAP, some (.str (str "No-Store"))), (.CC_BAD_VALUE_TYPE, some (.str (str "max-age"))),
      (.CC_CONFLICTING, some (.str (str "no-store"))), (.CC_DUP, some (.str (str "max-age"))), (.CC_WRONG_MESSAGE, some (.str (str "only-if-cached"))), (.CHECK_POST_PRE, none)] ∧
    r.1.notes.map (fun x => (dget x.vars (str "value"), dget x.vars (str "other_message"), dget x.vars (str "post_check"))) = [(none, none, none), (some (.str (str "x")), none, none),
      (none, none, none), (none, none, none), (none, some (.str (str "request")), none), (none, none, some (.int 3))] := by
  decide +kernel

end HL.Props
