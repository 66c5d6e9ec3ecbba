import Verif.Props.OrderThm
import Verif.Props.CaseHistory
import Verif.Props.PostFrame
import Verif.Props.SectionThm
import Verif.Props.FinishTotal
import Verif.Props.CliBodyThm

/-!
# C128: the order of fields with different names does not matter to the whole verdict

`C127` is about the header section; here the content and the end of the message follow.
-/

namespace HL.Props
open HL.F

/-! ### what the rest of a message sees of its headers -/

/-- what the checks at the end look at in a handler -/
def core (h : Handler) : FieldId × Str × Option (Val × List Val) :=
  (h.fid, h.canonicalName, if h.fid.info.kind = .broken then none else some (h.value, h.aux.vals))

/-- two header sections the checks cannot tell apart -/
structure HeadAlike (s s' : Section) : Prop where
  parsed : ∀ n, dget s.parsed n = dget s'.parsed n
  text : s.text.Perm s'.text
  get : ∀ k, (dget s.handlers k).map core = (dget s'.handlers k).map core
  cores : (s.handlers.map fun p => core p.2).Perm (s'.handlers.map fun p => core p.2)

/-- two messages that differ in their notes and in the order of their headers -/
structure Reordered (m m' : Msg) : Prop where
  eq : m' = { m with notes := m'.notes, headers := m'.headers }
  head : HeadAlike m.headers m'.headers

theorem Reordered.ex {m m' : Msg} (r : Reordered m m') : ∃ ns s, m' = { m with notes := ns, headers := s } ∧ HeadAlike m.headers s :=
  ⟨m'.notes, m'.headers, r.eq, r.head⟩

theorem Reordered.of {m : Msg} {ns s} (h : HeadAlike m.headers s) : Reordered m { m with notes := ns, headers := s } := ⟨rfl, h⟩

theorem HeadAlike.has {s s' : Section} (h : HeadAlike s s') (n : Str) : dhas s'.parsed n = dhas s.parsed n := (dhas_dget _ _ _ (h.parsed n)).symm

section
variable {env : Env} {m m' : Msg} {rel : Option Msg}

theorem HeadAlike.names {s s' : Section} (h : HeadAlike s s') (n : Str) : s'.names.contains n = s.names.contains n := by
  unfold Section.names
  rw [Bool.eq_iff_iff, List.contains_iff_mem, List.contains_iff_mem]
  exact (h.text.map _).symm.mem_iff

/-- the caching checks see names as a set -/
theorem run_names (i : CacheIn) (ks : List Str) (hk : ∀ n, ks.contains n = i.names.contains n) : CacheIn.run { i with names := ks } = CacheIn.run i := by
  have b : ∀ st, CacheIn.checkBasic { i with names := ks } st = i.checkBasic st := by
    intro st
    unfold CacheIn.checkBasic CacheIn.note
    dsimp only
    simp only [hk]
  have s : ∀ st, CacheIn.checkStorable { i with names := ks } st = i.checkStorable st := fun _ => rfl
  have a : ∀ st, CacheIn.checkAge { i with names := ks } st = i.checkAge st := fun _ => rfl
  have l : CacheIn.lifetimes { i with names := ks } = i.lifetimes := by
    have e : ∀ l, CacheIn.lifetimeExpires { i with names := ks } l = i.lifetimeExpires l := by
      intro l
      unfold CacheIn.lifetimeExpires
      dsimp only
      rw [hk]
    unfold CacheIn.lifetimes
    rw [e]
    rfl
  have f : ∀ l age, CacheIn.freshnessNotes { i with names := ks } l age = i.freshnessNotes l age := by
    intro l age
    have e : CacheIn.explicitNotes { i with names := ks } l age = i.explicitNotes l age := by
      unfold CacheIn.explicitNotes
      dsimp only
      rw [hk]
      rfl
    unfold CacheIn.freshnessNotes
    rw [e]
    rfl
  have t : ∀ l age, CacheIn.checkStale { i with names := ks } l age = i.checkStale l age := fun _ _ => rfl
  unfold CacheIn.run
  simp only [b, s, a, l, f, t]

theorem cacheInputs_reordered (r : Reordered m m') :
    cacheInputs ⟨env, m', rel⟩ = (cacheInputs ⟨env, m, rel⟩).map (fun i => { i with names := m'.headers.names }) ∧
    ∀ i, cacheInputs ⟨env, m, rel⟩ = .ok i → i.names = m.headers.names := by
  obtain ⟨ns, s, rfl, h⟩ := r.ex
  unfold cacheInputs Section.getD
  dsimp only
  simp only [← h.parsed]
  generalize Val.toDict _ = d
  cases d with
  | error e => exact ⟨rfl, fun i hi => nomatch hi⟩
  | ok d => exact ⟨rfl, fun i hi => by cases hi; rfl⟩

theorem cacheCheck_reordered (r : Reordered m m') : cacheCheck ⟨env, m', rel⟩ = cacheCheck ⟨env, m, rel⟩ := by
  obtain ⟨h1, h2⟩ := cacheInputs_reordered (env := env) (rel := rel) r
  unfold cacheCheck
  rw [h1]
  cases hi : cacheInputs ⟨env, m, rel⟩ with
  | error e => rfl
  | ok i =>
    have e := run_names i m'.headers.names (fun n => by rw [h2 i hi]; exact r.head.names n)
    dsimp only [Except.map]
    rw [e]

theorem status_reordered (r : Reordered m m') : Status.check ⟨env, m', rel⟩ = Status.check ⟨env, m, rel⟩ := by
  obtain ⟨ns, s, rfl, h⟩ := r.ex
  have hh : ∀ n, Status.has ⟨env, { m with notes := ns, headers := s }, rel⟩ n = Status.has ⟨env, m, rel⟩ n := fun n => h.has n
  have hd : Status.redirect ⟨env, { m with notes := ns, headers := s }, rel⟩ = Status.redirect ⟨env, m, rel⟩ := by
    unfold Status.redirect; rw [hh]; rfl
  have h201 : Status.s201 ⟨env, { m with notes := ns, headers := s }, rel⟩ = Status.s201 ⟨env, m, rel⟩ := by
    unfold Status.s201; rw [hh]; rfl
  have h206 : Status.s206 ⟨env, { m with notes := ns, headers := s }, rel⟩ = Status.s206 ⟨env, m, rel⟩ := by
    unfold Status.s206; rw [hh]; rfl
  have h304 : Status.s304 ⟨env, { m with notes := ns, headers := s }, rel⟩ = Status.s304 ⟨env, m, rel⟩ := by
    unfold Status.s304; rw [hh, funext hh]; rfl
  have h405 : Status.s405 ⟨env, { m with notes := ns, headers := s }, rel⟩ = Status.s405 ⟨env, m, rel⟩ := by
    unfold Status.s405; dsimp only; rw [← h.parsed]; rfl
  have hm : Status.method ⟨env, { m with notes := ns, headers := s }, rel⟩ = Status.method ⟨env, m, rel⟩ := by
    funext code
    unfold Status.method
    rw [hd, h201, h206, h304, h405]
    rfl
  unfold Status.check
  rw [hm]
  rfl

theorem verifyContentType_reordered (r : Reordered m m') : verifyContentType ⟨env, m', rel⟩ = verifyContentType ⟨env, m, rel⟩ := by
  obtain ⟨ns, s, rfl, h⟩ := r.ex
  unfold verifyContentType
  dsimp only
  rw [← h.parsed]
  rfl

theorem verifyCharset_reordered (r : Reordered m m') : verifyCharset ⟨env, m', rel⟩ = verifyCharset ⟨env, m, rel⟩ := by
  obtain ⟨ns, s, rfl, h⟩ := r.ex
  unfold verifyCharset
  dsimp only
  rw [← h.parsed]
  rfl

theorem requestPost_reordered (r : Reordered m m') : requestPostChecks env rel m' = requestPostChecks env rel m := by
  obtain ⟨ns, s, rfl, h⟩ := r.ex
  unfold requestPostChecks checkPreflightRequest isPreflight
  dsimp only
  rw [h.has, h.has, h.has, h.has]
  rfl

theorem badPreflight_reordered {s s' : Section} (h : HeadAlike s s') : ∀ fs, badPreflightHeaders s' fs = badPreflightHeaders s fs
  | [] => rfl
  | f :: fs => by
    unfold badPreflightHeaders
    rw [h.has, badPreflight_reordered h fs]
    split
    · have := h.get f
      cases h1 : dget s.handlers f with
      | none =>
        rw [h1] at this
        cases h2 : dget s'.handlers f with
        | none => rfl
        | some x => rw [h2] at this; exact nomatch this
      | some x =>
        rw [h1] at this
        cases h2 : dget s'.handlers f with
        | none => rw [h2] at this; exact nomatch this
        | some y =>
          rw [h2, Option.map_some, Option.map_some, Option.some.injEq] at this
          have e : x.canonicalName = y.canonicalName := congrArg (·.2.1) this
          dsimp only
          rw [e]
    · rfl

theorem preflightResponse_reordered (r : Reordered m m') (add : AddNote) : checkPreflightResponse ⟨env, m', rel⟩ add = checkPreflightResponse ⟨env, m, rel⟩ add := by
  obtain ⟨ns, s, rfl, h⟩ := r.ex
  unfold checkPreflightResponse
  dsimp only
  rw [badPreflight_reordered h, ← h.parsed]
  rfl

theorem lengthNotes_reordered (r : Reordered m m') : lengthNotes m' = lengthNotes m := by
  obtain ⟨ns, s, rfl, h⟩ := r.ex
  unfold lengthNotes Msg.canHaveContent
  dsimp only
  rw [← h.parsed]
  rfl

/-! ### the checks of fields at the end -/

theorem broken_post {h : Handler} (hb : h.fid.info.kind = .broken) (c add ns) : h.postCheck c add ns = (ns, .ok ()) := by
  unfold Handler.postCheck
  rcases kind_broken hb with e | e <;> rw [e]

theorem core_fid {h h' : Handler} (e : core h = core h') : h.fid = h'.fid := congrArg (·.1) e
theorem core_canon {h h' : Handler} (e : core h = core h') : h.canonicalName = h'.canonicalName := congrArg (·.2.1) e

theorem core_vals {h h' : Handler} (e : core h = core h') (hb : h.fid.info.kind ≠ .broken) : h.value = h'.value ∧ h.aux.vals = h'.aux.vals := by
  have e3 : (if h.fid.info.kind = .broken then none else some (h.value, h.aux.vals)) = if h'.fid.info.kind = .broken then none else some (h'.value, h'.aux.vals) :=
    congrArg (·.2.2) e
  rw [← core_fid e, if_neg hb, if_neg hb, Option.some.injEq, Prod.mk.injEq] at e3
  exact e3

theorem postCheck_core {h h' : Handler} (e : core h = core h') (c add ns) : h.postCheck c add ns = h'.postCheck c add ns := by
  by_cases hb : h.fid.info.kind = .broken
  · rw [broken_post hb, broken_post (core_fid e ▸ hb)]
  · obtain ⟨e1, e2⟩ := core_vals e hb
    have e3 := core_fid e
    obtain ⟨f, w, n, cn, ct, rf, v, rw', sp, ax⟩ := h
    obtain ⟨f', w', n', cn', ct', rf', v', rw'', sp', ax'⟩ := h'
    obtain ⟨an, ak, av⟩ := ax
    obtain ⟨an', ak', av'⟩ := ax'
    dsimp only at e1 e2 e3
    subst e1 e2 e3
    unfold Handler.postCheck
    dsimp only
    split <;> rfl

theorem endpointNames_reordered (r : Reordered m m') : endpointNames ⟨env, m', rel⟩ = endpointNames ⟨env, m, rel⟩ := by
  obtain ⟨ns, s, rfl, h⟩ := r.ex
  unfold endpointNames
  dsimp only
  rw [← h.parsed]

theorem tokenPost_reordered (r : Reordered m m') (add ro X hd) : tokenPolicyPostCheck ⟨env, m', rel⟩ add ro X hd = tokenPolicyPostCheck ⟨env, m, rel⟩ add ro X hd := by
  unfold tokenPolicyPostCheck
  rw [endpointNames_reordered r]

theorem cspPost_reordered (r : Reordered m m') (add ro hd ns) : csp.postCheck ⟨env, m', rel⟩ add ro hd ns = csp.postCheck ⟨env, m, rel⟩ add ro hd ns := by
  unfold csp.postCheck csp.missingEndpoints
  rw [endpointNames_reordered r]

theorem acceptChPost_reordered (r : Reordered m m') (add hd) : accept_ch.postCheck ⟨env, m', rel⟩ add hd = accept_ch.postCheck ⟨env, m, rel⟩ add hd := by
  obtain ⟨ns, s, rfl, h⟩ := r.ex
  unfold accept_ch.postCheck storable
  dsimp only
  simp only [← h.parsed, acceptChMissing_rel (c := ⟨env, m, rel⟩) (c' := ⟨env, { m with notes := ns, headers := s }, rel⟩) rfl]
  rfl

theorem postCheck_reordered (r : Reordered m m') (h : Handler) (add ns) : h.postCheck ⟨env, m', rel⟩ add ns = h.postCheck ⟨env, m, rel⟩ add ns := by
  unfold Handler.postCheck
  split
  · rw [acceptChPost_reordered r]
  · obtain ⟨ns, s, rfl, h⟩ := r.ex
    unfold available_dictionary.postCheck
    dsimp only
    rw [← h.parsed]
    rfl
  · obtain ⟨ns, s, rfl, h⟩ := r.ex
    unfold content_encoding.postCheck storable
    dsimp only
    rw [← h.parsed, ← h.parsed]
    rfl
  · rw [cspPost_reordered r]
  · rw [cspPost_reordered r]
  · rw [tokenPost_reordered r]
  · rw [tokenPost_reordered r]
  · rw [tokenPost_reordered r]
  · rw [tokenPost_reordered r]
  · obtain ⟨ns, s, rfl, h⟩ := r.ex
    unfold nel.postCheck
    dsimp only
    simp only [← h.parsed]
    rfl
  · rfl

/-! ### the notes of the checks at the end -/

/-- a note without its number and the sub-notes on missing endpoints -/
def brief (x : Note) : Note := { unnumbered x with subnotes := (unnumbered x).subnotes.filter fun s => decide (s.cls ≠ .CSP_REPORT_TO_MISSING) }

/-- is there a note about a `Content-Security-Policy` field? -/
def hasCsp (ns : List Note) : Bool := ns.any fun x => decide (x.cls = .CONTENT_SECURITY_POLICY)

theorem addToFirst_some {kid : NoteId × Dict Val} (hk : kid.1 = .CSP_REPORT_TO_MISSING) : ∀ {ns : List Note}, hasCsp ns = true → ∃ ns', addToFirstCsp kid ns = some ns' ∧ ns'.map brief = ns.map brief
  | [], h => nomatch h
  | n :: ns, h => by
    unfold addToFirstCsp
    by_cases hc : n.cls = .CONTENT_SECURITY_POLICY
    · rw [if_pos hc]
      refine ⟨_, rfl, ?_⟩
      rw [List.map_cons, List.map_cons]
      congr 1
      unfold brief unnumbered Note.addChild
      simp [hk]
    · rw [if_neg hc]
      have h' : hasCsp ns = true := by
        unfold hasCsp at h ⊢
        rw [List.any_cons] at h
        simpa [hc] using h
      obtain ⟨x, e, hx⟩ := addToFirst_some hk h'
      exact ⟨n :: x, by rw [e]; rfl, by rw [List.map_cons, List.map_cons, hx]⟩

theorem addToFirst_none {kid : NoteId × Dict Val} : ∀ {ns : List Note}, hasCsp ns = false → addToFirstCsp kid ns = none
  | [], _ => rfl
  | n :: ns, h => by
    unfold hasCsp at h
    rw [List.any_cons, Bool.or_eq_false_iff, decide_eq_false_iff_not] at h
    unfold addToFirstCsp
    rw [if_neg h.1, addToFirst_none (kid := kid) h.2]
    rfl

theorem hasCsp_brief {a b : List Note} (h : a.map brief = b.map brief) : hasCsp a = hasCsp b := by
  have : ∀ ns, hasCsp ns = (ns.map brief).any fun x => decide (x.cls = .CONTENT_SECURITY_POLICY) := by
    intro ns
    unfold hasCsp
    rw [List.any_map]
    rfl
  rw [this, this, h]

theorem hasCsp_append (a b : List Note) : hasCsp (a ++ b) = (hasCsp a || hasCsp b) := List.any_append

/-- what the check of a handler at the end adds, given that there is or is no note about a `Content-Security-Policy` -/
def endSays (c : Ctx) (add : AddNote) (h : Handler) (has : Bool) : List Note :=
  if has && (h.fid == .content_security_policy_ || h.fid == .content_security_policy_report_only_) then [] else (h.postCheck c add []).1

theorem cspFold_brief (add : AddNote) (ro : ReportOnly) (missing : List Str) (ns : List Note) :
    let f := fun (ns : List Note) (e : Str) =>
      let vars : Dict Val := [(str "endpoint", .str e), (str "report_only_text", .str ro.text)]
      match addToFirstCsp (.CSP_REPORT_TO_MISSING, vars) ns with
      | some ns' => ns'
      | none => ns ++ [add.mk1 .CSP_REPORT_TO_MISSING vars]
    (missing.foldl f ns).map brief = ns.map brief ++ (if hasCsp ns then [] else (missing.foldl f []).map brief) ∧ hasCsp (missing.foldl f []) = false := by
  intro f
  have yes : ∀ ms ns, hasCsp ns = true → (List.foldl f ns ms).map brief = ns.map brief := by
    intro ms
    induction ms with
    | nil => intro ns _; rfl
    | cons e ms ih =>
      intro ns h
      rw [List.foldl_cons]
      obtain ⟨x, e1, e2⟩ := addToFirst_some (kid := (.CSP_REPORT_TO_MISSING, [(str "endpoint", .str e), (str "report_only_text", .str ro.text)])) rfl h
      have hf : f ns e = x := by
        show (match addToFirstCsp _ ns with | some ns' => ns' | none => _) = x
        rw [e1]
      rw [hf, ih x (by rw [hasCsp_brief e2]; exact h), e2]
  have no : ∀ ms ns, hasCsp ns = false → List.foldl f ns ms = ns ++ ms.map fun e => add.mk1 .CSP_REPORT_TO_MISSING [(str "endpoint", .str e), (str "report_only_text", .str ro.text)] := by
    intro ms
    induction ms with
    | nil => intro ns _; rw [List.map_nil, List.append_nil]; rfl
    | cons e ms ih =>
      intro ns h
      rw [List.foldl_cons]
      have hf : f ns e = ns ++ [add.mk1 .CSP_REPORT_TO_MISSING [(str "endpoint", .str e), (str "report_only_text", .str ro.text)]] := by
        show (match addToFirstCsp _ ns with | some ns' => ns' | none => _) = _
        rw [addToFirst_none h]
      rw [hf, ih, List.map_cons, List.append_assoc]
      · rfl
      · rw [hasCsp_append, h]; rfl
  refine ⟨?_, ?_⟩
  · cases h : hasCsp ns with
    | true => rw [yes _ _ h, if_pos rfl, List.append_nil]
    | false =>
      rw [no _ _ h, no _ [] rfl, if_neg (by decide), List.map_append, List.nil_append]
  · rw [no _ [] rfl, List.nil_append]
    unfold hasCsp
    rw [List.any_eq_false]
    intro x hx
    obtain ⟨e, _, rfl⟩ := List.mem_map.1 hx
    exact fun hd => nomatch (of_decide_eq_true hd : NoteId.CSP_REPORT_TO_MISSING = NoteId.CONTENT_SECURITY_POLICY)

/-- is it one of the two fields whose check at the end writes under a note of the other? -/
def isCsp (h : Handler) : Bool := h.fid == .content_security_policy_ || h.fid == .content_security_policy_report_only_

/-- what one compares notes by: without sub-notes, or with them where no Content-Security-Policy field is concerned -/
structure Shape (p : Note → Note) (h : Handler) : Prop where
  cls : ∀ n, (p n).cls = n.cls
  brief : p = brief ∨ isCsp h = false

theorem hasCsp_map {p : Note → Note} (hp : ∀ n, (p n).cls = n.cls) (ns : List Note) : hasCsp (ns.map p) = hasCsp ns := by
  unfold hasCsp
  rw [List.any_map]
  congr 1
  funext x
  show decide ((p x).cls = _) = _
  rw [hp]

theorem postCheck_brief {p : Note → Note} {h : Handler} (hp : Shape p h) (c : Ctx) (add : AddNote) (ns : List Note) :
    (h.postCheck c add ns).1.map p = ns.map p ++ (endSays c add h (hasCsp ns)).map p ∧ (h.postCheck c add ns).2 = (h.postCheck c add []).2 := by
  have cs : ∀ ro, (csp.postCheck c add ro h ns).1.map brief = ns.map brief ++ (if hasCsp ns then [] else (csp.postCheck c add ro h []).1).map brief ∧
      (csp.postCheck c add ro h ns).2 = (csp.postCheck c add ro h []).2 := by
    intro ro
    unfold csp.postCheck
    split
    · exact ⟨by simp, rfl⟩
    · split
      · exact ⟨by simp, rfl⟩
      · exact ⟨(cspFold_brief add ro _ ns).1.trans (by split <;> rfl), rfl⟩
  obtain ⟨hc, hb⟩ := hp
  unfold isCsp at hb
  unfold endSays Handler.postCheck
  split
  all_goals rename_i hf
  all_goals first
    | (obtain rfl : p = brief := hb.resolve_right (by rw [hf]; decide)
       have := cs {}; rw [hf]; simpa using this)
    | (obtain rfl : p = brief := hb.resolve_right (by rw [hf]; decide)
       have := cs cspReportOnly; rw [hf]; simpa using this)
    | (rw [hf]; refine ⟨?_, rfl⟩; simp [appendW])
    | skip
  simp

theorem endSays_csp (c : Ctx) (add : AddNote) (h : Handler) (has : Bool) : hasCsp (endSays c add h has) = false := by
  have key : ∀ w : W Unit, ∀ {L : List NoteId}, Emits (Of none L) w → L.contains .CONTENT_SECURITY_POLICY = false → hasCsp (appendW [] w).1 = false := by
    intro w L hw hL
    unfold hasCsp
    rw [List.any_eq_false]
    intro x hx hd
    have := (hw x hx).cls
    rw [of_decide_eq_true hd, hL] at this
    exact nomatch this
  have cs : ∀ ro, hasCsp (csp.postCheck c add ro h []).1 = false := by
    intro ro
    unfold csp.postCheck
    split
    · rfl
    · split
      · rfl
      · exact (cspFold_brief add ro _ []).2
  unfold endSays
  split
  · rfl
  · rename_i hn
    clear hn
    by_cases hc : isCsp h = true
    · unfold isCsp at hc
      rw [Bool.or_eq_true, beq_iff_eq, beq_iff_eq] at hc
      unfold Handler.postCheck
      rcases hc with e | e <;> rw [e] <;> exact cs _
    · unfold hasCsp
      rw [List.any_eq_false]
      intro x hx hd
      have := postCheck_own c add h x hx
      rw [of_decide_eq_true hd] at this
      unfold isCsp at hc
      revert this
      unfold postOwn
      split <;> rename_i hf <;> first
        | (intro this; exact absurd this (by decide))
        | (rw [hf] at hc; exact absurd rfl hc)

/-- what the checks at the end say of a handler -/
def endOf (env : Env) (rel : Option Msg) (t : Bool) (m : Msg) (has : Bool) (h : Handler) : List Note :=
  if h.value = .none then [] else endSays ⟨env, m, rel⟩ (m.fieldAdder t h) h has

theorem postCheckHandlers_brief {p : Note → Note} {t} {hs : List Handler} {m m' : Msg} (hp : ∀ h ∈ hs, Shape p h)
    (h : postCheckHandlers env rel t hs m = (m', .ok ())) :
    m'.notes.map p = m.notes.map p ++ (hs.flatMap (endOf env rel t m (hasCsp m.notes))).map p := by
  induction hs generalizing m with
  | nil =>
    obtain ⟨rfl, _⟩ := Prod.mk.inj h
    rw [List.flatMap_nil, List.map_nil, List.append_nil]
  | cons hd hs ih =>
    unfold postCheckHandlers at h
    rw [List.flatMap_cons]
    unfold endOf
    by_cases hv : hd.value = .none
    · rw [if_pos hv] at h ⊢
      exact ih (fun x hx => hp x (by simp [hx])) h
    · rw [if_neg hv] at h ⊢
      obtain ⟨k1, k2⟩ := postCheck_brief (hp hd (by simp)) ⟨env, m, rel⟩ (m.fieldAdder t hd) m.notes
      generalize hd.postCheck ⟨env, m, rel⟩ (m.fieldAdder t hd) m.notes = q at h k1 k2
      obtain ⟨notes, r⟩ := q
      dsimp only at h k1 k2
      cases r with
      | error e => exact absurd h (by simp)
      | ok u =>
        dsimp only at h
        have i := ih (fun x hx => hp x (by simp [hx])) h
        have hc : hasCsp notes = hasCsp m.notes := by
          rw [← hasCsp_map (hp hd (by simp)).cls notes, k1, hasCsp_append, hasCsp_map (hp hd (by simp)).cls, hasCsp_map (hp hd (by simp)).cls, endSays_csp,
            Bool.or_false]
        rw [i]
        dsimp only
        rw [k1, List.map_append, List.append_assoc, hc]
        unfold endOf endSays
        simp only [postCheck_notes]
        rfl

theorem postCheckHandlers_run {t} {hs : List Handler} {m : Msg}
    (h : ∀ hd ∈ hs, hd.value ≠ .none → (hd.postCheck ⟨env, m, rel⟩ (m.fieldAdder t hd) []).2 = .ok ()) :
    ∃ m', postCheckHandlers env rel t hs m = (m', .ok ()) := by
  induction hs generalizing m with
  | nil => exact ⟨_, rfl⟩
  | cons hd hs ih =>
    unfold postCheckHandlers
    by_cases hv : hd.value = .none
    · rw [if_pos hv]
      exact ih fun x hx => h x (by simp [hx])
    · rw [if_neg hv]
      have k2 : (hd.postCheck ⟨env, m, rel⟩ (m.fieldAdder t hd) m.notes).2 = .ok () :=
        (postCheck_brief (p := brief) ⟨fun _ => rfl, .inl rfl⟩ ⟨env, m, rel⟩ (m.fieldAdder t hd) m.notes).2.trans (h hd (by simp) hv)
      generalize hd.postCheck ⟨env, m, rel⟩ (m.fieldAdder t hd) m.notes = q at k2
      obtain ⟨notes, r⟩ := q
      dsimp only at k2
      subst k2
      dsimp only
      refine ih fun x hx hxv => ?_
      rw [postCheck_notes]
      exact h x (by simp [hx]) hxv

/-- lists with the same cores say the same, in another order -/
theorem flatMap_core {α} {hs hs' : List Handler} {g g' : Handler → List α} (hp : (hs.map core).Perm (hs'.map core))
    (hg : ∀ h h', core h = core h' → g h = g' h') : (hs.flatMap g).Perm (hs'.flatMap g') := by
  classical
  let G : FieldId × Str × Option (Val × List Val) → List α := fun c => if e : ∃ x, core x = c then g e.choose else []
  have h1 : ∀ h, g h = G (core h) := by
    intro h
    have e : ∃ x, core x = core h := ⟨h, rfl⟩
    show _ = dite _ _ _
    rw [dif_pos e]
    exact (hg h h rfl).trans (hg _ h e.choose_spec).symm
  have h2 : ∀ h, g' h = G (core h) := by
    intro h
    have e : ∃ x, core x = core h := ⟨h, rfl⟩
    show _ = dite _ _ _
    rw [dif_pos e]
    exact (hg _ h e.choose_spec).symm
  rw [funext h1, funext h2]
  have := hp.flatMap_right G
  rwa [List.flatMap_map, List.flatMap_map] at this

theorem Perm_mem_core {hs hs' : List Handler} (hp : (hs.map core).Perm (hs'.map core)) {h' : Handler} (hm : h' ∈ hs') : ∃ h ∈ hs, core h = core h' :=
  List.mem_map.1 (hp.mem_iff.2 (List.mem_map_of_mem hm))

theorem core_post {h h' : Handler} (e : core h = core h') (c add ns) : (if h.value = .none then (ns, .ok ()) else h.postCheck c add ns) =
    if h'.value = .none then (ns, .ok ()) else h'.postCheck c add ns := by
  by_cases hb : h.fid.info.kind = .broken
  · rw [broken_post hb, broken_post (core_fid e ▸ hb)]; split <;> split <;> rfl
  · rw [(core_vals e hb).1, postCheck_core e]

theorem endOf_core (r : Reordered m m') {t has} {h h' : Handler} (e : core h = core h') : endOf env rel t m has h = endOf env rel t m' has h' := by
  have ea : m.fieldAdder t h = m'.fieldAdder t h' := by
    obtain ⟨ns, s, rfl, _⟩ := r.ex
    unfold Msg.fieldAdder
    rw [core_canon e]
    rfl
  unfold endOf endSays
  rw [ea]
  by_cases hb : h.fid.info.kind = .broken
  · rw [broken_post hb, broken_post (core_fid e ▸ hb)]
    repeat' split
    all_goals rfl
  · rw [core_fid e, (core_vals e hb).1, postCheck_reordered r, postCheck_core e]

/-- **the checks at the end, over reordered headers** -/
theorem postCheckHandlers_reordered {p : Note → Note} (hp : ∀ n, (p n).cls = n.cls) (r : Reordered m m') {m₁ : Msg} {t} {hs hs' : List Handler}
    (hcores : (hs.map core).Perm (hs'.map core)) (hc : p = brief ∨ ∀ q ∈ hs, isCsp q = false) (hn : hasCsp m.notes = hasCsp m'.notes)
    (h : postCheckHandlers env rel t hs m = (m₁, .ok ())) :
    ∃ ns, postCheckHandlers env rel t hs' m' = ({ m' with notes := ns }, .ok ()) ∧
      ∃ a b, m₁.notes.map p = m.notes.map p ++ a ∧ ns.map p = m'.notes.map p ++ b ∧ a.Perm b := by
  obtain ⟨_, _, oks⟩ := postCheckHandlers_among (Xs := []) (fun _ _ => by simp) h
  have hrun : ∃ m₂, postCheckHandlers env rel t hs' m' = (m₂, .ok ()) := by
    refine postCheckHandlers_run fun hd' hm hv => ?_
    obtain ⟨hd, hm0, e⟩ := Perm_mem_core hcores hm
    have ea : m.fieldAdder t hd = m'.fieldAdder t hd' := by
      obtain ⟨ns, s, rfl, _⟩ := r.ex
      unfold Msg.fieldAdder
      rw [core_canon e]
      rfl
    rw [postCheck_reordered r, ← ea]
    have := core_post e ⟨env, m, rel⟩ (m.fieldAdder t hd) []
    rw [if_neg hv] at this
    rw [← this]
    split
    · rfl
    · exact oks hd hm0 ‹_›
  obtain ⟨m₂, h₂⟩ := hrun
  obtain ⟨ns, rfl⟩ := postCheckHandlers_frame h₂
  refine ⟨ns, h₂, _, _, postCheckHandlers_brief ?_ h, postCheckHandlers_brief ?_ h₂, ?_⟩
  · intro hd hm
    exact ⟨hp, hc.imp_right fun hq => hq hd hm⟩
  · intro hd hm
    refine ⟨hp, hc.imp_right fun hq => ?_⟩
    obtain ⟨hd0, hm0, e⟩ := Perm_mem_core hcores hm
    have := hq hd0 hm0
    unfold isCsp at this ⊢
    rwa [core_fid e] at this
  · refine List.Perm.map _ (flatMap_core hcores fun h h' e => ?_)
    rw [hn]
    exact endOf_core r e

/-! ### the rest of a message, over reordered headers -/

/-- two messages that differ in the order of their headers and of their notes -/
structure Step (p : Note → Note) (m m' : Msg) : Prop where
  re : Reordered m m'
  notes : (m.notes.map p).Perm (m'.notes.map p)

/-- … and so do the outcomes -/
structure Both (p : Note → Note) {α} (x x' : Run α) : Prop where
  m : Step p x.1 x'.1
  res : x.2 = x'.2

theorem Step.add {p : Note → Note} (s : Step p m m') (ns : List Note) : Step p (m.addNotes ns) (m'.addNotes ns) := by
  refine ⟨⟨?_, s.re.head⟩, ?_⟩
  · obtain ⟨n, x, rfl, _⟩ := s.re.ex
    rfl
  · show ((m.notes ++ ns).map p).Perm ((m'.notes ++ ns).map p)
    rw [List.map_append, List.map_append]
    exact s.notes.append_right _

theorem runW_step {p : Note → Note} {α} (s : Step p m m') {w w' : W α} (h : w' = w) : Both p (m.runW w) (m'.runW w') := by
  subst h
  exact ⟨s.add _, rfl⟩

theorem andThen_step {p : Note → Note} {α β} {r r' : Run α} (h : Both p r r') {f f' : Msg → α → Run β}
    (hf : ∀ {x x'} (_ : Step p x x') (a : α), Both p (f x a) (f' x' a)) : Both p (r.andThen f) (r'.andThen f') := by
  obtain ⟨x, y⟩ := r
  obtain ⟨x', y'⟩ := r'
  obtain ⟨hm, hr⟩ := h
  dsimp only at hm hr
  subst hr
  cases y with
  | error e => exact ⟨hm, rfl⟩
  | ok a => exact hf hm a

theorem adder_step (r : Reordered m m') (x b) : m'.adder x b = m.adder x b := by
  obtain ⟨n, s, rfl, _⟩ := r.ex
  rfl

theorem postChecks_step {p : Note → Note} (s : Step p m m') : Both p (postChecks env rel m).1 (postChecks env rel m').1 ∧
    (postChecks env rel m).2 = (postChecks env rel m').2 := by
  unfold postChecks
  rw [show m'.kind = m.kind by rw [s.re.eq]]
  split
  · exact ⟨runW_step s (requestPost_reordered s.re), rfl⟩
  · unfold responsePostChecks
    rw [adder_step s.re]
    have h1 := runW_step s (preflightResponse_reordered (env := env) (rel := rel) s.re (m.adder []))
    generalize m.runW _ = q at *
    generalize m'.runW _ = q' at *
    obtain ⟨x, y⟩ := q
    obtain ⟨x', y'⟩ := q'
    obtain ⟨hm, hr⟩ := h1
    dsimp only at hm hr
    subst hr
    cases y with
    | error e => exact ⟨⟨hm, rfl⟩, rfl⟩
    | ok u =>
      dsimp only
      rw [cacheCheck_reordered hm.re]
      generalize cacheCheck ⟨env, x, rel⟩ = q
      obtain ⟨cs, w, rq⟩ := q
      dsimp only
      refine ⟨?_, rfl⟩
      have hm2 : Step p (match cs with | some st => { x with caching := some st } | none => x)
          (match cs with | some st => { x' with caching := some st } | none => x') := by
        cases cs with
        | none => exact hm
        | some st => exact ⟨⟨by rw [hm.re.eq], hm.re.head⟩, hm.notes⟩
      generalize (match cs with | some st => { x with caching := some st } | none => x : Msg) = y at *
      generalize (match cs with | some st => { x' with caching := some st } | none => x' : Msg) = y' at *
      refine andThen_step (runW_step hm2 rfl) fun {a a'} ha _ => ?_
      refine andThen_step (runW_step ha (status_reordered ha.re)) fun {b b'} hb _ => ?_
      rw [show b'.noContent = b.noContent by rw [hb.re.eq]]
      split
      · exact ⟨hb, rfl⟩
      · refine andThen_step (runW_step hb (verifyContentType_reordered hb.re)) fun {d d'} hd _ => ?_
        exact runW_step hd (verifyCharset_reordered hd.re)

theorem setCharset_step {p : Note → Note} (s : Step p m m') : Both p (m.setCharset env) (m'.setCharset env) := by
  unfold Msg.setCharset
  rw [← s.re.head.parsed]
  split
  · exact ⟨s, rfl⟩
  · split
    · exact ⟨s, rfl⟩
    · split
      · exact ⟨s, rfl⟩
      · split
        · split
          · exact ⟨⟨⟨by rw [s.re.eq], s.re.head⟩, s.notes⟩, rfl⟩
          · split <;> exact ⟨s, rfl⟩
        · exact ⟨s, rfl⟩

theorem sink_step {p : Note → Note} (cs : List Str) : ∀ {m m' : Msg} (_ : Step p m m'), Step p (cs.foldl Msg.sink m) (cs.foldl Msg.sink m') := by
  induction cs with
  | nil => intro m m' s; exact s
  | cons c cs ih =>
    intro m m' s
    rw [List.foldl_cons, List.foldl_cons]
    exact ih ⟨⟨by unfold Msg.sink; rw [s.re.eq], s.re.head⟩, s.notes⟩

theorem decoders_step (r : Reordered m m') : m'.decoders = m.decoders := by
  obtain ⟨n, s, rfl, h⟩ := r.ex
  unfold Msg.decoders
  dsimp only
  rw [← h.parsed]

theorem feedContent_step {p : Note → Note} (s : Step p m m') (chunk : Str) : Both p (m.feedContent env chunk) (m'.feedContent env chunk) := by
  unfold Msg.feedContent
  have h0 : Step p { m with contentLength := m.contentLength + chunk.length } { m' with contentLength := m'.contentLength + chunk.length } :=
    ⟨⟨by rw [s.re.eq], s.re.head⟩, s.notes⟩
  dsimp only
  have hnc : m'.noContent = m.noContent := by rw [s.re.eq]
  by_cases hno : m.noContent = true
  · rw [if_pos hno, if_pos (hnc.trans hno)]; exact ⟨h0, rfl⟩
  · rw [if_neg hno, if_neg (by rw [hnc]; exact hno)]
    have h1 : Step p { m with contentLength := m.contentLength + chunk.length, hashed := m.hashed ++ chunk } { m' with contentLength := m'.contentLength + chunk.length, hashed := m'.hashed ++ chunk } :=
      ⟨⟨by rw [s.re.eq], s.re.head⟩, s.notes⟩
    generalize ({ m with contentLength := m.contentLength + chunk.length, hashed := m.hashed ++ chunk } : Msg) = x at *
    generalize ({ m' with contentLength := m'.contentLength + chunk.length, hashed := m'.hashed ++ chunk } : Msg) = x' at *
    unfold Msg.decodeFeed
    rw [decoders_step h1.re, show x'.decoded = x.decoded by rw [h1.re.eq], show x'.defaults = x.defaults by rw [h1.re.eq], show x'.contentLength = x.contentLength by rw [h1.re.eq]]
    split
    · exact ⟨h1, rfl⟩
    · split
      · exact ⟨⟨⟨by rw [h1.re.eq], h1.re.head⟩, h1.notes⟩, rfl⟩
      · rename_i q _
        dsimp only
        have h2 := sink_step (feedPipe ⟨env, x.defaults, x.contentLength⟩ q.length q chunk).out
          (h1.add (feedPipe ⟨env, x.defaults, x.contentLength⟩ q.length q chunk).notes)
        generalize List.foldl Msg.sink (x.addNotes _) _ = y at *
        generalize List.foldl Msg.sink (x'.addNotes _) _ = y' at *
        exact ⟨⟨⟨by rw [h2.re.eq], h2.re.head⟩, h2.notes⟩, rfl⟩

theorem Step.csp {p : Note → Note} (hp : ∀ n, (p n).cls = n.cls) (s : Step p m m') : hasCsp m.notes = hasCsp m'.notes := by
  rw [← hasCsp_map hp m.notes, ← hasCsp_map hp m'.notes]
  unfold hasCsp
  rw [Bool.eq_iff_iff, List.any_eq_true, List.any_eq_true]
  constructor
  · rintro ⟨x, hx, h⟩; exact ⟨x, s.notes.mem_iff.1 hx, h⟩
  · rintro ⟨x, hx, h⟩; exact ⟨x, s.notes.mem_iff.2 hx, h⟩

/-! #### trailers -/

theorem Step.set {p : Note → Note} (s : Step p m m') (x : Section) : Step p (m.setSection true x) (m'.setSection true x) := by
  refine ⟨⟨?_, s.re.head⟩, s.notes⟩
  obtain ⟨n, y, rfl, _⟩ := s.re.ex
  rfl

theorem Step.trailers {p : Note → Note} (s : Step p m m') : m'.section true = m.section true := by
  obtain ⟨n, y, rfl, _⟩ := s.re.ex
  rfl

theorem Reordered.exts (r : Reordered m m') : Ext false { m with notes := [] } m ∧ Ext false { m with notes := [] } m' := by
  obtain ⟨n, s, rfl, _⟩ := r.ex
  exact ⟨⟨m.notes, m.headers, rfl⟩, ⟨n, s, rfl⟩⟩

theorem Step.hsts {p : Note → Note} (hp : ∀ n, (p n).cls = n.cls) (s : Step p m m') :
    m.notes.any (fun n => hstsInvalidating.contains n.cls) = m'.notes.any (fun n => hstsInvalidating.contains n.cls) := by
  have e : ∀ ns : List Note, ns.any (fun n => hstsInvalidating.contains n.cls) = (ns.map p).any (fun n => hstsInvalidating.contains n.cls) := by
    intro ns
    rw [List.any_map]
    congr 1
    funext n
    exact congrArg _ (hp n).symm
  rw [e m.notes, e m'.notes, Bool.eq_iff_iff, List.any_eq_true, List.any_eq_true]
  constructor
  · rintro ⟨x, hx, h⟩; exact ⟨x, s.notes.mem_iff.1 hx, h⟩
  · rintro ⟨x, hx, h⟩; exact ⟨x, s.notes.mem_iff.2 hx, h⟩

theorem Step.sees {p : Note → Note} (hp : ∀ n, (p n).cls = n.cls) (s : Step p m m') (f : FieldId) : SeesSame f ⟨env, m', rel⟩ ⟨env, m, rel⟩ := by
  have hh : ∀ k, dhas m'.headers.handlers k = dhas m.headers.handlers k := by
    intro k
    rw [← dget_isSome, ← dget_isSome]
    have := congrArg Option.isSome (s.re.head.get k)
    rw [Option.isSome_map, Option.isSome_map] at this
    exact this.symm
  exact ⟨fun _ => (s.re.head.parsed _).symm, fun _ => (s.re.head.parsed _).symm, fun _ => (s.re.head.parsed _).symm, fun _ => hh _, fun _ => hh _, (s.hsts hp).symm⟩

theorem handlerFinish_step {p : Note → Note} (hp : ∀ n, (p n).cls = n.cls) (s : Step p m m') (h : Handler) (add : AddNote) :
    h.finish ⟨env, m', rel⟩ add = h.finish ⟨env, m, rel⟩ add := by
  obtain ⟨e1, e2⟩ := s.re.exts
  have hparse : ∀ (h : Handler) (add : AddNote) (v : Str), h.parse ⟨env, m', rel⟩ add v = h.parse ⟨env, m, rel⟩ add v := by
    intro h add v
    rw [parse_ext e2, parse_ext e1]
  have heval : ∀ (add : AddNote) (xs : List Note) (h : Handler), h.evalAfter ⟨env, m', rel⟩ add xs = h.evalAfter ⟨env, m, rel⟩ add xs := fun add xs h =>
    evalAfter_same (env := env) (related := rel) (t := false) ⟨rfl, rfl, e2⟩ ⟨rfl, rfl, e1⟩ h (s.sees hp _) add xs
  have hloop : ∀ (rs : List (Str × Nat)) (h : Handler) (acc : List Val), h.brokenLoop ⟨env, m', rel⟩ rs acc = h.brokenLoop ⟨env, m, rel⟩ rs acc := by
    intro rs
    induction rs with
    | nil => intro h acc; rfl
    | cons r rs ih =>
      intro h acc
      obtain ⟨raw, o⟩ := r
      unfold Handler.brokenLoop
      dsimp only
      have ha : m'.defaults = m.defaults := by rw [s.re.eq]
      simp only [hparse, ih, ha]
  unfold Handler.finish Handler.finishSingleton Handler.finishBroken Handler.finishSf Handler.finishJson
  simp only [hparse, hloop, heval]

theorem trailerLine_step {p : Note → Note} (s : Step p m m') (o : Nat) (l : Line) :
    Both p (processLine env rel true m o l) (processLine env rel true m' o l) := by
  obtain ⟨name, value⟩ := l
  have hx := s.trailers
  have hadd : ∀ x b, m'.adder x b = m.adder x b := adder_step s.re
  have hkind : m'.kind = m.kind := by rw [s.re.eq]
  have hh : lineHandler true m' name = lineHandler true m name := by unfold lineHandler; rw [hx]
  have hc : lineCheck true m' o name = lineCheck true m o name := by unfold lineCheck; rw [hh, hadd, hkind]
  have he : encNotes m' o name value = encNotes m o name value := by
    obtain ⟨n, y, rfl, _⟩ := s.re.ex
    rfl
  have hm : Step p (lineMid true m o name value) (lineMid true m' o name value) := by
    unfold lineMid
    rw [hc, he, hx]
    exact (s.set _).add _
  have hi : lineInput env rel true m' o name value = lineInput env rel true m o name value := by
    unfold lineInput
    obtain ⟨e1, e2⟩ := hm.re.exts
    rw [hc, handleInput_ext e2, handleInput_ext e1]
  have hb : ∀ h, bigNotes m' o name value h = bigNotes m o name value h := by
    intro h
    unfold bigNotes
    rw [hadd]
  rw [processLine_eq, processLine_eq, hc, hi]
  split
  · exact ⟨hm, rfl⟩
  · dsimp only
    rw [he, hx]
    have h1 := (s.set (recorded (m.section true) name value (lineInput env rel true m o name value).1)).add
      (encNotes m o name value ++ (lineCheck true m o name).2.2 ++ (lineInput env rel true m o name value).2.notes)
    split
    · exact ⟨h1, rfl⟩
    · rw [hb]
      exact ⟨h1.add _, rfl⟩

theorem trailerLines_step {p : Note → Note} (ls : List Line) : ∀ {m m' : Msg} (_ : Step p m m') (o : Nat),
    Both p (processLines env rel true ls o m) (processLines env rel true ls o m') := by
  induction ls with
  | nil => intro m m' s o; exact ⟨s, rfl⟩
  | cons l ls ih =>
    intro m m' s o
    unfold processLines
    have h1 := trailerLine_step (env := env) (rel := rel) s o l
    generalize processLine env rel true m o l = r at *
    generalize processLine env rel true m' o l = r' at *
    obtain ⟨x, y⟩ := r
    obtain ⟨x', y'⟩ := r'
    obtain ⟨h1, h2⟩ := h1
    dsimp only at h1 h2
    subst h2
    cases y with
    | error e => exact ⟨h1, rfl⟩
    | ok o' => exact ih h1 _

theorem trailerFinish_step {p : Note → Note} (hp : ∀ n, (p n).cls = n.cls) (s : Step p m m') (k : Str) :
    Both p (finishHandler env rel true m k) (finishHandler env rel true m' k) := by
  unfold finishHandler
  rw [s.trailers]
  split
  · exact ⟨s, rfl⟩
  · rename_i hd _
    have hf : m'.fieldAdder true hd = m.fieldAdder true hd := by unfold Msg.fieldAdder; rw [adder_step s.re]
    dsimp only
    rw [hf, handlerFinish_step hp s]
    generalize hd.finish ⟨env, m, rel⟩ (m.fieldAdder true hd) = r
    obtain ⟨h', w⟩ := r
    dsimp only
    have h1 := s.add w.notes
    rw [h1.trailers]
    split
    · exact ⟨h1.set _, rfl⟩
    · exact ⟨h1.set _, rfl⟩

theorem trailerFinishes_step {p : Note → Note} (hp : ∀ n, (p n).cls = n.cls) (ks : List Str) : ∀ {m m' : Msg} (_ : Step p m m'),
    Both p (finishHandlers env rel true ks m) (finishHandlers env rel true ks m') := by
  induction ks with
  | nil => intro m m' s; exact ⟨s, rfl⟩
  | cons k ks ih =>
    intro m m' s
    unfold finishHandlers
    have h1 := trailerFinish_step (env := env) (rel := rel) hp s k
    generalize finishHandler env rel true m k = r at *
    generalize finishHandler env rel true m' k = r' at *
    obtain ⟨x, y⟩ := r
    obtain ⟨x', y'⟩ := r'
    obtain ⟨h1, h2⟩ := h1
    dsimp only at h1 h2
    subst h2
    cases y with
    | error e => exact ⟨h1, rfl⟩
    | ok u => exact ih h1

theorem trailers_step {p : Note → Note} (hp : ∀ n, (p n).cls = n.cls) (s : Step p m m') (ls : List Line) :
    Both p (processSection env rel true ls m) (processSection env rel true ls m') := by
  unfold processSection
  have h1 := trailerLines_step (env := env) (rel := rel) ls s 0
  generalize processLines env rel true ls 0 m = r at *
  generalize processLines env rel true ls 0 m' = r' at *
  obtain ⟨x, y⟩ := r
  obtain ⟨x', y'⟩ := r'
  obtain ⟨h1, h2⟩ := h1
  dsimp only at h1 h2
  subst h2
  cases y with
  | error e => exact ⟨h1, rfl⟩
  | ok u =>
    have hn : sectionSizeNotes true x' = sectionSizeNotes true x := by
      obtain ⟨n, y, rfl, _⟩ := h1.re.ex
      rfl
    have h2 := h1.add (sectionSizeNotes true x)
    have hs := h2.trailers
    dsimp only
    rw [hn, hs]
    exact trailerFinishes_step hp _ h2

/-- neither Content-Security-Policy nor Content-Security-Policy-Report-Only -/
def NoCsp (ls : List Line) : Prop :=
  ∀ l ∈ ls, lower (shownName (lineKey l.1)) ≠ str "content-security-policy" ∧ lower (shownName (lineKey l.1)) ≠ str "content-security-policy-report-only"

/-- neither has been received in a section -/
def Clear (env : Env) (s : Section) : Prop :=
  IdSec env s ∧ ∀ q ∈ s.text, lower (shownName q.1) ≠ str "content-security-policy" ∧ lower (shownName q.1) ≠ str "content-security-policy-report-only"

theorem Clear.handlers {s : Section} (h : Clear env s) : ∀ q ∈ s.handlers, isCsp q.2 = false := by
  intro z hz
  obtain ⟨⟨name, e, sid⟩, _⟩ := h.1.hs z hz
  obtain ⟨q, hq, hk⟩ := h.1.keys z hz
  obtain ⟨n1, n2⟩ := h.2 q hq
  have hfid := sid.fid
  rw [mkHandler_fid, classOf_lower (e.trans hk.symm)] at hfid
  unfold isCsp
  rw [Bool.or_eq_false_iff, beq_eq_false_iff_ne, beq_eq_false_iff_ne, hfid]
  constructor
  · intro e
    apply n1
    unfold shownName
    rw [e]
    rfl
  · intro e
    apply n2
    unfold shownName
    rw [e]
    rfl

theorem Clear.processed {t : Bool} {ls : List Line} (hn : NoCsp ls) (h : Clear env (m.section t)) : Clear env ((processSection env rel t ls m).1.section t) := by
  refine ⟨Inv.sect rel t ls m trivial h.1, ?_⟩
  obtain ⟨k, _, _, ht, _⟩ := processSection_text env rel t ls m
  rw [ht]
  intro q hq
  rcases List.mem_append.1 hq with hq | hq
  · exact h.2 q hq
  · obtain ⟨l, hl, rfl⟩ := List.mem_map.1 hq
    have := hn l (List.mem_of_mem_take hl)
    have e : lower (shownName (lineKey l.1)) = lower (shownName (decodeName l.1)) := shown_lower (lower_lower _)
    rw [e] at this
    exact this

/-- what one compares notes by: either without their sub-notes, or no Content-Security-Policy field was sent -/
def Choice (env : Env) (p : Note → Note) (m : Msg) : Prop :=
  p = brief ∨ Clear env m.headers ∧ Clear env m.trailers

theorem handlers_step {p : Note → Note} (hp : ∀ n, (p n).cls = n.cls) (s : Step p m m') (t : Bool) (hc : Choice env p m) {m₁ : Msg}
    (h : postCheckHandlers env rel t ((m.section t).handlers.map (·.2)) m = (m₁, .ok ())) :
    ∃ m₂, postCheckHandlers env rel t ((m'.section t).handlers.map (·.2)) m' = (m₂, .ok ()) ∧ Step p m₁ m₂ ∧ m₁.headers = m.headers ∧ m₁.trailers = m.trailers := by
  have hcores : (((m.section t).handlers.map (·.2)).map core).Perm (((m'.section t).handlers.map (·.2)).map core) := by
    rw [List.map_map, List.map_map]
    cases t with
    | false => exact s.re.head.cores
    | true =>
      have : m'.section true = m.section true := by
        obtain ⟨n, x, rfl, _⟩ := s.re.ex
        rfl
      rw [this]
  obtain ⟨ns, h2, a, b, ha, hb, hab⟩ := postCheckHandlers_reordered hp s.re hcores (hc.imp_right fun hq q hm => by
    obtain ⟨z, hz, rfl⟩ := List.mem_map.1 hm
    cases t with
    | false => exact hq.1.handlers z hz
    | true => exact hq.2.handlers z hz) (s.csp hp) h
  obtain ⟨ms, rfl⟩ := postCheckHandlers_frame h
  refine ⟨_, h2, ⟨⟨?_, s.re.head⟩, ?_⟩, rfl, rfl⟩
  · obtain ⟨n, x, rfl, _⟩ := s.re.ex
    rfl
  · show (ms.map p).Perm (ns.map p)
    change ms.map p = _ at ha
    rw [ha, hb]
    exact s.notes.append hab

theorem postChecks_heads (m : Msg) : (postChecks env rel m).1.1.headers = m.headers ∧ (postChecks env rel m).1.1.trailers = m.trailers := by
  unfold postChecks
  split
  · exact ⟨rfl, rfl⟩
  · unfold responsePostChecks
    generalize hq : m.runW _ = q
    have q1 : q.1.headers = m.headers ∧ q.1.trailers = m.trailers := by rw [← hq]; exact ⟨rfl, rfl⟩
    clear hq
    obtain ⟨x, y⟩ := q
    cases y with
    | error e => exact q1
    | ok u =>
      dsimp only
      generalize cacheCheck ⟨env, x, rel⟩ = q
      obtain ⟨cs, w, rq⟩ := q
      dsimp only
      have q2 : (match cs with | some st => { x with caching := some st } | none => x : Msg).headers = m.headers ∧
          (match cs with | some st => { x with caching := some st } | none => x : Msg).trailers = m.trailers := by cases cs <;> exact q1
      generalize (match cs with | some st => { x with caching := some st } | none => x : Msg) = y at *
      have step : ∀ {α β} (r : Run α) (f : Msg → α → Run β), (r.1.headers = m.headers ∧ r.1.trailers = m.trailers) →
          (∀ z a, (z.headers = m.headers ∧ z.trailers = m.trailers) → ((f z a).1.headers = m.headers ∧ (f z a).1.trailers = m.trailers)) →
          ((r.andThen f).1.headers = m.headers ∧ (r.andThen f).1.trailers = m.trailers) := by
        intro α β r f hr hf
        obtain ⟨z, a⟩ := r
        cases a with
        | error e => exact hr
        | ok a => exact hf z a hr
      refine step _ _ q2 fun z a hz => step _ _ hz fun z a hz => ?_
      split
      · exact hz
      · exact step _ _ hz fun z a hz => hz

theorem finish_step {p : Note → Note} (hp : ∀ n, (p n).cls = n.cls) (s : Step p m m') (hc : Choice env p m) (co : Bool) {ts : List Line} (hts : p = brief ∨ NoCsp ts) {m₁ : Msg} {rn}
    (h : m.finishContent env rel co ts = ((m₁, .ok ()), rn)) :
    ∃ m₂, m'.finishContent env rel co ts = ((m₂, .ok ()), rn) ∧ Step p m₁ m₂ ∧ Choice env p m₁ := by
  unfold Msg.finishContent at h ⊢
  dsimp only at h ⊢
  have h0 : Step p (({ m with complete := co, contentHash := some (env.md5 m.hashed) } : Msg)) (({ m' with complete := co, contentHash := some (env.md5 m'.hashed) } : Msg)) :=
    ⟨⟨by rw [s.re.eq], s.re.head⟩, s.notes⟩
  have hc0 : Choice env p ({ m with complete := co, contentHash := some (env.md5 m.hashed) } : Msg) := hc
  have hmd : env.md5 m'.hashed = env.md5 m.hashed := by rw [s.re.eq]
  generalize ({ m with complete := co, contentHash := some (env.md5 m.hashed) } : Msg) = z at *
  generalize ({ m' with complete := co, contentHash := some (env.md5 m'.hashed) } : Msg) = z' at *
  have hb : Both p (if ts.isEmpty then (z, .ok ()) else processSection env rel true ts z : Run Unit) (if ts.isEmpty then (z', .ok ()) else processSection env rel true ts z' : Run Unit) ∧
      Choice env p (if ts.isEmpty then (z, .ok ()) else processSection env rel true ts z : Run Unit).1 := by
    split
    · exact ⟨⟨h0, rfl⟩, hc0⟩
    · refine ⟨trailers_step hp h0 ts, ?_⟩
      rcases hts with rfl | hts
      · exact .inl rfl
      · refine hc0.imp_right fun ⟨c1, c2⟩ => ⟨?_, Clear.processed (t := true) hts c2⟩
        have := ext_other (processSection_ext env rel true ts z)
        change (processSection env rel true ts z).1.headers = z.headers at this
        rw [this]
        exact c1
  clear hc0 h0 hc s hmd
  generalize (if ts.isEmpty then (z, .ok ()) else processSection env rel true ts z : Run Unit) = r at *
  generalize (if ts.isEmpty then (z', .ok ()) else processSection env rel true ts z' : Run Unit) = r' at *
  obtain ⟨m, o⟩ := r
  obtain ⟨m', o'⟩ := r'
  obtain ⟨⟨s, ho⟩, hc⟩ := hb
  dsimp only at s ho hc
  subst ho
  cases o with
  | error e => exact absurd (congrArg (·.1.2) h) (fun hh => nomatch hh)
  | ok u =>
  dsimp only at h ⊢
  have h3 : Step p (({ m with decoded := { m.decoded with hash := some (env.md5 m.decoded.hashed) } } : Msg))
      (({ m' with decoded := { m'.decoded with hash := some (env.md5 m'.decoded.hashed) } } : Msg)) :=
    ⟨⟨by rw [s.re.eq], s.re.head⟩, s.notes⟩
  have h4 := h3.add (lengthNotes ({ m with decoded := { m.decoded with hash := some (env.md5 m.decoded.hashed) } } : Msg))
  rw [← lengthNotes_reordered h3.re] at h4
  conv at h4 => arg 2; rw [lengthNotes_reordered h3.re]
  generalize hx : ({ m with decoded := { m.decoded with hash := some (env.md5 m.decoded.hashed) } } : Msg).addNotes _ = x at *
  generalize ({ m' with decoded := { m'.decoded with hash := some (env.md5 m'.decoded.hashed) } } : Msg).addNotes _ = x' at *
  have hh : x.headers = m.headers ∧ x.trailers = m.trailers := by rw [← hx]; exact ⟨rfl, rfl⟩
  obtain ⟨h5, h6⟩ := postChecks_step (env := env) (rel := rel) h4
  have h7 := postChecks_heads (env := env) (rel := rel) x
  generalize postChecks env rel x = q at *
  generalize postChecks env rel x' = q' at *
  obtain ⟨⟨y, o⟩, n⟩ := q
  obtain ⟨⟨y', o'⟩, n'⟩ := q'
  obtain ⟨h8, h9⟩ := h5
  dsimp only at h h6 h7 h8 h9 ⊢
  subst h6 h9
  rw [hh.1, hh.2] at h7
  cases o with
  | error e => exact absurd (congrArg (·.1.2) h) (fun hh => nomatch hh)
  | ok u =>
    unfold Run.andThen at h ⊢
    dsimp only at h ⊢
    have hc1 : Choice env p y := by unfold Choice; rw [h7.1, h7.2]; exact hc
    rw [Prod.mk.injEq] at h
    obtain ⟨h, rfl⟩ := h
    cases hq : postCheckHandlers env rel false (y.headers.handlers.map (·.2)) y with
    | mk z a =>
      rw [hq] at h
      cases a with
      | error e => exact absurd (congrArg (·.2) h) (fun hh => nomatch hh)
      | ok u =>
        dsimp only at h
        obtain ⟨z', e1, s1, t1, t2⟩ := handlers_step hp h8 false hc1 hq
        obtain ⟨z2, e2, s2, t3, t4⟩ := handlers_step hp s1 true (by unfold Choice; rw [t1, t2]; exact hc1) h
        change postCheckHandlers env rel false (y'.headers.handlers.map (·.2)) y' = _ at e1
        change postCheckHandlers env rel true (z'.trailers.handlers.map (·.2)) z' = _ at e2
        rw [e1]
        dsimp only
        rw [e2]
        exact ⟨_, rfl, s2, by unfold Choice; rw [t3, t1, h7.1, t4, t2, h7.2]; exact hc⟩
end

/-! ### what a section leaves behind for the rest of the message -/

theorem evaluate_fst {env related t m} {c₁ c₂ : Ctx} (d₁ : During env related t m c₁) (d₂ : During env related t m c₂) (h : Handler) (add : AddNote) :
    (h.evaluate c₁ add).1 = (h.evaluate c₂ add).1 := by
  obtain ⟨e₁, m₁, r₁⟩ := c₁
  obtain ⟨e₂, m₂, r₂⟩ := c₂
  obtain ⟨rfl, rfl, x₁⟩ := d₁
  obtain ⟨h2, h3, x₂⟩ := d₂
  dsimp only at h2 h3 x₁ x₂
  subst h2 h3
  obtain ⟨ns₁, s₁, rfl⟩ := x₁
  obtain ⟨ns₂, s₂, rfl⟩ := x₂
  unfold Handler.evaluate
  split <;> (cases t <;> rfl)

theorem evalAfter_fst {env related t m} {c₁ c₂ : Ctx} (d₁ : During env related t m c₁) (d₂ : During env related t m c₂) (h : Handler) (add : AddNote) (ns ns') :
    (h.evalAfter c₁ add ns).1 = (h.evalAfter c₂ add ns').1 := by
  unfold Handler.evalAfter
  split
  · rfl
  · exact evaluate_fst d₁ d₂ h add

theorem finish_fst {env related t m} {c₁ c₂ : Ctx} (d₁ : During env related t m c₁) (d₂ : During env related t m c₂) (h : Handler)
    (hk : h.fid.info.kind ≠ .broken) (add : AddNote) : (h.finish c₁ add).1 = (h.finish c₂ add).1 := by
  unfold Handler.finish
  split
  · unfold Handler.finishSingleton
    split
    · rfl
    · dsimp only
      rw [parse_both d₁ d₂]
      generalize Handler.parse _ _ _ _ = p
      split
      · exact evalAfter_fst d₁ d₂ _ _ _ _
      · rfl
  · rename_i hb; exact absurd hb hk
  · unfold Handler.finishSf
    rw [d₁.env, d₂.env]
    split
    · rfl
    · split
      · rfl
      · split
        · rfl
        · dsimp only
          split
          · exact evalAfter_fst d₁ d₂ _ _ _ _
          · rfl
          · rfl
  · unfold Handler.finishJson
    rw [d₁.env, d₂.env]
    split
    · rfl
    · split
      · rfl
      · split
        · exact evalAfter_fst d₁ d₂ _ _ _ _
        · rfl
        · rfl
  · exact evalAfter_fst d₁ d₂ _ _ _ _
  · exact evalAfter_fst d₁ d₂ _ _ _ _

/-- the handlers of a processed section, by name -/
theorem section_keyed {env related t} {ls : List Line} {m m' : Msg} (hm : Linting env m) (hnew : (m.section t).handlers = [])
    (h : processSection env related t ls m = (m', .ok ())) :
    (m'.section t).handlers.map (·.1) = namesOf ls ∧ ∀ n ∈ namesOf ls, ∃ hd, dget (m'.section t).handlers n = some hd ∧ Left env related t ls m n hd := by
  have hr := hm.ready t
  unfold processSection at h
  split at h
  · simp at h
  · rename_i m1 heq
    dsimp only at h
    have hext : Ext t m m1 := by have := processLines_ext env related t ls 0 m; rwa [heq] at this
    have hkeys := processLines_keys heq
    rw [hnew] at hkeys
    change _ = namesOf ls at hkeys
    have hext2 : Ext t m (m1.addNotes (sectionSizeNotes t m1)) := hext.trans (Ext.add t m1 _)
    have hsec : (m1.addNotes (sectionSizeNotes t m1)).section t = m1.section t := section_addNotes _ _ _
    rw [hsec, hkeys] at h
    have hget : ∀ n ∈ namesOf ls, dget (m1.section t).handlers n = some (readHandler ⟨env, m, related⟩ ls n) := by
      intro n hn
      rw [processLines_handler hr (Ext.refl t m) heq n, hnew]
      exact linesOf_foldl ⟨env, m, related⟩ ls n hn
    have hcl := processLines_clean hr (Ext.refl t m) heq
    obtain ⟨p1, _, p3⟩ := finishHandlers_left hext2 (dedup_nodup _) (by
      intro k hk
      rw [hsec, ← dget_isSome, hget k hk]; rfl) h
    rw [hsec] at p1 p3
    refine ⟨p1.trans hkeys, fun n hn => ?_⟩
    obtain ⟨ctx, q1, q2, q3⟩ := p3 n hn _ (hget n hn)
    refine ⟨_, q3, ?_, ?_, ?_, ctx, q1, q2, rfl⟩
    · unfold finishIn
      rw [(finish_id _ _ _).fid]
      unfold readHandler handlerFor
      split
      · rw [(fed_id _ _ _).fid, mkHandler_fid, classOf_spelling hn]
      · rw [(checked_id _ _).fid, mkHandler_fid, classOf_spelling hn]
    · unfold finishIn
      rw [(finish_id _ _ _).canon]
    · exact readHandler_value hn hcl q1 q2

theorem Left.same_core {env related t} {ls₁ ls₂ : List Line} {m : Msg} {k : Str} {h₁ h₂ : Handler} (L₁ : Left env related t ls₁ m k h₁) (L₂ : Left env related t ls₂ m k h₂)
    (k₂ : k ∈ namesOf ls₂) (h : ls₁.filter (matters k) = ls₂.filter (matters k)) : core h₁ = core h₂ := by
  rw [matters_key] at h
  have hs := shownLike_self k
  have hkey : mattersKey k k = true := by unfold mattersKey; rw [hs]; rfl
  have hsp : spelling ls₁ k = spelling ls₂ k := by rw [← spelling_filter hkey ls₁, h, spelling_filter hkey ls₂]
  have hval : valuesOf ls₁ k = valuesOf ls₂ k := by rw [← valuesOf_filter hkey ls₁, h, valuesOf_filter hkey ls₂]
  have hv : (sent m.kind k ls₁).map (·.2) = (sent m.kind k ls₂).map (·.2) := by rw [sent_snd, sent_snd, hval]
  have hi : SameId (readHandler ⟨env, m, related⟩ ls₁ k) (readHandler ⟨env, m, related⟩ ls₂ k) := by
    unfold readHandler handlerFor
    rw [hsp]
    split
    · have a := fed_id ⟨env, m, related⟩ (spelling ls₂ k) (sent m.kind k ls₁)
      have b := fed_id ⟨env, m, related⟩ (spelling ls₂ k) (sent m.kind k ls₂)
      exact ⟨a.fid.trans b.fid.symm, a.wire.trans b.wire.symm, a.norm.trans b.norm.symm, a.canon.trans b.canon.symm, a.cat.trans b.cat.symm, a.ref.trans b.ref.symm⟩
    · exact .refl _
  unfold core
  refine Prod.ext (L₁.fid.trans L₂.fid.symm) (Prod.ext (L₁.canon.trans (hi.canon.trans L₂.canon.symm)) ?_)
  dsimp only
  rw [L₁.fid, L₂.fid]
  by_cases hb : (classOf k).info.kind = .broken
  · rw [if_pos hb, if_pos hb]
  · rw [if_neg hb, if_neg hb, L₁.value, L₂.value, hval]
    obtain ⟨c₁, d₁, _, e₁⟩ := L₁.from_
    obtain ⟨c₂, d₂, _, e₂⟩ := L₂.from_
    have hh : readHandler ⟨env, m, related⟩ ls₁ k = readHandler ⟨env, m, related⟩ ls₂ k := by
      unfold readHandler handlerFor
      rw [hsp]
      split
      · exact fedLines_moved _ (by rw [classOf_spelling k₂]; exact hb) hv
      · rfl
    have hq : h₁ = h₂ := by
      rw [e₁, e₂, hh]
      unfold finishIn
      exact finish_fst d₁ d₂ _ (by rw [readHandler_fid (c := ⟨env, m, related⟩) k₂]; exact hb) _
    rw [hq]

section
variable {env : Env} {related : Option Msg} {t : Bool} {ls₁ ls₂ : List Line} {m m₁ m₂ : Msg}

/-- two sections of the same lines, reordered, are alike -/
theorem section_alike (P₁ : Processed env related t ls₁ m m₁) (P₂ : Processed env related t ls₂ m m₂) (hu₁ : Unpadded ls₁)
    (h : ∀ n, ls₁.filter (matters n) = ls₂.filter (matters n)) : HeadAlike (m₁.section t) (m₂.section t) := by
  have hperm := lines_perm h
  have hmem : ∀ x, x ∈ namesOf ls₁ ↔ x ∈ namesOf ls₂ := by
    intro x
    rw [mem_namesOf, mem_namesOf]
    constructor
    · rintro ⟨l, hl, e⟩; exact ⟨l, hperm.mem_iff.1 hl, e⟩
    · rintro ⟨l, hl, e⟩; exact ⟨l, hperm.mem_iff.2 hl, e⟩
  have hnames : (namesOf ls₁).Perm (namesOf ls₂) := (List.perm_ext_iff_of_nodup (dedup_nodup _) (dedup_nodup _)).2 hmem
  obtain ⟨s₁, q₁⟩ := section_keyed P₁.linting P₁.new P₁.ok
  obtain ⟨s₂, q₂⟩ := section_keyed P₂.linting P₂.new P₂.ok
  have hsame : ∀ n ∈ namesOf ls₁, ∀ a b, dget (m₁.section t).handlers n = some a → dget (m₂.section t).handlers n = some b → core a = core b := by
    intro n hn a b ha hb
    obtain ⟨x, ex, L₁⟩ := q₁ n hn
    obtain ⟨y, ey, L₂⟩ := q₂ n ((hmem n).1 hn)
    rw [ha] at ex
    rw [hb] at ey
    obtain rfl := Option.some.inj ex
    obtain rfl := Option.some.inj ey
    exact L₁.same_core L₂ ((hmem n).1 hn) (h n)
  have absent : ∀ {d : Dict Handler} {n}, n ∉ d.map (·.1) → dget d n = none := by
    intro d n hn
    unfold dget
    rw [Option.map_eq_none_iff, List.find?_eq_none]
    intro p hp hh
    exact hn (List.mem_map.2 ⟨p, hp, by simpa using hh⟩)
  refine ⟨(C127_order P₁ P₂ hu₁ h).1, ?_, ?_, ?_⟩
  · have txt : ∀ {ls m'}, Processed env related t ls m m' → (m'.section t).text = (m.section t).text ++ ls.map fun l => (decodeName l.1, l.2) := by
      intro ls m' P
      obtain ⟨k, _, hk, ht, _⟩ := processSection_text env related t ls m
      rw [P.ok] at hk ht
      obtain rfl := hk rfl
      rw [List.take_length] at ht
      exact ht
    rw [txt P₁, txt P₂]
    exact List.Perm.append_left _ (hperm.map _)
  · intro n
    by_cases hn : n ∈ namesOf ls₁
    · obtain ⟨x, ex, _⟩ := q₁ n hn
      obtain ⟨y, ey, _⟩ := q₂ n ((hmem n).1 hn)
      rw [ex, ey, Option.map_some, Option.map_some, hsame n hn x y ex ey]
    · rw [absent (by rw [s₁]; exact hn), absent (by rw [s₂]; exact fun hh => hn ((hmem n).2 hh))]
  · let H : Dict Handler → Str → Handler := fun d n => (dget d n).getD (mkHandler .unknownField [])
    have vals : ∀ {ls} {d : Dict Handler}, (namesOf ls).Nodup → d.map (·.1) = namesOf ls → (∀ n ∈ namesOf ls, ∃ hd, dget d n = some hd) →
        d.map (·.2) = (namesOf ls).map (H d) := by
      intro ls d hn hk hg
      refine dict_values hn hk fun k hk => ?_
      obtain ⟨x, ex⟩ := hg k hk
      show _ = some ((dget d k).getD _)
      rw [ex]; rfl
    have e : ∀ d : Dict Handler, (d.map fun p => core p.2) = (d.map (·.2)).map core := fun d => by rw [List.map_map]; rfl
    rw [e, e, vals (dedup_nodup _) s₁ (fun n hn => (q₁ n hn).imp fun _ x => x.1), vals (dedup_nodup _) s₂ (fun n hn => (q₂ n hn).imp fun _ x => x.1), List.map_map, List.map_map]
    have hc : (namesOf ls₁).map (core ∘ H (m₁.section t).handlers) = (namesOf ls₁).map (core ∘ H (m₂.section t).handlers) := by
      refine List.map_congr_left fun n hn => ?_
      obtain ⟨x, ex, _⟩ := q₁ n hn
      obtain ⟨y, ey, _⟩ := q₂ n ((hmem n).1 hn)
      show core ((dget _ n).getD _) = core ((dget _ n).getD _)
      rw [ex, ey]
      exact hsame n hn x y ex ey
    rw [hc]
    exact hnames.map _

/-! ### the whole -/

/-- the content and the end of a message -/
def afterHeaders : Op → Bool
  | .feed _ => true
  | .finish _ _ => true
  | _ => false

/-- no policies in the trailers -/
def NoLatePolicies (ops : List Op) : Prop := ∀ co ts, Op.finish co ts ∈ ops → NoCsp ts

/-- the two linters know the same but for the order of the headers and the notes -/
structure SameButOrder (a b : World) : Prop where
  related : b.related = a.related
  attributes : b.msg = { a.msg with notes := b.msg.notes, headers := b.msg.headers }
  parsed : ∀ n, dget b.msg.headers.parsed n = dget a.msg.headers.parsed n
  text : b.msg.headers.text.Perm a.msg.headers.text

theorem calls_step {p : Note → Note} (hp : ∀ n, (p n).cls = n.cls) (rest : List Op) : ∀ {m m' : Msg} {w₁ : World} {rel} (_ : Step p m m') (_ : Choice env p m)
    (_ : ∀ op ∈ rest, afterHeaders op = true) (_ : p = brief ∨ NoLatePolicies rest) (_ : RunsTo env rest ⟨m, rel⟩ w₁),
    ∃ w₂, RunsTo env rest ⟨m', rel⟩ w₂ ∧ w₂.related = w₁.related ∧ Step p w₁.msg w₂.msg := by
  induction rest with
  | nil =>
    intro m m' w₁ rel s _ _ _ h
    obtain rfl : (⟨m, rel⟩ : World) = w₁ := h
    exact ⟨⟨m', rel⟩, rfl, rfl, s⟩
  | cons op rest ih =>
    intro m m' w₁ rel s hc ho hn h
    obtain ⟨x, hx, hr⟩ := h
    have ho' : ∀ op ∈ rest, afterHeaders op = true := fun o ho' => ho o (List.mem_cons_of_mem _ ho')
    have hn' : p = brief ∨ NoLatePolicies rest := hn.imp_right fun hn co ts ho' => hn co ts (List.mem_cons_of_mem _ ho')
    have hop := ho op (List.mem_cons_self ..)
    cases op with
    | requestTopline _ _ _ => exact nomatch hop
    | responseTopline _ _ _ => exact nomatch hop
    | headers _ => exact nomatch hop
    | feed chunk =>
      have st := feedContent_step (env := env) s chunk
      have keep : (m.feedContent env chunk).1.headers = m.headers ∧ (m.feedContent env chunk).1.trailers = m.trailers := by have := feedContent_sections env chunk m; exact ⟨this.1, this.2.1⟩
      unfold Op.run at hx
      dsimp only at hx
      generalize hq : m.feedContent env chunk = q at hx st keep
      generalize hq' : m'.feedContent env chunk = q' at st
      obtain ⟨y, o⟩ := q
      obtain ⟨y', o'⟩ := q'
      obtain ⟨s1, e1⟩ := st
      dsimp only at hx s1 e1 keep
      rw [Prod.mk.injEq] at hx
      obtain ⟨rfl, rfl⟩ := hx
      subst e1
      obtain ⟨w₂, r2, r3, r4⟩ := ih s1 (by unfold Choice; rw [keep.1, keep.2]; exact hc) ho' hn' hr
      refine ⟨w₂, ⟨⟨y', rel⟩, ?_, r2⟩, r3, r4⟩
      unfold Op.run
      dsimp only
      rw [hq']
    | finish co ts =>
      have hts : p = brief ∨ NoCsp ts := hn.imp_right fun hn => hn co ts (List.mem_cons_self ..)
      unfold Op.run at hx
      dsimp only at hx
      generalize hq : m.finishContent env rel co ts = q at hx
      obtain ⟨⟨y, o⟩, rn⟩ := q
      dsimp only at hx
      rw [Prod.mk.injEq] at hx
      obtain ⟨rfl, rfl⟩ := hx
      obtain ⟨y', e1, s1, k1⟩ := finish_step hp s hc co hts hq
      obtain ⟨w₂, r2, r3, r4⟩ := ih s1 k1 ho' hn' hr
      refine ⟨w₂, ⟨⟨y', rel.map (·.addNotes rn)⟩, ?_, r2⟩, r3, r4⟩
      unfold Op.run
      dsimp only
      rw [e1]

theorem headers_run {ls : List Line} {rel} {x : World} (h : (Op.headers ls).run env ⟨m, rel⟩ = (x, .ok ())) :
    ∃ m₁, processSection env rel false ls m = (m₁, .ok ()) ∧ m₁.setCharset env = (x.msg, .ok ()) ∧ x.related = rel := by
  unfold Op.run Msg.processHeaders at h
  dsimp only at h
  generalize hq : processSection env rel false ls m = q at h
  obtain ⟨y, o⟩ := q
  cases o with
  | error e => exact absurd (congrArg (·.2) h) (fun hh => nomatch hh)
  | ok u =>
    unfold Run.andThen at h
    dsimp only at h
    rw [Prod.mk.injEq] at h
    obtain ⟨rfl, h2⟩ := h
    exact ⟨y, rfl, Prod.ext rfl h2, rfl⟩

theorem order_run {p : Note → Note} (hp : ∀ n, (p n).cls = n.cls) (hpu : ∀ x y, unnumbered x = unnumbered y → p x = p y) {rel : Option Msg} {rest : List Op} {w₁ x : World}
    (hm : Linting env m) (hnew : m.headers.handlers = []) (hu : Unpadded ls₁) (h : ∀ n, ls₁.filter (matters n) = ls₂.filter (matters n))
    (hc : p = brief ∨ NoCsp ls₁ ∧ (m.headers.text = [] ∧ m.trailers.text = []) ∧ NoLatePolicies rest)
    (ho : ∀ op ∈ rest, afterHeaders op = true) (h₁ : RunsTo env (.headers ls₁ :: rest) ⟨m, rel⟩ w₁) (h₂ : RunsTo env [.headers ls₂] ⟨m, rel⟩ x) :
    ∃ w₂, RunsTo env (.headers ls₂ :: rest) ⟨m, rel⟩ w₂ ∧ SameButOrder w₁ w₂ ∧ (w₁.msg.notes.map p).Perm (w₂.msg.notes.map p) := by
  obtain ⟨x₁, a₁, hr⟩ := h₁
  obtain ⟨x₂, a₂, rfl⟩ := h₂
  obtain ⟨m₁, b₁, c₁, d₁⟩ := headers_run a₁
  obtain ⟨m₂, b₂, c₂, d₂⟩ := headers_run a₂
  have P₁ : Processed env rel false ls₁ m m₁ := ⟨hm, hnew, b₁⟩
  have P₂ : Processed env rel false ls₂ m m₂ := ⟨hm, hnew, b₂⟩
  have e₁ : Ext false m m₁ := by have := processSection_ext env rel false ls₁ m; rwa [b₁] at this
  have e₂ : Ext false m m₂ := by have := processSection_ext env rel false ls₂ m; rwa [b₂] at this
  have hal := section_alike P₁ P₂ hu h
  obtain ⟨_, hperm⟩ := C127_order P₁ P₂ hu h
  have f : ∃ g : Note → Note, ∀ y, p y = g (unnumbered y) := by
    classical
    refine ⟨fun z => if e : ∃ y, unnumbered y = z then p e.choose else z, fun y => ?_⟩
    have e : ∃ y', unnumbered y' = unnumbered y := ⟨y, rfl⟩
    dsimp only
    rw [dif_pos e]
    exact (hpu _ _ e.choose_spec).symm
  obtain ⟨g, hg⟩ := f
  have hst : Step p m₁ m₂ := by
    obtain ⟨ns₁, s₁, rfl⟩ := e₁
    obtain ⟨ns₂, s₂, rfl⟩ := e₂
    refine ⟨⟨rfl, hal⟩, ?_⟩
    unfold addedTo at hperm
    change ((m.notes ++ ns₁).map p).Perm ((m.notes ++ ns₂).map p)
    change (((m.notes ++ ns₁).drop m.notes.length).map unnumbered).Perm (((m.notes ++ ns₂).drop m.notes.length).map unnumbered) at hperm
    rw [List.drop_left, List.drop_left] at hperm
    have := hperm.map g
    rw [List.map_map, List.map_map, show g ∘ unnumbered = p from funext fun y => (hg y).symm] at this
    rw [List.map_append, List.map_append]
    exact this.append_left _
  have hcs := setCharset_step (env := env) hst
  rw [c₁, c₂] at hcs
  have hch : Choice env p x₁.msg := by
    refine hc.imp_right fun ⟨hn, ht, _⟩ => ?_
    have same : ∀ a : Msg, (a.setCharset env).1.headers = a.headers ∧ (a.setCharset env).1.trailers = a.trailers := by
      intro a
      obtain ⟨ce, e⟩ := setCharset_same env a
      rw [e]
      exact ⟨rfl, rfl⟩
    have q := same m₁
    rw [c₁] at q
    dsimp only at q
    rw [q.1, q.2]
    constructor
    · have := Clear.processed (rel := rel) (t := false) hn ⟨(hm.ready false).ids, by show ∀ q ∈ m.headers.text, _; rw [ht.1]; exact fun q hq => nomatch hq⟩
      rw [b₁] at this
      exact this
    · have := ext_other e₁
      change m₁.trailers = m.trailers at this
      rw [this]
      exact ⟨(hm.ready true).ids, by rw [ht.2]; exact fun q hq => nomatch hq⟩
  obtain ⟨w₂, r1, r2, r3⟩ := calls_step hp rest hcs.m hch ho (hc.imp_right fun h => h.2.2) (show RunsTo env rest ⟨x₁.msg, rel⟩ w₁ by rw [← d₁]; exact hr)
  refine ⟨w₂, ⟨x₂, a₂, by have := r1; rw [← d₂] at this; exact this⟩, ⟨r2, r3.re.eq, fun n => (r3.re.head.parsed n).symm, r3.re.head.text.symm⟩, r3.notes⟩

/-- **C128**: a message whose headers come in another order, which agrees on the lines that matter to each field, ends the same --
attributes, verdicts on caching, decoded content, the notes added to the related request -- but for the order of the headers and of
the notes, the numbers of lines and the sub-notes that tell of missing endpoints. (Missing: which note these are under;
`C128_order_fails`.) -/
theorem C128_order_partial {rel : Option Msg} {rest : List Op} {w₁ x : World} (hm : Linting env m) (hnew : m.headers.handlers = []) (hu : Unpadded ls₁)
    (h : ∀ n, ls₁.filter (matters n) = ls₂.filter (matters n)) (ho : ∀ op ∈ rest, afterHeaders op = true)
    (h₁ : RunsTo env (.headers ls₁ :: rest) ⟨m, rel⟩ w₁) (h₂ : RunsTo env [.headers ls₂] ⟨m, rel⟩ x) :
    ∃ w₂, RunsTo env (.headers ls₂ :: rest) ⟨m, rel⟩ w₂ ∧ SameButOrder w₁ w₂ ∧ (w₁.msg.notes.map brief).Perm (w₂.msg.notes.map brief) := by
  refine order_run (p := brief) (fun _ => rfl) (fun x y e => ?_) hm hnew hu h (.inl rfl) ho h₁ h₂
  unfold brief
  rw [e]

/-- **C128**: … with the sub-notes, when neither of the two Content-Security-Policy fields was sent -/
theorem C128_sub_notes {rel : Option Msg} {rest : List Op} {w₁ x : World} (hm : Linting env m) (hnew : m.headers.handlers = []) (ht : m.headers.text = [] ∧ m.trailers.text = [])
    (hu : Unpadded ls₁) (hcsp : NoCsp ls₁) (hlate : NoLatePolicies rest)
    (h : ∀ n, ls₁.filter (matters n) = ls₂.filter (matters n)) (ho : ∀ op ∈ rest, afterHeaders op = true)
    (h₁ : RunsTo env (.headers ls₁ :: rest) ⟨m, rel⟩ w₁) (h₂ : RunsTo env [.headers ls₂] ⟨m, rel⟩ x) :
    ∃ w₂, RunsTo env (.headers ls₂ :: rest) ⟨m, rel⟩ w₂ ∧ SameButOrder w₁ w₂ ∧ (w₁.msg.notes.map unnumbered).Perm (w₂.msg.notes.map unnumbered) :=
  order_run (p := unnumbered) (fun _ => rfl) (fun _ _ e => e) hm hnew hu h (.inr ⟨hcsp, ht, hlate⟩) ho h₁ h₂

end

end HL.Props
