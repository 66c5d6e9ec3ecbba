import Verif.Props.CaseThm
import Verif.Props.Typing

/-!
# C12: the case of names does not matter, over a whole exchange
-/

namespace HL.Props
open HL.F

/-! ### specification -/

/-- the same call with letters of field names in other cases -/
def RecasedOp : Op → Op → Prop
  | .headers ls, .headers ls' => RecasedLines ls ls'
  | .finish c ts, .finish c' ts' => c = c' ∧ RecasedLines ts ts'
  | a, b => a = b

/-- call by call -/
def RecasedOps : List Op → List Op → Prop
  | [], [] => True
  | a :: as, b :: bs => RecasedOp a b ∧ RecasedOps as bs
  | _, _ => False

section
variable {env : Env} {m m' : Msg} {rel : Option Msg}

theorem MRel.ex (mr : MRel m m') : ∃ ns t d t2 d2, m' = { m with notes := ns, headers := { m.headers with text := t, handlers := d }, trailers := { m.trailers with text := t2, handlers := d2 } } := by
  refine ⟨m'.notes, m'.headers.text, m'.headers.handlers, m'.trailers.text, m'.trailers.handlers, ?_⟩
  rw [← mr.head.eq, ← mr.trail.eq]
  exact mr.eq

theorem SRel.names {s s'} (r : SRel s s') : s'.names = s.names := by
  have := congrArg (List.map Prod.fst) r.text
  unfold Section.names
  simp only [List.map_map] at this
  exact this.symm

theorem cacheInputs_rel (mr : MRel m m') : cacheInputs ⟨env, m', rel⟩ = cacheInputs ⟨env, m, rel⟩ := by
  have hn := mr.head.names
  obtain ⟨ns, t, d, t2, d2, rfl⟩ := mr.ex
  unfold cacheInputs
  dsimp only at hn ⊢
  rw [hn]
  rfl

theorem cacheCheck_rel (mr : MRel m m') : cacheCheck ⟨env, m', rel⟩ = cacheCheck ⟨env, m, rel⟩ := by
  unfold cacheCheck
  rw [cacheInputs_rel mr]

theorem status_rel (mr : MRel m m') : Status.check ⟨env, m', rel⟩ = Status.check ⟨env, m, rel⟩ := by
  obtain ⟨ns, t, d, t2, d2, rfl⟩ := mr.ex
  rfl

theorem verifyContentType_rel (mr : MRel m m') : verifyContentType ⟨env, m', rel⟩ = verifyContentType ⟨env, m, rel⟩ := by
  obtain ⟨ns, t, d, t2, d2, rfl⟩ := mr.ex
  rfl

theorem verifyCharset_rel (mr : MRel m m') : verifyCharset ⟨env, m', rel⟩ = verifyCharset ⟨env, m, rel⟩ := by
  obtain ⟨ns, t, d, t2, d2, rfl⟩ := mr.ex
  rfl

theorem requestPost_rel (mr : MRel m m') : requestPostChecks env rel m' = requestPostChecks env rel m := by
  obtain ⟨ns, t, d, t2, d2, rfl⟩ := mr.ex
  rfl

theorem badPreflight_rel {s s'} (r : SRel s s') : ∀ fs,
    (∃ e, badPreflightHeaders s fs = .error e ∧ badPreflightHeaders s' fs = .error e) ∨
    ∃ a b, badPreflightHeaders s fs = .ok a ∧ badPreflightHeaders s' fs = .ok b ∧ a.length = b.length
  | [] => .inr ⟨_, _, rfl, rfl, rfl⟩
  | f :: fs => by
    unfold badPreflightHeaders
    rw [r.parsed]
    split
    · rcases r.hs.get f with ⟨h1, h2⟩ | ⟨h, h', h1, h2, hr⟩
      · rw [h1, h2]; exact .inl ⟨_, rfl, rfl⟩
      · rw [h1, h2]
        dsimp only
        rcases badPreflight_rel r fs with ⟨e, h3, h4⟩ | ⟨a, b, h3, h4, hl⟩
        · rw [h3, h4]; exact .inl ⟨_, rfl, rfl⟩
        · rw [h3, h4]; exact .inr ⟨_, _, rfl, rfl, by simp [hl]⟩
    · exact badPreflight_rel r fs

theorem isEmpty_len {α β} {a : List α} {b : List β} (h : a.length = b.length) : a.isEmpty = b.isEmpty := by
  cases a <;> cases b <;> simp at h ⊢

theorem preflightResponse_rel (mr : MRel m m') (add : AddNote) :
    Sim true (checkPreflightResponse ⟨env, m, rel⟩ add) (checkPreflightResponse ⟨env, m', rel⟩ add) := by
  unfold checkPreflightResponse
  dsimp only
  rw [mr.head.parsed]
  rw [show (⟨env, m', rel⟩ : Ctx).request = (⟨env, m, rel⟩ : Ctx).request from rfl]
  apply sim_ite
  · exact .refl _
  · rcases badPreflight_rel mr.head preflightOnly with ⟨e, h1, h2⟩ | ⟨a, b, h1, h2, hl⟩
    · rw [h1, h2]; exact .refl _
    · rw [h1, h2]
      show Sim true (W.bind ⟨[], .ok a⟩ _) (W.bind ⟨[], .ok b⟩ _)
      show Sim true (prefixNotes [] _) (prefixNotes [] _)
      apply sim_prefix rfl
      dsimp only
      rw [isEmpty_len hl]
      exact sim_bind (sim_when (sim_add (addSim_on _ _ _))) fun _ => .refl _

theorem runW_rel {α} (mr : MRel m m') {w w' : W α} (h : Sim true w w') : RunRel (m.runW w) (m'.runW w') :=
  ⟨mr.addNotes h.notes, h.res⟩

theorem andThen_rel {α β} {r r' : Run α} (h : RunRel r r') {f f' : Msg → α → Run β}
    (hf : ∀ {x x'} (_ : MRel x x') (a : α), RunRel (f x a) (f' x' a)) : RunRel (r.andThen f) (r'.andThen f') := by
  obtain ⟨x, y⟩ := r
  obtain ⟨x', y'⟩ := r'
  obtain ⟨hm, hr⟩ := h
  dsimp only at hm hr
  subst hr
  cases y with
  | error e => exact ⟨hm, rfl⟩
  | ok a => exact hf hm a

theorem adder_eq (mr : MRel m m') (x b) : m'.adder x b = m.adder x b := by unfold Msg.adder; rw [mr.defaults]

theorem postChecks_rel (mr : MRel m m') : RunRel (postChecks env rel m).1 (postChecks env rel m').1 ∧
    (postChecks env rel m).2 = (postChecks env rel m').2 := by
  unfold postChecks
  rw [mr.kind]
  split
  · refine ⟨runW_rel mr ?_, rfl⟩
    rw [requestPost_rel mr]; exact .refl _
  · unfold responsePostChecks
    rw [adder_eq mr]
    have h1 := runW_rel mr (preflightResponse_rel (env := env) (rel := rel) mr (m.adder []))
    generalize m.runW _ = p at *
    generalize m'.runW _ = p' at *
    obtain ⟨x, y⟩ := p
    obtain ⟨x', y'⟩ := p'
    obtain ⟨hm, hr⟩ := h1
    dsimp only at hm hr
    subst hr
    cases y with
    | error e => exact ⟨⟨hm, rfl⟩, rfl⟩
    | ok u =>
      dsimp only
      rw [cacheCheck_rel hm]
      generalize cacheCheck ⟨env, x, rel⟩ = q
      obtain ⟨cs, w, rq⟩ := q
      dsimp only
      refine ⟨?_, rfl⟩
      have hm2 : MRel (match cs with | some st => { x with caching := some st } | none => x)
          (match cs with | some st => { x' with caching := some st } | none => x') := by
        cases cs with
        | none => exact hm
        | some st => exact ⟨by rw [hm.eq], hm.notes, hm.head, hm.trail⟩
      generalize (match cs with | some st => { x with caching := some st } | none => x : Msg) = y at *
      generalize (match cs with | some st => { x' with caching := some st } | none => x' : Msg) = y' at *
      refine andThen_rel (runW_rel hm2 (.refl _)) fun {a a'} ha _ => ?_
      refine andThen_rel (runW_rel ha (by rw [status_rel ha]; exact .refl _)) fun {b b'} hb _ => ?_
      rw [show b'.noContent = b.noContent by rw [hb.eq]]
      split
      · exact ⟨hb, rfl⟩
      · refine andThen_rel (runW_rel hb (by rw [verifyContentType_rel hb]; exact .refl _)) fun {d d'} hd _ => ?_
        exact runW_rel hd (by rw [verifyCharset_rel hd]; exact .refl _)

theorem lengthNotes_rel (mr : MRel m m') : lengthNotes m' = lengthNotes m := by
  obtain ⟨ns, t, d, t2, d2, rfl⟩ := mr.ex
  rfl

/-! ### post checks of fields -/

theorem appendW_rel {ns ns' : List Note} (h : ns.map (noteKey true) = ns'.map (noteKey true)) {w w' : W Unit} (e : w' = w) :
    (appendW ns w).1.map (noteKey true) = (appendW ns' w').1.map (noteKey true) ∧ (appendW ns w).2 = (appendW ns' w').2 := by
  subst e
  exact ⟨map_append_key h rfl, rfl⟩

theorem addToFirst_rel (kid : NoteId × Dict Val) : ∀ {ns ns' : List Note} (_ : ns.map (noteKey true) = ns'.map (noteKey true)),
    (addToFirstCsp kid ns = none ∧ addToFirstCsp kid ns' = none) ∨
    ∃ a b, addToFirstCsp kid ns = some a ∧ addToFirstCsp kid ns' = some b ∧ a.map (noteKey true) = b.map (noteKey true)
  | [], [], _ => .inl ⟨rfl, rfl⟩
  | [], _ :: _, h => by simp at h
  | _ :: _, [], h => by simp at h
  | n :: ns, n' :: ns', h => by
    rw [List.map_cons, List.map_cons, List.cons.injEq] at h
    unfold addToFirstCsp
    have hc : n.cls = n'.cls := congrArg Prod.fst h.1
    rw [← hc]
    split
    · refine .inr ⟨_, _, rfl, rfl, ?_⟩
      rw [List.map_cons, List.map_cons, h.2]
      have := noteKey_addKids h.1 [kid] [kid] rfl
      simp only [List.foldl_cons, List.foldl_nil] at this
      rw [this]
    · rcases addToFirst_rel kid h.2 with ⟨h1, h2⟩ | ⟨a, b, h1, h2, hk⟩
      · rw [h1, h2]; exact .inl ⟨rfl, rfl⟩
      · rw [h1, h2]; exact .inr ⟨_, _, rfl, rfl, by rw [List.map_cons, List.map_cons, h.1, hk]⟩

theorem cspFold_rel (add : AddNote) (ro : ReportOnly) (ms : List Str) : ∀ {ns ns' : List Note} (_ : ns.map (noteKey true) = ns'.map (noteKey true)),
    (ms.foldl (fun ns e =>
        let vars : Dict Val := [(str "endpoint", .str e), (str "report_only_text", .str ro.text)]
        match addToFirstCsp (.CSP_REPORT_TO_MISSING, vars) ns with
        | some ns' => ns'
        | none => ns ++ [add.mk1 .CSP_REPORT_TO_MISSING vars]) ns).map (noteKey true) =
    (ms.foldl (fun ns e =>
        let vars : Dict Val := [(str "endpoint", .str e), (str "report_only_text", .str ro.text)]
        match addToFirstCsp (.CSP_REPORT_TO_MISSING, vars) ns with
        | some ns' => ns'
        | none => ns ++ [add.mk1 .CSP_REPORT_TO_MISSING vars]) ns').map (noteKey true) := by
  induction ms with
  | nil => intro ns ns' h; exact h
  | cons e ms ih =>
    intro ns ns' h
    rw [List.foldl_cons, List.foldl_cons]
    apply ih
    dsimp only
    rcases addToFirst_rel (.CSP_REPORT_TO_MISSING, [(str "endpoint", .str e), (str "report_only_text", .str ro.text)]) h with ⟨h1, h2⟩ | ⟨a, b, h1, h2, hk⟩
    · rw [h1, h2]; exact map_append_key h rfl
    · rw [h1, h2]; exact hk

theorem cspPost_rel (mr : MRel m m') (add : AddNote) (ro : ReportOnly) (h : Handler) (w n : Str) {ns ns' : List Note}
    (hn : ns.map (noteKey true) = ns'.map (noteKey true)) :
    (csp.postCheck ⟨env, m, rel⟩ add ro h ns).1.map (noteKey true) = (csp.postCheck ⟨env, m', rel⟩ add ro (respell h w n) ns').1.map (noteKey true) ∧
    (csp.postCheck ⟨env, m, rel⟩ add ro h ns).2 = (csp.postCheck ⟨env, m', rel⟩ add ro (respell h w n) ns').2 := by
  unfold csp.postCheck
  have e : csp.missingEndpoints ⟨env, m', rel⟩ (respell h w n) = csp.missingEndpoints ⟨env, m, rel⟩ h := by
    obtain ⟨ns, t, d, t2, d2, rfl⟩ := mr.ex
    rfl
  rw [e, show (respell h w n).value = h.value from rfl]
  split
  · exact ⟨hn, rfl⟩
  · split
    · exact ⟨hn, rfl⟩
    · exact ⟨cspFold_rel add ro _ hn, rfl⟩

theorem acceptChMissing_rel {c c' : Ctx} (he : c'.env = c.env) (vary : Val) : ∀ is, accept_ch.missing c' vary is = accept_ch.missing c vary is
  | [] => rfl
  | i :: is => by
    unfold accept_ch.missing
    simp only [acceptChMissing_rel he vary is, he]

theorem acceptCh_rel (mr : MRel m m') (add : AddNote) (h : Handler) (w n : Str) :
    accept_ch.postCheck ⟨env, m', rel⟩ add (respell h w n) = accept_ch.postCheck ⟨env, m, rel⟩ add h := by
  unfold accept_ch.postCheck storable
  dsimp only
  rw [mr.head.parsed, show m'.caching = m.caching by rw [mr.eq]]
  simp only [acceptChMissing_rel (c := ⟨env, m, rel⟩) (c' := ⟨env, m', rel⟩) rfl]
  rfl

theorem postCheck_rel (mr : MRel m m') {h h'} (r : HRel h h') {a a'} (ha : AddRel h.fid a a') {ns ns' : List Note}
    (hn : ns.map (noteKey true) = ns'.map (noteKey true)) :
    (h.postCheck ⟨env, m, rel⟩ a ns).1.map (noteKey true) = (h'.postCheck ⟨env, m', rel⟩ a' ns').1.map (noteKey true) ∧
    (h.postCheck ⟨env, m, rel⟩ a ns).2 = (h'.postCheck ⟨env, m', rel⟩ a' ns').2 := by
  by_cases hc : h.fid.info.canonicalName = none
  · have e : ∀ (c : Ctx) (add : AddNote) (k : Handler) (l : List Note), k.fid.info.canonicalName = none → k.postCheck c add l = (l, .ok ()) := by
      intro c add k l hk
      unfold Handler.postCheck
      split <;> first | rfl | (rename_i hf; rw [hf] at hk; exact nomatch hk)
    rw [e _ _ _ _ hc, e _ _ _ _ (by rw [r.fid]; exact hc)]
    exact ⟨hn, rfl⟩
  · rw [← ha.named hc]
    obtain ⟨w, n, rfl⟩ := r.ex
    unfold Handler.postCheck
    rw [show (respell h w n).fid = h.fid from rfl]
    split
    all_goals first
      | exact cspPost_rel mr _ _ _ _ _ hn
      | exact ⟨hn, rfl⟩
      | (refine appendW_rel hn ?_; obtain ⟨ns, t, d, t2, d2, rfl⟩ := mr.ex; rfl)
      | exact appendW_rel hn (acceptCh_rel mr _ _ _ _)

/-- handlers in step -/
theorem postCheckHandlers_rel (t : Bool) {d d' : Dict Handler} (r : HsRel d d') : ∀ {m m' : Msg} (_ : MRel m m'),
    RunRel (postCheckHandlers env rel t (d.map (·.2)) m) (postCheckHandlers env rel t (d'.map (·.2)) m') := by
  induction r with
  | nil => intro m m' mr; exact ⟨mr, rfl⟩
  | cons k r s ih =>
    intro m m' mr
    rename_i h h' d d'
    rw [List.map_cons, List.map_cons]
    unfold postCheckHandlers
    dsimp only
    rw [r.value]
    split
    · exact ih mr
    · have := postCheck_rel (env := env) (rel := rel) mr r (fieldAdder_rel mr t r) mr.notes
      generalize h.postCheck _ _ _ = p at *
      generalize h'.postCheck _ _ _ = p' at *
      obtain ⟨l, y⟩ := p
      obtain ⟨l', y'⟩ := p'
      obtain ⟨hl, hr⟩ := this
      dsimp only at hl hr ⊢
      subst hr
      have hm : MRel { m with notes := l } { m' with notes := l' } := ⟨by rw [mr.eq], hl, mr.head, mr.trail⟩
      cases y with
      | error e => exact ⟨hm, rfl⟩
      | ok u => exact ih hm

theorem finishContent_rel (mr : MRel m m') (c : Bool) {ts ts'} (hl : RecasedLines ts ts') :
    RunRel (m.finishContent env rel c ts).1 (m'.finishContent env rel c ts').1 ∧
      (m.finishContent env rel c ts).2 = (m'.finishContent env rel c ts').2 := by
  unfold Msg.finishContent
  have h0 : MRel { m with complete := c, contentHash := some (env.md5 m.hashed) } { m' with complete := c, contentHash := some (env.md5 m'.hashed) } :=
    ⟨by rw [mr.eq], mr.notes, mr.head, mr.trail⟩
  dsimp only
  generalize ({ m with complete := c, contentHash := some (env.md5 m.hashed) } : Msg) = x0 at *
  generalize ({ m' with complete := c, contentHash := some (env.md5 m'.hashed) } : Msg) = x0' at *
  have h1 : RunRel (if ts.isEmpty then (x0, .ok ()) else processSection env rel true ts x0 : Run Unit)
      (if ts'.isEmpty then (x0', .ok ()) else processSection env rel true ts' x0' : Run Unit) := by
    have he : ts.isEmpty = ts'.isEmpty := by
      cases ts <;> cases ts' <;> first | rfl | exact hl.elim
    rw [he]
    split
    · exact ⟨h0, rfl⟩
    · exact processSection_rel h0 true hl
  generalize (if ts.isEmpty then (x0, .ok ()) else processSection env rel true ts x0 : Run Unit) = p at *
  generalize (if ts'.isEmpty then (x0', .ok ()) else processSection env rel true ts' x0' : Run Unit) = p' at *
  obtain ⟨x, y⟩ := p
  obtain ⟨x', y'⟩ := p'
  obtain ⟨hm, hr⟩ := h1
  dsimp only at hm hr
  subst hr
  cases y with
  | error e => exact ⟨⟨hm, rfl⟩, rfl⟩
  | ok u =>
    dsimp only
    have h2 : MRel { x with decoded := { x.decoded with hash := some (env.md5 x.decoded.hashed) } } { x' with decoded := { x'.decoded with hash := some (env.md5 x'.decoded.hashed) } } :=
      ⟨by rw [hm.eq], hm.notes, hm.head, hm.trail⟩
    generalize ({ x with decoded := { x.decoded with hash := some (env.md5 x.decoded.hashed) } } : Msg) = z at *
    generalize ({ x' with decoded := { x'.decoded with hash := some (env.md5 x'.decoded.hashed) } } : Msg) = z' at *
    have h3 : MRel (z.addNotes (lengthNotes z)) (z'.addNotes (lengthNotes z')) := h2.addNotes (by rw [lengthNotes_rel h2])
    generalize z.addNotes (lengthNotes z) = v at *
    generalize z'.addNotes (lengthNotes z') = v' at *
    obtain ⟨h4, h5⟩ := postChecks_rel (env := env) (rel := rel) h3
    generalize postChecks env rel v = q at *
    generalize postChecks env rel v' = q' at *
    refine ⟨?_, h5⟩
    refine andThen_rel h4 fun {a a'} ha _ => ?_
    refine andThen_rel (postCheckHandlers_rel false ha.head.hs ha) fun {b b'} hb _ => ?_
    exact postCheckHandlers_rel true hb.trail.hs hb

theorem MRel.same {f : Msg → Msg} (mr : MRel m m')
    (hf : ∀ m : Msg, ∀ ns hd tr, f { m with notes := ns, headers := hd, trailers := tr } = { f m with notes := ns, headers := hd, trailers := tr })
    (hn : ∀ m : Msg, (f m).notes = m.notes ∧ (f m).headers = m.headers ∧ (f m).trailers = m.trailers) : MRel (f m) (f m') := by
  refine ⟨?_, by rw [(hn m).1, (hn m').1]; exact mr.notes, by rw [(hn m).2.1, (hn m').2.1]; exact mr.head, by rw [(hn m).2.2, (hn m').2.2]; exact mr.trail⟩
  conv => lhs; rw [mr.eq, hf]
  rw [(hn m').1, (hn m').2.1, (hn m').2.2]

theorem sink_rel (cs : List Str) : ∀ {m m' : Msg} (_ : MRel m m'), MRel (cs.foldl Msg.sink m) (cs.foldl Msg.sink m') := by
  induction cs with
  | nil => intro m m' mr; exact mr
  | cons c cs ih =>
    intro m m' mr
    rw [List.foldl_cons, List.foldl_cons]
    exact ih ⟨by unfold Msg.sink; rw [mr.eq], mr.notes, mr.head, mr.trail⟩

theorem feedContent_rel (mr : MRel m m') (chunk : Str) : RunRel (m.feedContent env chunk) (m'.feedContent env chunk) := by
  unfold Msg.feedContent
  have h0 : MRel { m with contentLength := m.contentLength + chunk.length } { m' with contentLength := m'.contentLength + chunk.length } :=
    ⟨by rw [mr.eq], mr.notes, mr.head, mr.trail⟩
  dsimp only
  have hnc : m'.noContent = m.noContent := by rw [mr.eq]
  by_cases hno : m.noContent = true
  · rw [if_pos hno, if_pos (hnc.trans hno)]; exact ⟨h0, rfl⟩
  · rw [if_neg hno, if_neg (by rw [hnc]; exact hno)]
    have h1 : MRel { m with contentLength := m.contentLength + chunk.length, hashed := m.hashed ++ chunk } { m' with contentLength := m'.contentLength + chunk.length, hashed := m'.hashed ++ chunk } :=
      ⟨by rw [mr.eq], mr.notes, mr.head, mr.trail⟩
    generalize ({ m with contentLength := m.contentLength + chunk.length, hashed := m.hashed ++ chunk } : Msg) = x at *
    generalize ({ m' with contentLength := m'.contentLength + chunk.length, hashed := m'.hashed ++ chunk } : Msg) = x' at *
    unfold Msg.decodeFeed
    have e1 : x'.decoders = x.decoders := by
      obtain ⟨ns, t, d, t2, d2, rfl⟩ := h1.ex
      rfl
    rw [e1, show x'.decoded = x.decoded by rw [h1.eq], h1.defaults, show x'.contentLength = x.contentLength by rw [h1.eq]]
    split
    · exact ⟨h1, rfl⟩
    · split
      · exact ⟨⟨by rw [h1.eq], h1.notes, h1.head, h1.trail⟩, rfl⟩
      · rename_i p _
        dsimp only
        have h2 := sink_rel (feedPipe ⟨env, x.defaults, x.contentLength⟩ p.length p chunk).out
          (h1.addNotes (ns := (feedPipe ⟨env, x.defaults, x.contentLength⟩ p.length p chunk).notes) rfl)
        generalize List.foldl Msg.sink (x.addNotes _) _ = y at *
        generalize List.foldl Msg.sink (x'.addNotes _) _ = y' at *
        exact ⟨⟨by rw [h2.eq], h2.notes, h2.head, h2.trail⟩, rfl⟩

theorem setUri_rel (mr : MRel m m') (iri) : RunRel (m.setUri env iri) (m'.setUri env iri) := by
  unfold Msg.setUri
  have h0 : MRel { m with iri := some iri } { m' with iri := some iri } := ⟨by rw [mr.eq], mr.notes, mr.head, mr.trail⟩
  dsimp only
  rw [adder_eq h0]
  generalize ({ m with iri := some iri } : Msg) = x at *
  generalize ({ m' with iri := some iri } : Msg) = x' at *
  split
  · split
    · have := h0.addNotes (ns := [(x.adder (str "uri")).mk1 .URI_BAD_SYNTAX]) rfl
      exact ⟨⟨by rw [this.eq], this.notes, this.head, this.trail⟩, rfl⟩
    · exact ⟨h0, rfl⟩
  · rename_i uri _
    have h1 := h0.addNotes (ns := if Syntax.rfc3986.URI.spaced false uri then [] else [(x.adder (str "uri")).mk1 .URI_BAD_SYNTAX]) rfl
    generalize x.addNotes _ = y at *
    generalize x'.addNotes _ = y' at *
    have h2 : ∀ u : Str, MRel { y with uri := some u } { y' with uri := some u } := fun u => ⟨by rw [h1.eq], h1.notes, h1.head, h1.trail⟩
    exact ⟨(h2 _).addNotes rfl, rfl⟩

theorem requestTopline_rel (mr : MRel m m') (me i v) : RunRel (m.requestTopline env me i v) (m'.requestTopline env me i v) := by
  unfold Msg.requestTopline
  rw [mr.kind]
  split
  · exact ⟨mr, rfl⟩
  · refine andThen_rel (setUri_rel ?_ _) fun {a a'} ha _ => ?_
    · exact ⟨by rw [mr.eq], mr.notes, mr.head, mr.trail⟩
    · exact ⟨⟨by rw [ha.eq], ha.notes, ha.head, ha.trail⟩, rfl⟩

/-- the steps of a status line -/
def baseStep (v s : Str) (m : Msg) : Msg := { m with version := asciiReplace v, statusCodeStr := some (asciiReplace s) }
def codeStep (s : Str) (x : Msg) : Msg :=
  match pyInt (asciiReplace s) with | some n => { x with statusCode := some n } | none => x.addNotes [(x.adder (str "status")).mk1 .STATUS_CODE_NON_NUMERIC]
def phraseStep (p : Option Str) (a : AddNote) (y : Msg) : Run Unit :=
  match p with
  | none => (y, .ok ())
  | some p =>
    if p.isEmpty then (y, .ok ())
    else ({ y with statusPhrase := some (asciiReplace p) }.addNotes (if nonAscii p then [a.mk1 .STATUS_PHRASE_ENCODING] else []), .ok ())

theorem responseTopline_steps (v s p) (m : Msg) : m.responseTopline v s p = match m.kind with
    | .request => (m, .ok ())
    | .response => phraseStep p ((baseStep v s m).adder (str "status")) (codeStep s (baseStep v s m)) := rfl

theorem responseTopline_rel (mr : MRel m m') (v s p) : RunRel (m.responseTopline v s p) (m'.responseTopline v s p) := by
  rw [responseTopline_steps, responseTopline_steps, mr.kind]
  split
  · exact ⟨mr, rfl⟩
  · have h0 : MRel (baseStep v s m) (baseStep v s m') := ⟨by unfold baseStep; rw [mr.eq], mr.notes, mr.head, mr.trail⟩
    rw [adder_eq h0]
    generalize baseStep v s m = x at *
    generalize baseStep v s m' = x' at *
    have h1 : MRel (codeStep s x) (codeStep s x') := by
      unfold codeStep
      rw [adder_eq h0]
      split
      · exact ⟨by rw [h0.eq], h0.notes, h0.head, h0.trail⟩
      · exact h0.addNotes rfl
    generalize codeStep s x = y at *
    generalize codeStep s x' = y' at *
    unfold phraseStep
    split
    · exact ⟨h1, rfl⟩
    · split
      · exact ⟨h1, rfl⟩
      · rename_i q _
        have h2 : MRel { y with statusPhrase := some (asciiReplace q) } { y' with statusPhrase := some (asciiReplace q) } := ⟨by rw [h1.eq], h1.notes, h1.head, h1.trail⟩
        exact ⟨h2.addNotes rfl, rfl⟩

/-- the worlds after a call -/
structure WRel (w w' : World) : Prop where
  msg : MRel w.msg w'.msg
  related : w.related = w'.related

theorem WRel.refl (w) : WRel w w := ⟨.refl _, rfl⟩

theorem op_rel {w w' : World} (r : WRel w w') {a b : Op} (h : RecasedOp a b) : WRel (a.run env w).1 (b.run env w').1 ∧ (a.run env w).2 = (b.run env w').2 := by
  obtain ⟨m, rel⟩ := w
  obtain ⟨m', rel'⟩ := w'
  obtain ⟨mr, hr⟩ := r
  dsimp only at mr hr
  subst hr
  unfold RecasedOp at h
  split at h
  · have := processHeaders_rel (env := env) (rel := rel) mr h
    exact ⟨⟨this.m, rfl⟩, this.res⟩
  · obtain ⟨rfl, h⟩ := h
    rename_i c ts ts'
    have := finishContent_rel (env := env) (rel := rel) mr c h
    unfold Op.run
    dsimp only
    exact ⟨⟨this.1.m, by rw [this.2]⟩, this.1.res⟩
  · subst h
    cases a with
    | requestTopline me i v => have := requestTopline_rel (env := env) mr me i v; exact ⟨⟨this.m, rfl⟩, this.res⟩
    | responseTopline v s p => have := responseTopline_rel mr v s p; exact ⟨⟨this.m, rfl⟩, this.res⟩
    | feed c => have := feedContent_rel (env := env) mr c; exact ⟨⟨this.m, rfl⟩, this.res⟩
    | headers ls => rename_i h1 h2; exact absurd rfl (h1 ls ls rfl)
    | finish c ts => rename_i h1 h2; exact absurd rfl (h2 c ts c ts rfl)

theorem ops_rel : ∀ {as bs : List Op} (_ : RecasedOps as bs) {w w' : World} (_ : WRel w w'), WRel (Op.runAll env as w) (Op.runAll env bs w')
  | [], [], _, _, _, r => r
  | [], _ :: _, h, _, _, _ => h.elim
  | _ :: _, [], h, _, _, _ => h.elim
  | _ :: _, _ :: _, h, _, _, r => ops_rel h.2 (op_rel r h.1).1

end

/-! ### C12 -/

/-- **C12** (main claim) Take any sequence of calls on a linter, and the same calls with field names (in headers and
trailers) in other cases.  Afterwards the parsed values of both sections, the caching verdicts, the content state and
the related linter are the same, and so are the notes: their classes, categories, subjects and sub-notes, in order. -/
theorem C12_case_insensitive (env : Env) (w : World) {ops ops' : List Op} (h : RecasedOps ops ops') :
    let a := Op.runAll env ops w
    let b := Op.runAll env ops' w
    a.msg.headers.parsed = b.msg.headers.parsed ∧ a.msg.trailers.parsed = b.msg.trailers.parsed ∧
    a.msg.notes.map (fun n => (n.cls, n.category, n.subject, n.subnotes.map (·.cls))) =
      b.msg.notes.map (fun n => (n.cls, n.category, n.subject, n.subnotes.map (·.cls))) ∧
    a.msg.caching = b.msg.caching ∧ a.msg.characterEncoding = b.msg.characterEncoding ∧
    a.msg.contentSample = b.msg.contentSample ∧ a.msg.decoded = b.msg.decoded ∧ a.related = b.related := by
  have r := ops_rel (env := env) h (WRel.refl w)
  dsimp only
  generalize Op.runAll env ops w = a at *
  generalize Op.runAll env ops' w = b at *
  have e := r.msg.eq
  refine ⟨r.msg.head.parsed.symm, r.msg.trail.parsed.symm, ?_, by rw [e], by rw [e], by rw [e], by rw [e], r.related⟩
  have hn := congrArg (List.map fun p : NoteId × Cat × List NoteId × Str => (p.1, p.2.1, p.2.2.2, p.2.2.1)) r.msg.notes
  simp only [List.map_map] at hn
  exact hn

/-- **C12** (outcomes) and the next call raises in the one case exactly when, and what, it raises in the other -/
theorem C12_same_outcome (env : Env) (w : World) {ops ops' : List Op} (h : RecasedOps ops ops') {a b : Op} (hab : RecasedOp a b) :
    (a.run env (Op.runAll env ops w)).2 = (b.run env (Op.runAll env ops' w)).2 :=
  (op_rel (ops_rel (env := env) h (WRel.refl w)) hab).2

/-- **C12** (keys) every key of a section's parsed values is the name of a line of it, stripped and in small letters -/
theorem C12_keys {env : Env} {m : Msg} (hr : Reachable env m) (t : Bool) {n : Str} {v : Val} (hd : (n, v) ∈ (m.section t).parsed) :
    ∃ q ∈ (m.section t).text, n = lower (strip q.1) := by
  obtain ⟨q, hq, ⟨name, e, en⟩, _⟩ := ((typeInv env m.kind).reachable hr rfl t).ps (n, v) hd
  refine ⟨q, hq, ?_⟩
  dsimp only at en
  rw [en, ← strip_lower, e, strip_lower]

/-- the line `a: …` and the line `A: …` belong together: same class, same entry in the table of handlers -/
theorem C12_same_handler (a b : Str) (d : Dict Handler) (h : Handler) (hn : a.map smallLetter = b.map smallLetter)
    (hh : dget d (lineKey a) = some h) : findHandler d (decodeName b) = h ∧ lineKey b = lineKey a := by
  have e : lineKey b = lineKey a := (recased_lower hn).symm
  refine ⟨?_, e⟩
  unfold findHandler
  rw [show lower (decodeName b) = lineKey a from e, hh]

/-! the hypotheses are met by two ways of writing one response -/

example : RecasedOps [.headers [(str "Cache-Control", str "no-store"), (str "vary", str "*"), (str "X-Y", [255])], .finish true [(str "ETAG", str "x")]]
    [.headers [(str "cache-CONTROL", str "no-store"), (str "Vary", str "*"), (str "x-y", [255])], .finish true [(str "etag", str "x")]] := by
  refine ⟨⟨⟨rfl, ?_⟩, ⟨rfl, ?_⟩, ⟨rfl, ?_⟩, trivial⟩, ⟨rfl, ⟨rfl, ?_⟩, trivial⟩, trivial⟩ <;> decide

example : ((Op.runAll toyEnv [.headers [(str "Cache-Control", str "no-store"), (str "vary", str "*"), (str "X-Y", [255])]]
      { msg := fresh toyEnv .response none false false }).msg.notes.map (·.cls)).length > 1 := by decide +kernel

/-- what the claim leaves out: the names shown in the text of notes are those sent -/
example : (Op.runAll toyEnv [.headers [(str "X-Y", [255])]] { msg := fresh toyEnv .response none false false }).msg.notes ≠
    (Op.runAll toyEnv [.headers [(str "x-y", [255])]] { msg := fresh toyEnv .response none false false }).msg.notes := by decide +kernel

end HL.Props
