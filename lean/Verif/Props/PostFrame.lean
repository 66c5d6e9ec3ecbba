import Verif.Props.EndThm

/-!
# What the checks of the fields at the end of a message report (framework for C100 onwards)
-/

namespace HL.Props
open HL.F

/-! ### the handlers a section leaves behind -/

theorem finishHandlers_left {env related t} {ks : List Str} {m0 m m' : Msg} (he : Ext t m0 m) (hn : ks.Nodup)
    (hks : ∀ k ∈ ks, dhas (m.section t).handlers k = true) (h : finishHandlers env related t ks m = (m', .ok ())) :
    (m'.section t).handlers.map (·.1) = (m.section t).handlers.map (·.1) ∧
    (∀ k, k ∉ ks → dget (m'.section t).handlers k = dget (m.section t).handlers k) ∧
    ∀ k ∈ ks, ∀ hd, dget (m.section t).handlers k = some hd → ∃ ctx, During env related t m0 ctx ∧ (finishIn m0 t hd ctx).2.res = .ok () ∧
      dget (m'.section t).handlers k = some (finishIn m0 t hd ctx).1 := by
  induction ks generalizing m with
  | nil =>
    simp only [finishHandlers, Prod.mk.injEq] at h
    obtain ⟨rfl, _⟩ := h
    exact ⟨rfl, fun _ _ => rfl, fun k hk => absurd hk (by simp)⟩
  | cons k ks ih =>
    unfold finishHandlers at h
    split at h
    · simp at h
    · rename_i _ m1 heq
      obtain ⟨hd, hk⟩ : ∃ hd, dget (m.section t).handlers k = some hd := by
        have := hks k (by simp)
        rw [← dget_isSome] at this
        exact Option.isSome_iff_exists.1 this
      obtain ⟨e1, e2, e3, e4⟩ := finishHandler_eq he heq hk
      have he1 : Ext t m0 m1 := by
        have := finishHandler_ext env related t m k
        rw [heq] at this
        exact he.trans this
      obtain ⟨hkn, hn'⟩ := List.nodup_cons.1 hn
      have hget : ∀ x, x ≠ k → dget (m1.section t).handlers x = dget (m.section t).handlers x := by
        intro x hx
        rw [e2, dget_dset, if_neg (Ne.symm hx)]
      have hne : ∀ x ∈ ks, x ≠ k := fun x hx hxk => hkn (hxk ▸ hx)
      obtain ⟨p1, p2, p3⟩ := ih he1 hn' (by
        intro x hx
        rw [← dget_isSome, hget x (hne x hx), dget_isSome]
        exact hks x (by simp [hx])) h
      refine ⟨?_, ?_, ?_⟩
      · rw [p1, e2, keys_dset, if_pos (hks k (by simp))]
      · intro x hx
        simp only [List.mem_cons, not_or] at hx
        rw [p2 x hx.2, hget x hx.1]
      · intro x hx hd' hd'e
        rcases List.mem_cons.1 hx with rfl | hx
        · rw [hk] at hd'e
          obtain rfl := Option.some.inj hd'e
          refine ⟨_, ⟨rfl, rfl, he⟩, e4, ?_⟩
          rw [p2 x hkn, e2, dget_dset, if_pos rfl]
        · exact p3 x hx hd' (by rw [hget x (hne x hx)]; exact hd'e)

theorem dict_values {β} {d : Dict β} {ks : List Str} {H : Str → β} (hn : ks.Nodup) (hk : d.map (·.1) = ks) (hg : ∀ k ∈ ks, dget d k = some (H k)) :
    d.map (·.2) = ks.map H := by
  induction d generalizing ks with
  | nil => subst hk; rfl
  | cons p d ih =>
    subst hk
    obtain ⟨h1, h2⟩ := List.nodup_cons.1 hn
    have e1 := hg p.1 (by simp)
    rw [List.map_cons, List.map_cons, List.map_cons, ih h2 rfl ?_]
    · congr 1
      have : dget (p :: d) p.1 = some p.2 := by simp [dget]
      rw [this] at e1
      exact Option.some.inj e1
    · intro k hk
      have := hg k (by rw [List.map_cons]; exact List.mem_cons_of_mem _ hk)
      have hne : (p.1 == k) = false := by
        rw [beq_eq_false_iff_ne]; rintro rfl; exact h1 hk
      rw [← this]
      simp [dget, List.find?_cons, hne]

/-- the handler of the field `n` a processed section leaves behind -/
structure Left (env : Env) (related : Option Msg) (t : Bool) (ls : List Line) (m : Msg) (n : Str) (h : Handler) : Prop where
  fid : h.fid = classOf n
  canon : h.canonicalName = (readHandler ⟨env, m, related⟩ ls n).canonicalName
  value : h.value = fieldValue ⟨env, m, related⟩ n (valuesOf ls n)
  from_ : ∃ ctx, During env related t m ctx ∧ (finishIn m t (readHandler ⟨env, m, related⟩ ls n) ctx).2.res = .ok () ∧ h = (finishIn m t (readHandler ⟨env, m, related⟩ ls n) ctx).1

theorem section_left {env related t} {ls : List Line} {m m' : Msg} (hm : Linting env m) (hnew : (m.section t).handlers = [])
    (h : processSection env related t ls m = (m', .ok ())) :
    ∃ H : Str → Handler, (m'.section t).handlers.map (·.2) = (namesOf ls).map H ∧ ∀ n ∈ namesOf ls, Left env related t ls m n (H n) := by
  have hr := hm.ready t
  have h0 := h
  unfold processSection at h
  split at h
  · simp at h
  · rename_i m1 heq
    dsimp only at h
    have hext : Ext t m m1 := by have := processLines_ext env related t ls 0 m; rwa [heq] at this
    have hkeys := processLines_keys heq
    rw [hnew] at hkeys
    change _ = namesOf ls at hkeys
    have hext2 : Ext t m (m1.addNotes (sectionSizeNotes t m1)) := hext.trans (Ext.add t m1 _)
    have hsec : (m1.addNotes (sectionSizeNotes t m1)).section t = m1.section t := section_addNotes _ _ _
    rw [hsec, hkeys] at h
    have hget : ∀ n ∈ namesOf ls, dget (m1.section t).handlers n = some (readHandler ⟨env, m, related⟩ ls n) := by
      intro n hn
      rw [processLines_handler hr (Ext.refl t m) heq n, hnew]
      exact linesOf_foldl ⟨env, m, related⟩ ls n hn
    have hcl := processLines_clean hr (Ext.refl t m) heq
    obtain ⟨p1, _, p3⟩ := finishHandlers_left hext2 (dedup_nodup _) (by
      intro k hk
      rw [hsec, ← dget_isSome, hget k hk]; rfl) h
    rw [hsec] at p1 p3
    have hH : ∀ n, ∃ hd : Handler, n ∈ namesOf ls → dget (m'.section t).handlers n = some hd ∧ Left env related t ls m n hd := by
      intro n
      by_cases hn : n ∈ namesOf ls
      · obtain ⟨ctx, q1, q2, q3⟩ := p3 n hn _ (hget n hn)
        refine ⟨_, fun _ => ⟨q3, ?_, ?_, ?_, ctx, q1, q2, rfl⟩⟩
        · unfold finishIn
          rw [(finish_id _ _ _).fid]
          unfold readHandler handlerFor
          split
          · rw [(fed_id _ _ _).fid, mkHandler_fid, classOf_spelling hn]
          · rw [(checked_id _ _).fid, mkHandler_fid, classOf_spelling hn]
        · unfold finishIn
          rw [(finish_id _ _ _).canon]
        · exact readHandler_value hn hcl q1 q2
      · exact ⟨mkHandler .unknownField [], fun h => absurd h hn⟩
    refine ⟨fun n => Classical.choose (hH n), ?_, fun n hn => (Classical.choose_spec (hH n) hn).2⟩
    exact dict_values (dedup_nodup _) (p1.trans hkeys) fun k hk => (Classical.choose_spec (hH k) hk).1

/-! ### the post-checks of the handlers -/

/-- the classes the check of a `Content-Security-Policy` at the end touches -/
def cspPosts : List NoteId := [.CONTENT_SECURITY_POLICY, .CSP_REPORT_TO_MISSING]

theorem addToFirst_among {Xs : List NoteId} (hc : NoteId.CONTENT_SECURITY_POLICY ∉ Xs) {kid ns ns'} (h : addToFirstCsp kid ns = some ns') :
    amongClass Xs ns' = amongClass Xs ns := by
  induction ns generalizing ns' with
  | nil => exact nomatch h
  | cons n ns ih =>
    unfold addToFirstCsp at h
    split at h
    · rename_i hn
      obtain rfl := Option.some.inj h
      unfold amongClass
      rw [List.filter_cons, List.filter_cons]
      have h1 : Xs.contains (n.addChild kid.1 kid.2).cls = false := by
        have : (n.addChild kid.1 kid.2).cls = n.cls := rfl
        rw [this, hn]; simpa using hc
      have h2 : Xs.contains n.cls = false := by rw [hn]; simpa using hc
      rw [h1, h2]
      rfl
    · cases hr : addToFirstCsp kid ns with
      | none => rw [hr] at h; exact nomatch h
      | some x =>
        rw [hr] at h
        obtain rfl := Option.some.inj h
        have := ih hr
        unfold amongClass at *
        rw [List.filter_cons, List.filter_cons, this]

theorem cspPost_among {Xs : List NoteId} (hc : ∀ X ∈ cspPosts, X ∉ Xs) (c : Ctx) (add ro) (h : Handler) (ns : List Note) :
    amongClass Xs (csp.postCheck c add ro h ns).1 = amongClass Xs ns ∧ (csp.postCheck c add ro h ns).2 = (csp.postCheck c add ro h []).2 := by
  unfold csp.postCheck
  split
  · exact ⟨rfl, rfl⟩
  · split
    · exact ⟨rfl, rfl⟩
    · rename_i missing heq
      refine ⟨?_, rfl⟩
      dsimp only
      clear heq
      induction missing generalizing ns with
      | nil => rfl
      | cons e es ih =>
        rw [List.foldl_cons, ih]
        split
        · exact addToFirst_among (hc _ (by simp [cspPosts])) ‹_›
        · rw [amongClass_append]
          have : amongClass Xs [add.mk1 .CSP_REPORT_TO_MISSING [(str "endpoint", .str e), (str "report_only_text", .str ro.text)]] = [] :=
            among_only fun n hn => by
              rw [List.mem_singleton] at hn; subst hn; exact hc _ (by simp [cspPosts])
          rw [this, List.append_nil]

theorem postCheck_among {Xs : List NoteId} (hc : ∀ X ∈ cspPosts, X ∉ Xs) (c : Ctx) (add) (h : Handler) (ns : List Note) :
    amongClass Xs (h.postCheck c add ns).1 = amongClass Xs ns ++ amongClass Xs (h.postCheck c add []).1 ∧ (h.postCheck c add ns).2 = (h.postCheck c add []).2 := by
  have key : ∀ w : W Unit, amongClass Xs (appendW ns w).1 = amongClass Xs ns ++ amongClass Xs (appendW [] w).1 ∧ (appendW ns w).2 = (appendW [] w).2 := by
    intro w
    exact ⟨amongClass_append .., rfl⟩
  have key2 : ∀ ro, amongClass Xs (csp.postCheck c add ro h ns).1 = amongClass Xs ns ++ amongClass Xs (csp.postCheck c add ro h []).1 ∧
      (csp.postCheck c add ro h ns).2 = (csp.postCheck c add ro h []).2 := by
    intro ro
    have h1 := cspPost_among hc c add ro h ns
    have h2 := cspPost_among hc c add ro h []
    rw [h1.1, h2.1]
    exact ⟨(List.append_nil _).symm, h1.2⟩
  unfold Handler.postCheck
  split
  all_goals first | exact key _ | exact key2 _ | exact ⟨(List.append_nil _).symm, rfl⟩

theorem missing_env {c c' : Ctx} (h : c.env = c'.env) (vary : Val) (is : List Val) : accept_ch.missing c vary is = accept_ch.missing c' vary is := by
  induction is with
  | nil => rfl
  | cons i is ih => unfold accept_ch.missing; rw [ih, h]

theorem postCheck_notes (env related m ns add) (h : Handler) (xs : List Note) :
    h.postCheck ⟨env, { m with notes := ns }, related⟩ add xs = h.postCheck ⟨env, m, related⟩ add xs := by
  unfold Handler.postCheck
  split
  · unfold accept_ch.postCheck
    simp only [missing_env (c := ⟨env, { m with notes := ns }, related⟩) (c' := ⟨env, m, related⟩) rfl]
    rfl
  all_goals rfl

theorem postCheckHandlers_among {Xs : List NoteId} (hc : ∀ X ∈ cspPosts, X ∉ Xs) {env related t} {hs : List Handler} {m m' : Msg}
    (h : postCheckHandlers env related t hs m = (m', .ok ())) :
    (∃ ns, m' = { m with notes := ns }) ∧
    amongClass Xs m'.notes = amongClass Xs m.notes ++ hs.flatMap (fun hd => if hd.value = .none then [] else
      amongClass Xs (hd.postCheck ⟨env, m, related⟩ (m.fieldAdder t hd) []).1) ∧
    ∀ hd ∈ hs, hd.value ≠ .none → (hd.postCheck ⟨env, m, related⟩ (m.fieldAdder t hd) []).2 = .ok () := by
  induction hs generalizing m with
  | nil =>
    obtain ⟨rfl, _⟩ := Prod.mk.inj h
    exact ⟨⟨_, rfl⟩, by simp, fun hd hh => absurd hh (by simp)⟩
  | cons hd hs ih =>
    unfold postCheckHandlers at h
    by_cases hv : hd.value = .none
    · rw [if_pos hv] at h
      obtain ⟨i1, i2, i3⟩ := ih h
      refine ⟨i1, ?_, ?_⟩
      · rw [i2, List.flatMap_cons, if_pos hv, List.nil_append]
      · intro x hx hxv
        rcases List.mem_cons.1 hx with rfl | hx
        · exact absurd hv hxv
        · exact i3 x hx hxv
    · rw [if_neg hv] at h
      obtain ⟨k1, k2⟩ := postCheck_among hc ⟨env, m, related⟩ (m.fieldAdder t hd) hd m.notes
      generalize hd.postCheck ⟨env, m, related⟩ (m.fieldAdder t hd) m.notes = q at h k1 k2
      obtain ⟨notes, r⟩ := q
      dsimp only at h k1 k2
      cases r with
      | error e => exact absurd h (by simp)
      | ok u =>
        dsimp only at h
        obtain ⟨⟨ns, i1⟩, i2, i3⟩ := ih h
        refine ⟨⟨ns, i1⟩, ?_, ?_⟩
        · rw [i2, List.flatMap_cons, if_neg hv]
          show amongClass Xs notes ++ _ = _
          rw [k1, List.append_assoc]
          simp only [postCheck_notes]
          rfl
        · intro x hx hxv
          rcases List.mem_cons.1 hx with rfl | hx
          · exact k2.symm
          · have := i3 x hx hxv
            rw [postCheck_notes] at this
            exact this

theorem postCheckHandlers_frame {env related t} {hs : List Handler} {m m' : Msg} (h : postCheckHandlers env related t hs m = (m', .ok ())) :
    ∃ ns, m' = { m with notes := ns } :=
  (postCheckHandlers_among (Xs := []) (fun _ _ => by simp) h).1

/-! ### the other checks -/

/-- only notes that are not of the `field` package have been added -/
def Other (m m' : Msg) : Prop := ∃ ns ca, m' = { m with notes := m.notes ++ ns, caching := ca } ∧ ∀ n ∈ ns, n.cls.origin ≠ .field

theorem Other.trans {a b c : Msg} : Other a b → Other b c → Other a c := by
  rintro ⟨ns, ca, rfl, h⟩ ⟨ns', ca', rfl, h'⟩
  refine ⟨ns ++ ns', ca', by simp only [List.append_assoc], fun n hn => ?_⟩
  rcases List.mem_append.1 hn with hn | hn
  · exact h n hn
  · exact h' n hn

theorem Other.add {m : Msg} {ns : List Note} (h : ∀ n ∈ ns, n.cls.origin ≠ .field) : Other m (m.addNotes ns) := ⟨ns, m.caching, rfl, h⟩

theorem Other.among {Xs : List NoteId} (ho : ∀ X ∈ Xs, X.origin = .field) {m m' : Msg} (h : Other m m') : amongClass Xs m'.notes = amongClass Xs m.notes := by
  obtain ⟨ns, _, rfl, hn⟩ := h
  show amongClass Xs (m.notes ++ ns) = _
  rw [amongClass_append, among_only (ns := ns), List.append_nil]
  exact fun n h1 h2 => hn n h1 (ho _ h2)

theorem postChecks_other {env related} {m m' : Msg} {rn} (hm : HasMT m.defaults) (h : postChecks env related m = ((m', .ok ()), rn)) :
    Other m m' := by
  unfold postChecks at h
  split at h
  · obtain ⟨h, _⟩ := Prod.mk.inj h
    obtain ⟨rfl, _⟩ := runW_ok h
    refine Other.add fun n hn ho => ?_
    have := (requestPostChecks_lint env related m hm n hn).2.1
    rw [ho] at this
    exact absurd this (by decide)
  · unfold responsePostChecks at h
    have hp := checkPreflightResponse_emits (adder_good hm [] [] [str "message_type"] rfl) ⟨env, m, related⟩
    split at h
    · simp at h
    · rename_i m1 heq
      obtain ⟨rfl, _⟩ := runW_ok heq
      have hc := cacheCheck_emits ⟨env, m.addNotes (checkPreflightResponse ⟨env, m, related⟩ (m.adder [])).notes, related⟩ hm
      generalize cacheCheck ⟨env, m.addNotes (checkPreflightResponse ⟨env, m, related⟩ (m.adder [])).notes, related⟩ = q at h hc
      obtain ⟨ca, w, rq⟩ := q
      dsimp only at h hc
      obtain ⟨h, _⟩ := Prod.mk.inj h
      have hp' : ∀ n ∈ (checkPreflightResponse ⟨env, m, related⟩ (m.adder [])).notes, n.cls.origin ≠ .field := fun n hn ho => by
        have := (hp n hn).2; rw [ho] at this; exact nomatch this
      have hw' : ∀ n ∈ w.notes, n.cls.origin ≠ .field := fun n hn ho => by
        have := (hc n hn).2; rw [ho] at this; exact nomatch this
      generalize (checkPreflightResponse ⟨env, m, related⟩ (m.adder [])).notes = pn at h hp'
      obtain ⟨cb, h⟩ : ∃ cb, Run.andThen (({ m with notes := m.notes ++ pn, caching := cb } : Msg).runW w) (fun m _ =>
          Run.andThen (m.runW (Status.check ⟨env, m, related⟩)) fun m _ =>
            if m.noContent then (m, .ok ())
            else Run.andThen (m.runW (verifyContentType ⟨env, m, related⟩)) fun m _ =>
              m.runW (verifyCharset ⟨env, m, related⟩)) = (m', .ok ()) := by
        cases ca
        · exact ⟨m.caching, h⟩
        · exact ⟨_, h⟩
      have h0 : Other m { m with notes := m.notes ++ pn, caching := cb } := ⟨pn, cb, rfl, hp'⟩
      have hm0 : HasMT ({ m with notes := m.notes ++ pn, caching := cb } : Msg).defaults := hm
      generalize ({ m with notes := m.notes ++ pn, caching := cb } : Msg) = m0 at h h0 hm0
      obtain ⟨m6, _, h6, h7⟩ := andThen_ok h
      obtain ⟨rfl, _⟩ := runW_ok h6
      have h1 := h0.trans (Other.add hw')
      have hm1 : HasMT (m0.addNotes w.notes).defaults := hm0
      generalize m0.addNotes w.notes = m1 at h7 h1 hm1
      obtain ⟨m7, _, h8, h9⟩ := andThen_ok h7
      obtain ⟨rfl, _⟩ := runW_ok h8
      have h2 := h1.trans (Other.add (m := m1) (ns := (Status.check ⟨env, m1, related⟩).notes) fun n hn ho => by
        have := (statusCheck_emits _ hm1 n hn).2
        rw [ho] at this
        exact nomatch this)
      have hm2 : HasMT (m1.addNotes (Status.check ⟨env, m1, related⟩).notes).defaults := hm1
      generalize m1.addNotes (Status.check ⟨env, m1, related⟩).notes = m2 at h9 h2 hm2
      obtain ⟨rfl, _⟩ := contentChecks_ok env related _ _ h9
      refine h2.trans (Other.add fun n hn ho => ?_)
      split at hn
      · exact absurd hn (by simp)
      · rcases List.mem_append.1 hn with hn | hn
        · have := (verifyContentType_emits _ hm2 n hn).2
          rw [ho] at this
          exact nomatch this
        · have := (verifyCharset_emits _ hm2 n hn).2
          rw [ho] at this
          exact nomatch this

/-! ### which class of note is whose -/

/-- the classes of note the check of a field at the end may add -/
def postOwn : FieldId → List NoteId
  | .accept_ch_ => [.ACCEPT_CH_IN_PLAIN_HTTP, .ACCEPT_CH_MISSING_VARY]
  | .available_dictionary_ => [.AVAILABLE_DICTIONARY_MISSING_AE]
  | .content_encoding_ => [.DICTIONARY_COMPRESSED_MISSING_VARY]
  | .content_security_policy_ | .content_security_policy_report_only_ => cspPosts
  | .cross_origin_embedder_policy_ | .cross_origin_embedder_policy_report_only_ => [.COEP_REPORT_TO_MISSING]
  | .cross_origin_opener_policy_ | .cross_origin_opener_policy_report_only_ => [.COOP_REPORT_TO_MISSING]
  | .nel_ => [.NEL_REPORT_TO_MISSING, .NEL_CONFIGURED]
  | _ => []

theorem noneSubject {add : AddNote} : ∀ x, (none : Option Str) = some x → add.subject = x := fun _ h => nomatch h

theorem tokenPolicyPost_own {add : AddNote} (c ro X hd) : Emits (Of none [X]) (tokenPolicyPostCheck c add ro X hd) := by
  have hX : [X].contains X = true := by simp
  unfold tokenPolicyPostCheck
  repeat' own_step

/-- the check of a field at the end, as a computation -/
def postW (c : Ctx) (add : AddNote) (h : Handler) : W Unit := ⟨(h.postCheck c add []).1, (h.postCheck c add []).2⟩

theorem postCheck_own (c : Ctx) (add : AddNote) (h : Handler) : ∀ n ∈ (h.postCheck c add []).1, (postOwn h.fid).contains n.cls = true := by
  have key : ∀ {L : List NoteId} (w : W Unit), Emits (Of none L) w → ∀ n ∈ (appendW [] w).1, L.contains n.cls = true := fun w hw n hn => (hw n hn).cls
  have key2 : ∀ ro, ∀ n ∈ (csp.postCheck c add ro h []).1, cspPosts.contains n.cls = true := by
    intro ro
    unfold csp.postCheck
    split
    · simp
    · split
      · simp
      · rename_i missing heq
        clear heq
        have : ∀ ns : List Note, (∀ n ∈ ns, cspPosts.contains n.cls = true) → ∀ n ∈ missing.foldl (fun ns e =>
            let vars : Dict Val := [(str "endpoint", .str e), (str "report_only_text", .str ro.text)]
            match addToFirstCsp (.CSP_REPORT_TO_MISSING, vars) ns with
            | some ns' => ns'
            | none => ns ++ [add.mk1 .CSP_REPORT_TO_MISSING vars]) ns, cspPosts.contains n.cls = true := by
          induction missing with
          | nil => intro ns h; exact h
          | cons e es ih =>
            intro ns h
            rw [List.foldl_cons]
            refine ih _ ?_
            dsimp only
            split
            · rename_i ns' he
              clear ih
              induction ns generalizing ns' with
              | nil => exact nomatch he
              | cons x ns ihn =>
                unfold addToFirstCsp at he
                split at he
                · rename_i hx
                  obtain rfl := Option.some.inj he
                  intro n hn
                  rcases List.mem_cons.1 hn with rfl | hn
                  · show cspPosts.contains x.cls = true
                    exact h x (by simp)
                  · exact h n (by simp [hn])
                · cases hr : addToFirstCsp (.CSP_REPORT_TO_MISSING, [(str "endpoint", .str e), (str "report_only_text", .str ro.text)]) ns with
                  | none => rw [hr] at he; exact nomatch he
                  | some y =>
                    rw [hr] at he
                    obtain rfl := Option.some.inj he
                    intro n hn
                    rcases List.mem_cons.1 hn with rfl | hn
                    · exact h n (by simp)
                    · exact ihn (fun n hn => h n (by simp [hn])) y hr n hn
            · intro n hn
              rcases List.mem_append.1 hn with hn | hn
              · exact h n hn
              · rw [List.mem_singleton] at hn; subst hn; rfl
        exact this [] (by simp)
  unfold Handler.postCheck
  split <;> rename_i hf <;> (try rw [hf]) <;> dsimp only [postOwn]
  · refine key _ ?_
    unfold accept_ch.postCheck
    have hm := fun vary items => accept_ch_missing_emits (Of none [.ACCEPT_CH_IN_PLAIN_HTTP, .ACCEPT_CH_MISSING_VARY]) c vary items
    repeat' first | exact hm _ _ | own_step
  · refine key _ ?_
    unfold available_dictionary.postCheck
    repeat' own_step
  · refine key _ ?_
    unfold content_encoding.postCheck
    repeat' own_step
  · exact key2 _
  · exact key2 _
  · exact key _ (tokenPolicyPost_own c _ _ h)
  · exact key _ (tokenPolicyPost_own c _ _ h)
  · exact key _ (tokenPolicyPost_own c _ _ h)
  · exact key _ (tokenPolicyPost_own c _ _ h)
  · refine key _ ?_
    unfold nel.postCheck
    repeat' own_step
  · simp

/-- classes of note that only the checks at the end of these field classes use, and no check changes -/
structure PostAmong (Xs : List NoteId) (fs : List FieldId) : Prop where
  sections : EvalAmong Xs []
  csp : ∀ X ∈ cspPosts, X ∉ Xs
  others : ∀ g, g ∉ fs → ∀ X ∈ Xs, (postOwn g).contains X = false
  known : FieldId.unknownField ∉ fs
  read : ∀ f ∈ fs, f.info.kind ≠ .broken

/-- closes the above -/
macro "post_among" : tactic => `(tactic| exact ⟨by eval_among, by decide, fun g => by cases g <;> decide, by decide, by decide⟩)

example : PostAmong [.COEP_REPORT_TO_MISSING] [.cross_origin_embedder_policy_, .cross_origin_embedder_policy_report_only_] := by post_among

/-! ### a message that has ended -/

/-- a message is linted to its end: its headers `ls` are processed (from the state `m0`), its content is fed (`m`), and the
end is reported with the trailers `ts` (`m'`) -/
structure Ended (env : Env) (related : Option Msg) (ls : List Line) (chunks : List Str) (co : Bool) (ts : List Line) (m0 m m' : Msg) : Prop where
  start : Linting env m0
  new : m0.headers.handlers = []
  blank : m0.headers.parsed = []
  open_ : m0.trailers.handlers = []
  fed : ∃ m1, m0.processHeaders env related ls = (m1, .ok ()) ∧ m = feedAll env chunks m1
  reach : Reachable env m
  finish : ∃ rn, Finishes env related co ts m m' rn

theorem feedAll_sections (env : Env) (chunks : List Str) (m : Msg) : SameSections m (feedAll env chunks m) := by
  unfold feedAll
  induction chunks generalizing m with
  | nil => exact .refl _
  | cons c cs ih => exact (feedContent_sections env c m).trans (ih _)

section
variable {env : Env} {related : Option Msg} {ls ts : List Line} {chunks : List Str} {co : Bool} {m0 m m' : Msg}

theorem processed_kind {t} {m m' : Msg} (h : processSection env related t ls m = (m', .ok ())) : m'.kind = m.kind := by
  have := (processSection_ext env related t ls m).kind
  rw [h] at this
  exact this

/-- the headers, and the end -/
theorem Ended.pieces (E : Ended env related ls chunks co ts m0 m m') :
    (∃ m1, processSection env related false ls m0 = (m1, .ok ()) ∧ SameSections m1 m) ∧ m.kind = m0.kind ∧ m.trailers.handlers = [] := by
  obtain ⟨m1, h1, rfl⟩ := E.fed
  have hs := processHeaders_sections env related ls m0
  rw [h1] at hs
  unfold Msg.processHeaders at h1
  obtain ⟨m2, _, h2, _⟩ := andThen_ok h1
  rw [h2] at hs
  have hf := hs.trans (feedAll_sections env chunks m1)
  refine ⟨⟨m2, h2, hf⟩, hf.2.2.trans (processed_kind h2), ?_⟩
  rw [hf.2.1]
  have := processSection_ext env related false ls m0
  rw [h2] at this
  obtain ⟨ns, s, e⟩ := this
  dsimp only at e
  rw [e]
  exact E.open_

/-- the end of a message, step by step: its trailers (`m2`), the checks of the message (`m4`), those of its headers (`m5`) and of its trailers -/
theorem Ended.steps (E : Ended env related ls chunks co ts m0 m m') :
    ∃ (H Ht : Str → Handler) (m2 m4 m5 : Msg), (∀ n ∈ namesOf ls, Left env related false ls m0 n (H n)) ∧ (∀ n ∈ namesOf ts, Left env related true ts (finishStart env co m) n (Ht n)) ∧
      ((ts = [] ∧ m2 = finishStart env co m) ∨ Processed env related true ts (finishStart env co m) m2) ∧
      (∀ Xs : List NoteId, (∀ X ∈ Xs, X.origin = .field) → amongClass Xs m4.notes = amongClass Xs m2.notes) ∧ m4.headers = m.headers ∧
      postCheckHandlers env related false ((namesOf ls).map H) m4 = (m5, .ok ()) ∧ postCheckHandlers env related true ((namesOf ts).map Ht) m5 = (m', .ok ()) := by
  obtain ⟨⟨m1, h1, hs1⟩, hk, ht⟩ := E.pieces
  obtain ⟨H, hH, hHL⟩ := section_left (t := false) E.start E.new h1
  obtain ⟨rn, hf⟩ := E.finish
  unfold Finishes Msg.finishContent at hf
  dsimp only at hf
  have hlin : Linting env (finishStart env co m) := ⟨m, E.reach, .inr ⟨co, rfl⟩⟩
  have hgood := E.reach.good
  generalize hq : (if ts.isEmpty then (({ m with complete := co, contentHash := some (env.md5 m.hashed) } : Msg), .ok ())
        else processSection env related true ts { m with complete := co, contentHash := some (env.md5 m.hashed) } : Run Unit) = q at hf
  change (if ts.isEmpty then (finishStart env co m, .ok ()) else processSection env related true ts (finishStart env co m) : Run Unit) = q at hq
  obtain ⟨m2, x⟩ := q
  cases x with
  | error e => simp at hf
  | ok u =>
    dsimp only at hf
    obtain ⟨Ht, hHt, hHtL, hn2, hx2⟩ : ∃ Ht : Str → Handler, m2.trailers.handlers.map (·.2) = (namesOf ts).map Ht ∧
        (∀ n ∈ namesOf ts, Left env related true ts (finishStart env co m) n (Ht n)) ∧
        ((ts = [] ∧ m2 = finishStart env co m) ∨ Processed env related true ts (finishStart env co m) m2) ∧ Ext true (finishStart env co m) m2 := by
      cases ts with
      | nil =>
        obtain ⟨rfl, _⟩ := Prod.mk.inj hq
        refine ⟨fun _ => mkHandler .unknownField [], ?_, fun n hn => absurd hn (by simp [namesOf, dedup]), .inl ⟨rfl, rfl⟩, Ext.refl _ _⟩
        show m.trailers.handlers.map (·.2) = _
        rw [ht]; rfl
      | cons l ts =>
        rw [if_neg (by simp)] at hq
        obtain ⟨Ht, a, b⟩ := section_left (t := true) hlin (show (finishStart env co m).trailers.handlers = [] from ht) hq
        refine ⟨Ht, a, b, .inr ⟨hlin, ht, hq⟩, ?_⟩
        have := processSection_ext env related true (l :: ts) (finishStart env co m)
        rw [hq] at this
        exact this
    have hmt2 : HasMT m2.defaults := by rw [ext_defaults hx2]; exact hgood.mt
    have hh2 : m2.headers = m.headers := by obtain ⟨_, _, rfl⟩ := hx2; rfl
    generalize hm3 : ({ m2 with decoded := { m2.decoded with hash := some (env.md5 m2.decoded.hashed) } } : Msg) = m3 at hf
    have hn3 : m3.notes = m2.notes := by subst hm3; rfl
    have hh3 : m3.headers = m.headers := by subst hm3; exact hh2
    have ht3 : m3.trailers = m2.trailers := by subst hm3; rfl
    have hmt3 : HasMT m3.defaults := by subst hm3; exact hmt2
    have hl3 : Other m3 (m3.addNotes (lengthNotes m3)) := Other.add fun n hn ho => by
      have := isLength_origin (lengthNotes_isLength m3 n hn)
      rw [ho] at this
      exact nomatch this
    generalize hpc : postChecks env related (m3.addNotes (lengthNotes m3)) = pc at hf
    obtain ⟨r, rq⟩ := pc
    dsimp only at hf
    obtain ⟨hf, _⟩ := Prod.mk.inj hf
    obtain ⟨m4, _, h4, h5⟩ := andThen_ok hf
    subst h4
    have h34 := hl3.trans (postChecks_other hmt3 hpc)
    have hh4 : m4.headers = m.headers := by obtain ⟨_, _, rfl, _⟩ := h34; exact hh3
    have ht4 : m4.trailers = m2.trailers := by obtain ⟨_, _, rfl, _⟩ := h34; exact ht3
    obtain ⟨m5, _, h5, h6⟩ := andThen_ok h5
    have e5 := postCheckHandlers_frame h5
    have hhs : m4.headers.handlers.map (·.2) = (namesOf ls).map H := by rw [hh4, hs1.1]; exact hH
    have hts : m5.trailers.handlers.map (·.2) = (namesOf ts).map Ht := by obtain ⟨_, e5⟩ := e5; rw [e5]; show m4.trailers.handlers.map _ = _; rw [ht4]; exact hHt
    rw [hhs] at h5
    rw [hts] at h6
    exact ⟨H, Ht, m2, m4, m5, hHL, hHtL, hn2, fun Xs hX => by rw [h34.among hX, hn3], hh4, h5, h6⟩

/-- **what the checks of the fields add at the end**, of classes nothing else uses -/
theorem Ended.posts (E : Ended env related ls chunks co ts m0 m m') {Xs : List NoteId} (hX : EvalAmong Xs []) (hc : ∀ X ∈ cspPosts, X ∉ Xs) :
    ∃ H Ht : Str → Handler, (∀ n ∈ namesOf ls, Left env related false ls m0 n (H n)) ∧ (∀ n ∈ namesOf ts, Left env related true ts (finishStart env co m) n (Ht n)) ∧
      amongClass Xs m'.notes = amongClass Xs m.notes ++
        ((namesOf ls).flatMap (fun n => if (H n).value = .none then [] else amongClass Xs ((H n).postCheck ⟨env, m', related⟩ (m'.fieldAdder false (H n)) []).1) ++
        (namesOf ts).flatMap (fun n => if (Ht n).value = .none then [] else amongClass Xs ((Ht n).postCheck ⟨env, m', related⟩ (m'.fieldAdder true (Ht n)) []).1)) ∧
      (∀ n ∈ namesOf ls, (H n).value ≠ .none → ((H n).postCheck ⟨env, m', related⟩ (m'.fieldAdder false (H n)) []).2 = .ok ()) ∧
      (∀ n ∈ namesOf ts, (Ht n).value ≠ .none → ((Ht n).postCheck ⟨env, m', related⟩ (m'.fieldAdder true (Ht n)) []).2 = .ok ()) := by
  obtain ⟨H, Ht, m2, m4, m5, hHL, hHtL, h2, h4, _, h5, h6⟩ := E.steps
  have hn2 : amongClass Xs m2.notes = amongClass Xs m.notes := by
    rcases h2 with ⟨_, rfl⟩ | P
    · rfl
    · obtain ⟨added, e1, e2⟩ := P.reports hX (fun _ => []) (fun _ _ r hr => absurd hr (by simp)) (fun c add hd n hn => by
        obtain ⟨_, h2, _⟩ := mem_examined.1 hn; exact absurd h2 (by simp))
      rw [e1, amongClass_append]
      have : amongClass Xs added = [] := by
        have hl := e2.length
        unfold amongClass
        apply List.eq_nil_of_length_eq_zero
        rw [hl]
        have : examined env related (finishStart env co m) [] ts = [] := by unfold examined namesAmong; simp
        rw [this]
        rfl
      rw [this, List.append_nil]
      rfl
  have hn4 := h4 Xs hX.origin
  obtain ⟨⟨ns5, e5⟩, a5, o5⟩ := postCheckHandlers_among hc h5
  obtain ⟨⟨ns6, e6⟩, a6, o6⟩ := postCheckHandlers_among hc h6
  have c4 : ∀ t (hd : Handler), hd.postCheck ⟨env, m4, related⟩ (m4.fieldAdder t hd) [] = hd.postCheck ⟨env, m', related⟩ (m'.fieldAdder t hd) [] := by
    intro t hd
    rw [e6, e5]
    exact (postCheck_notes env related m4 ns6 (m4.fieldAdder t hd) hd []).symm
  have c5 : ∀ t (hd : Handler), hd.postCheck ⟨env, m5, related⟩ (m5.fieldAdder t hd) [] = hd.postCheck ⟨env, m', related⟩ (m'.fieldAdder t hd) [] := by
    intro t hd
    rw [e6]
    exact (postCheck_notes env related m5 ns6 (m5.fieldAdder t hd) hd []).symm
  refine ⟨H, Ht, hHL, hHtL, ?_, ?_, ?_⟩
  · rw [a6, a5, hn4, hn2, List.append_assoc, List.flatMap_map, List.flatMap_map]
    simp only [c4, c5]
  · intro n hn hv
    rw [← c4]
    exact o5 (H n) (List.mem_map_of_mem hn) hv
  · intro n hn hv
    rw [← c5]
    exact o6 (Ht n) (List.mem_map_of_mem hn) hv

/-- the subject and variables of notes on a field a section has left behind -/
theorem Left.adder {t} {m : Msg} {n : Str} {h : Handler} (L : Left env related t ls m n h) (hn : n ∈ namesOf ls) (m' : Msg) :
    (m'.fieldAdder t h).subject = fieldSubject n ∧ UniqueKeys (m'.fieldAdder t h).base := by
  refine ⟨?_, show ([str "field_name", str "field_type"] : List Str).Nodup by decide⟩
  have : h.canonicalName = (mkHandler (classOf n) (spelling ls n)).canonicalName := by
    rw [L.canon]
    unfold readHandler handlerFor
    split
    · rw [(fed_id _ _ _).canon, classOf_spelling hn]
    · rw [(checked_id _ _).canon, classOf_spelling hn]
  show str "field-" ++ lower h.canonicalName = _
  rw [this, mkHandler_canon (b := n) (by rw [lower_spelling hn, lower_name hn])]
  rfl

theorem fieldValue_class {m : Msg} {n : Str} (hne : classOf n ≠ .unknownField) (hb : (classOf n).info.kind ≠ .broken) :
    fieldValue ⟨env, m, related⟩ n (valuesOf ls n) = if (classOf n).validIn m.kind then afterCheck (classOf n) (valueOf env related m (classOf n) ls n) else .none := by
  unfold fieldValue
  rw [show (⟨env, m, related⟩ : Ctx).msg.kind = m.kind from rfl, okName_class rfl hne]
  by_cases hv : (classOf n).validIn m.kind = true
  · rw [if_pos hv, if_pos hv]; rfl
  · rw [if_neg hv, if_neg hv, if_neg]
    simp only [Bool.not_eq_true] at hv
    rw [hv, Bool.false_or]
    simpa using hb

theorem post_reports {t} {Xs : List NoteId} {fs : List FieldId} (hX : PostAmong Xs fs) {m m' : Msg} {H : Str → Handler} (hH : ∀ n ∈ namesOf ls, Left env related t ls m n (H n))
    (hok : ∀ n ∈ namesOf ls, (H n).value ≠ .none → ((H n).postCheck ⟨env, m', related⟩ (m'.fieldAdder t (H n)) []).2 = .ok ())
    (hval : ∀ f ∈ fs, ∀ v, afterCheck f v = v) (spec : Str → List Report) (hcl : ∀ n ∈ examined env related m fs ls, ∀ r ∈ spec n, r.Clean)
    (hs : ∀ (add : AddNote) (h : Handler), ∀ n ∈ examined env related m fs ls, Left env related t ls m n h → h.fid = classOf n → h.value = valueOf env related m (classOf n) ls n →
      Tells Xs add (postW ⟨env, m', related⟩ add h) (spec n) (fun _ => True)) :
    Each (fun (x : Note) p => Reports x p.1 p.2)
      ((namesOf ls).flatMap (fun n => if (H n).value = .none then [] else amongClass Xs ((H n).postCheck ⟨env, m', related⟩ (m'.fieldAdder t (H n)) []).1))
      ((examined env related m fs ls).flatMap fun n => (spec n).map (fieldSubject n, ·)) := by
  have hsplit : examined env related m fs ls = (namesOf ls).filter fun a => (classOf a).validIn m.kind && valueOf env related m (classOf a) ls a != Val.none && fs.contains (classOf a) := by
    unfold examined namesAmong
    rw [List.filter_filter]
  rw [show ∀ g : Str → List (Str × Report), (examined env related m fs ls).flatMap g = ((namesOf ls).filter fun a => (classOf a).validIn m.kind && valueOf env related m (classOf a) ls a != Val.none && fs.contains (classOf a)).flatMap g from fun g => by rw [hsplit], flatMap_filter_if]
  refine Each.flatMap fun n hn => ?_
  have L := hH n hn
  by_cases hf : classOf n ∈ fs
  · have hne : classOf n ≠ .unknownField := fun e => hX.known (e ▸ hf)
    have hvn : (H n).value = if (classOf n).validIn m.kind then valueOf env related m (classOf n) ls n else .none := by
      rw [L.value, fieldValue_class hne (hX.read _ hf), hval _ hf]
    have hfc : fs.contains (classOf n) = true := by simpa using hf
    rw [hfc, Bool.and_true]
    by_cases hz : (H n).value = .none
    · rw [if_pos hz, if_neg]
      · exact .nil
      · rw [hz] at hvn
        intro h
        rw [Bool.and_eq_true, bne_iff_ne] at h
        rw [if_pos h.1] at hvn
        exact h.2 hvn.symm
    · rw [if_neg hz]
      have hv : (classOf n).validIn m.kind = true := by
        by_cases hv : (classOf n).validIn m.kind = true
        · exact hv
        · rw [if_neg hv] at hvn; exact absurd hvn hz
      rw [if_pos hv] at hvn
      have hvz : valueOf env related m (classOf n) ls n ≠ .none := hvn ▸ hz
      rw [if_pos (by rw [hv, Bool.true_and, bne_iff_ne]; exact hvz)]
      have hex : n ∈ examined env related m fs ls := mem_examined.2 ⟨hn, hf, hv, hvz⟩
      obtain ⟨a1, a2⟩ := L.adder hn m'
      have := (hs (m'.fieldAdder t (H n)) (H n) n hex L L.fid hvn () (hok n hn hz)).1
      rw [show amongClass Xs ((H n).postCheck ⟨env, m', related⟩ (m'.fieldAdder t (H n)) []).1 = _ from this]
      have hc := hcl n hex
      generalize spec n = l at hc
      induction l with
      | nil => exact .nil
      | cons r l ih => exact .cons (Report.note_reports (hc r (by simp)) a1 a2) (ih fun r hr => hc r (by simp [hr]))
  · have hfc : fs.contains (classOf n) = false := by simpa using hf
    simp only [hfc, Bool.and_false, Bool.false_eq_true, if_false]
    have : amongClass Xs ((H n).postCheck ⟨env, m', related⟩ (m'.fieldAdder t (H n)) []).1 = [] := among_only fun x hx hc => by
      have h1 := postCheck_own _ _ _ x hx
      rw [L.fid, hX.others _ hf _ hc] at h1
      exact nomatch h1
    rw [this]
    split <;> exact .nil

/-- **what the checks of the fields report at the end** -/
theorem Ended.reports (E : Ended env related ls chunks co ts m0 m m') {Xs : List NoteId} {fs : List FieldId} (hX : PostAmong Xs fs)
    (hval : ∀ f ∈ fs, ∀ v, afterCheck f v = v) (spec : List Line → Str → List Report) (hcl : ∀ ks n, ∀ r ∈ spec ks n, r.Clean)
    (hs : ∀ (add : AddNote) (h : Handler) t ks k n, k.kind = m0.kind → n ∈ examined env related k fs ks → Left env related t ks k n h → h.fid = classOf n → h.value = valueOf env related k (classOf n) ks n →
      Tells Xs add (postW ⟨env, m', related⟩ add h) (spec ks n) (fun _ => True)) :
    Gained Xs m m' (((examined env related m0 fs ls).flatMap fun n => (spec ls n).map (fieldSubject n, ·)) ++
      (examined env related (finishStart env co m) fs ts).flatMap fun n => (spec ts n).map (fieldSubject n, ·)) := by
  obtain ⟨H, Ht, a, b, e, o, ot⟩ := E.posts hX.sections hX.csp
  obtain ⟨_, hk, _⟩ := E.pieces
  refine ⟨_, e, ?_⟩
  exact Each.append (post_reports hX a o hval (spec ls) (fun n _ => hcl ls n) fun add h n => hs add h false ls m0 n rfl)
    (post_reports hX b ot hval (spec ts) (fun n _ => hcl ts n) fun add h n => hs add h true ts (finishStart env co m) n hk)

/-- the value of a header that the checks at the end see -/
theorem Ended.header (E : Ended env related ls chunks co ts m0 m m') (hu : Unpadded ls) {n : Str} (hne : classOf n ≠ .unknownField) (hb : (classOf n).info.kind ≠ .broken)
    (hv : (classOf n).validIn m0.kind = true) :
    dget m'.headers.parsed n = if n ∈ namesOf ls then some (afterCheck (classOf n) (valueOf env related m0 (classOf n) ls n)) else none := by
  obtain ⟨⟨m1, h1, hs1⟩, hk, ht⟩ := E.pieces
  have h2 := section_values (t := false) E.start E.new hu h1 n
  have hh : m'.headers = m1.headers := by
    obtain ⟨rn, hf⟩ := E.finish
    have hs := finishContent_sections env related co ts m
    unfold Finishes at hf
    rw [hf] at hs
    rw [hs.1, ← hs1.1]
    split
    · rfl
    · obtain ⟨_, _, e⟩ := processSection_ext env related true ts (finishStart env co m)
      rw [e]; rfl
  rw [hh]
  rw [show (m1.section false).parsed = m1.headers.parsed from rfl, show (m0.section false).parsed = m0.headers.parsed from rfl, E.blank] at h2
  rw [h2, fieldValue_class hne hb, if_pos hv]
  rfl

/-- what is reported on the fields `fs` of a section, from the value of each -/
def onFields {α} (fs : List FieldId) (dec : List Line → Str → Option α) (g : Str → α → List Report) (ls : List Line) : List (Str × Report) :=
  (namesAmong fs ls).flatMap fun n => (onParsed (dec ls n) (g n)).map (fieldSubject n, ·)

/-- **what the checks of fields report at the end, from their values** -/
theorem Ended.tells {α} (E : Ended env related ls chunks co ts m0 m m') {Xs : List NoteId} {fs : List FieldId} (hX : PostAmong Xs fs)
    (hval : ∀ f ∈ fs, ∀ v, afterCheck f v = v) (hv : ∀ f ∈ fs, f.validIn m0.kind = true)
    (dec : List Line → Str → Option α) (enc : α → Val) (henc : ∀ a, enc a ≠ .none)
    (hdec : ∀ (k : Msg) ks n, classOf n ∈ fs → valueOf env related k (classOf n) ks n = (match dec ks n with | some a => enc a | none => .none))
    (g : Str → α → List Report) (hcl : ∀ n a, ∀ r ∈ g n a, r.Clean)
    (hs : ∀ (add : AddNote) (h : Handler) t ks k n a, k.kind = m0.kind → classOf n ∈ fs → n ∈ namesOf ks → Left env related t ks k n h → dec ks n = some a →
      h.fid = classOf n → h.value = enc a → Tells Xs add (postW ⟨env, m', related⟩ add h) (g n a) (fun _ => True)) :
    Gained Xs m m' (onFields fs dec g ls ++ onFields fs dec g ts) := by
  have hex : ∀ (k : Msg) ks, k.kind = m0.kind → ((examined env related k fs ks).flatMap fun n => (onParsed (dec ks n) (g n)).map (fieldSubject n, ·)) = onFields fs dec g ks := by
    intro k ks hk
    unfold examined onFields
    rw [flatMap_filter_if]
    apply flatMap_congr_mem
    intro n hn
    obtain ⟨_, hf⟩ := mem_namesAmong.1 hn
    rw [hdec k ks n hf, hk, hv _ hf]
    unfold onParsed
    cases h : dec ks n with
    | none => simp
    | some p =>
      have : (enc p != Val.none) = true := by simpa using henc p
      dsimp only
      rw [this]; rfl
  have := E.reports hX hval (fun ks n => onParsed (dec ks n) (g n)) (by
      intro ks n r hr
      unfold onParsed at hr
      split at hr
      · exact hcl _ _ r hr
      · exact absurd hr (by simp)) (by
      intro add h t ks k n hk hn L hf hv'
      obtain ⟨hmem, hc, _, hne'⟩ := mem_examined.1 hn
      rw [hdec k ks n hc] at hv' hne'
      unfold onParsed
      cases hio : dec ks n with
      | none => rw [hio] at hne'; exact absurd rfl hne'
      | some q =>
        rw [hio] at hv'
        exact hs add h t ks k n q hk hc hmem L hio hf hv')
  rw [hex m0 ls rfl, hex (finishStart env co m) ts E.pieces.2.1] at this
  exact this

end

end HL.Props
