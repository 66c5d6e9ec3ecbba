import Verif.Props.ContextThm
import Verif.Props.PostEx

/-!
# C111 at the end: what the notes of fields that are added when a message ends say they are about
-/

namespace HL.Props
open HL.F

/-! ### specification -/

/-- `x` is the note `y`, possibly with more sub-notes, which have the subject and the context of the note -/
structure Further (y x : Note) : Prop where
  cls : x.cls = y.cls
  subject : x.subject = y.subject
  vars : x.vars = y.vars
  category : x.category = y.category
  kids : ∃ more, x.subnotes = y.subnotes ++ more ∧ ∀ s ∈ more, s.subject = x.subject ∧ ∀ k ∈ contextKeys, dget s.vars k = dget x.vars k

/-! ### proof -/

theorem Further.refl (x : Note) : Further x x := ⟨rfl, rfl, rfl, rfl, [], by simp, by simp⟩

theorem Further.trans {x y z : Note} (h : Further x y) (h' : Further y z) : Further x z := by
  obtain ⟨a1, a2, a3, a4, more, a5, a6⟩ := h
  obtain ⟨b1, b2, b3, b4, more', b5, b6⟩ := h'
  refine ⟨b1.trans a1, b2.trans a2, b3.trans a3, b4.trans a4, more ++ more', by rw [b5, a5, List.append_assoc], ?_⟩
  intro s hs
  rcases List.mem_append.1 hs with hs | hs
  · rw [b2, b3]; exact a6 s hs
  · exact b6 s hs

theorem Further.addChild (x : Note) {cls : NoteId} {vrs : Dict Val} (hv : free (vrs.map (·.1)) = true) : Further x (x.addChild cls vrs) := by
  refine ⟨rfl, rfl, rfl, rfl, [⟨cls, x.subject, dupdate x.vars vrs⟩], rfl, ?_⟩
  intro s hs
  rw [List.mem_singleton] at hs
  subst hs
  exact ⟨rfl, fun k hk => dget_dupdate_free (free_notMem hv hk)⟩

section
variable {mt : Val} {canon : Str} {cat : Cat} {f : FieldId} {s : Str} {ft : Option Val} {add : AddNote}

theorem AboutField.further {x y : Note} (h : AboutField mt canon cat f s ft y) (e : Further y x) : AboutField mt canon cat f s ft x := by
  obtain ⟨a1, a2, a3, a4, more, a5, a6⟩ := e
  refine ⟨by rw [a1, a2]; exact h.subject, by rw [a1, a3]; exact h.fieldName, by rw [a1, a3]; exact h.fieldType, by rw [a3]; exact h.messageType, by rw [a1, a4]; exact h.category, ?_⟩
  intro s hs
  rw [a5] at hs
  rcases List.mem_append.1 hs with hs | hs
  · rw [a2, a3]; exact h.kids s hs
  · exact a6 s hs

theorem addToFirst_further {cls : NoteId} {vrs : Dict Val} (hv : free (vrs.map (·.1)) = true) {ns ns' : List Note} (h : addToFirstCsp (cls, vrs) ns = some ns') :
    ∀ x ∈ ns', ∃ y ∈ ns, Further y x := by
  induction ns generalizing ns' with
  | nil => exact nomatch h
  | cons n ns ih =>
    unfold addToFirstCsp at h
    split at h
    · obtain rfl := Option.some.inj h
      intro x hx
      rcases List.mem_cons.1 hx with rfl | hx
      · exact ⟨n, List.mem_cons_self .., Further.addChild n hv⟩
      · exact ⟨x, List.mem_cons_of_mem _ hx, .refl x⟩
    · cases hr : addToFirstCsp (cls, vrs) ns with
      | none => rw [hr] at h; exact nomatch h
      | some r =>
        rw [hr] at h
        obtain rfl := Option.some.inj h
        intro x hx
        rcases List.mem_cons.1 hx with rfl | hx
        · exact ⟨x, List.mem_cons_self .., .refl x⟩
        · obtain ⟨y, hy, e⟩ := ih hr x hx
          exact ⟨y, List.mem_cons_of_mem _ hy, e⟩

/-- the notes of `ns'` were there, or are about the field -/
def Gains (mt : Val) (canon : Str) (cat : Cat) (f : FieldId) (s : Str) (ft : Option Val) (ns ns' : List Note) : Prop :=
  ∀ x ∈ ns', (∃ y ∈ ns, Further y x) ∨ AboutField mt canon cat f s ft x

theorem Gains.refl (ns : List Note) : Gains mt canon cat f s ft ns ns := fun x hx => .inl ⟨x, hx, .refl x⟩

theorem Gains.trans {a b c : List Note} (h : Gains mt canon cat f s ft a b) (h' : Gains mt canon cat f s ft b c) : Gains mt canon cat f s ft a c := by
  intro x hx
  rcases h' x hx with ⟨y, hy, e⟩ | h'
  · rcases h y hy with ⟨z, hz, e'⟩ | h
    · exact .inl ⟨z, hz, e'.trans e⟩
    · exact .inr (h.further e)
  · exact .inr h'

theorem Gains.bears (hf : Fits add mt canon s ft) {w : W Unit} (hw : Emits (Bears add cat) w) (ns : List Note) :
    Gains mt canon cat f s ft ns (appendW ns w).1 := by
  intro x hx
  rcases List.mem_append.1 (show x ∈ ns ++ w.notes from hx) with hx | hx
  · exact .inl ⟨x, hx, .refl x⟩
  · exact .inr ((hw x hx).about hf)

theorem cspPost_gains (hf : Fits add mt canon s ft) (c ro h) (ns : List Note) : Gains mt canon cat f s ft ns (csp.postCheck c add ro h ns).1 := by
  unfold csp.postCheck
  split
  · exact .refl _
  · split
    · exact .refl _
    · rename_i missing hm
      clear hm
      dsimp only
      induction missing generalizing ns with
      | nil => exact .refl _
      | cons e es ih =>
        rw [List.foldl_cons]
        refine Gains.trans ?_ (ih _)
        split
        · rename_i ns' he
          exact fun x hx => .inl (addToFirst_further (rfl) he x hx)
        · exact Gains.bears hf (w := add.add .CSP_REPORT_TO_MISSING [(str "endpoint", .str e), (str "report_only_text", .str ro.text)]) (bears_add hf.uniq (rfl) rfl) ns

theorem postCheck_gains (hf : Fits add mt canon s ft) (c : Ctx) (h : Handler) (ns : List Note) : Gains mt canon cat f s ft ns (h.postCheck c add ns).1 := by
  unfold Handler.postCheck
  split
  · exact .bears hf (accept_ch_post_bears hf.uniq _ _) _
  · exact .bears hf (available_dictionary_post_bears hf.uniq _) _
  · exact .bears hf (content_encoding_post_bears hf.uniq _) _
  · exact cspPost_gains hf _ _ _ _
  · exact cspPost_gains hf _ _ _ _
  · exact .bears hf (tokenPolicyPostCheck_bears hf.uniq _ _ _ _ (by decide) rfl) _
  · exact .bears hf (tokenPolicyPostCheck_bears hf.uniq _ _ _ _ (by decide) rfl) _
  · exact .bears hf (tokenPolicyPostCheck_bears hf.uniq _ _ _ _ (by decide) rfl) _
  · exact .bears hf (tokenPolicyPostCheck_bears hf.uniq _ _ _ _ (by decide) rfl) _
  · exact .bears hf (nel_post_bears hf.uniq _ _) _
  · exact .refl _

theorem postCheckHandlers_gains {env related t} {hs : List Handler} {m m' : Msg} (hm : m.defaults = mtDefaults mt)
    (h : postCheckHandlers env related t hs m = (m', .ok ())) :
    ∀ x ∈ m'.notes, (∃ y ∈ m.notes, Further y x) ∨ ∃ hd ∈ hs, ∀ cat f, AboutField mt hd.canonicalName cat f (str "field-" ++ lower hd.canonicalName) (some (fieldType t)) x := by
  induction hs generalizing m with
  | nil =>
    unfold postCheckHandlers at h
    obtain ⟨rfl, _⟩ := Prod.mk.inj h
    exact fun x hx => .inl ⟨x, hx, .refl x⟩
  | cons hd hs ih =>
    unfold postCheckHandlers at h
    split at h
    · intro x hx
      rcases ih hm h x hx with h | ⟨hd', h1, h2⟩
      · exact .inl h
      · exact .inr ⟨hd', List.mem_cons_of_mem _ h1, h2⟩
    · have g := fun cat f => postCheck_gains (cat := cat) (f := f) (fieldAdder_fits hm t hd) ⟨env, m, related⟩ hd m.notes
      generalize hd.postCheck ⟨env, m, related⟩ (m.fieldAdder t hd) m.notes = q at h g
      obtain ⟨ns, r⟩ := q
      dsimp only at h g
      cases r with
      | error e => exact nomatch (Prod.mk.inj h).2
      | ok u =>
        dsimp only at h
        intro x hx
        rcases ih (m := { m with notes := ns }) hm h x hx with ⟨y, hy, e⟩ | ⟨hd', h1, h2⟩
        · by_cases hh : ∃ z ∈ m.notes, Further z x
          · exact .inl hh
          · refine .inr ⟨hd, List.mem_cons_self .., fun cat f => ?_⟩
            rcases g cat f y hy with ⟨z, hz, e'⟩ | g
            · exact absurd ⟨z, hz, e'.trans e⟩ hh
            · exact g.further e
        · exact .inr ⟨hd', List.mem_cons_of_mem _ h1, h2⟩
end

/-! ### the theorem -/

section
variable {env : Env} {related : Option Msg} {ls ts : List Line} {chunks : List Str} {co : Bool} {m0 m m' : Msg}

theorem Left.shown {t} {m : Msg} {n : Str} {h : Handler} (L : Left env related t ls m n h) : h.canonicalName = shownName (spelling ls n) := by
  have : h.canonicalName = (mkHandler (classOf (spelling ls n)) (spelling ls n)).canonicalName := by
    rw [L.canon]
    unfold readHandler handlerFor
    split
    · rw [(fed_id _ _ _).canon]
    · rw [(checked_id _ _).canon]
  rw [this, (mkHandler_shown _).1]

/-- **C111, when a message ends**: every note on a field that a message has in the end was there before (with, possibly, more sub-notes,
that have its subject and context), or is about a line or field of the trailers, or about a field of the headers or the
trailers; it names the field the way it is shown, its section and the message; its category is that of its class or of the field -/
theorem C111_at_end (E : Ended env related ls chunks co ts m0 m m') :
    let mt : Val := .str (env.render.translate m0.kind.name)
    ∀ x ∈ m'.notes, x.cls.origin = .field → (∃ y ∈ m.notes, Further y x) ∨
      (∃ p ∈ numbered m0.kind 0 ts, LineAbout mt (fun n => shownName (spelling ts n)) (fun n => shownCategory (spelling ts n)) p x) ∨
      (∃ sec ∈ [(false, ls), (true, ts)], ∃ n ∈ namesOf sec.2, AboutField mt (shownName (spelling sec.2 n)) (shownCategory (spelling sec.2 n)) (classOf n)
        (str "field-" ++ lower (shownName (spelling sec.2 n))) (some (fieldType sec.1)) x) := by
  obtain ⟨H, Ht, m2, m4, m5, hHL, hHtL, h2, h4, _, h5, h6⟩ := E.steps
  obtain ⟨_, hk, _⟩ := E.pieces
  obtain ⟨rn, hfin⟩ := E.finish
  have hd : m.defaults = mtDefaults (.str (env.render.translate m0.kind.name)) := by rw [E.reach.defaults, hk]; rfl
  have hd' : m'.defaults = m.defaults := by
    have := finishContent_defaults env related co ts m
    rw [hfin] at this
    exact this
  obtain ⟨ns5, e5⟩ := postCheckHandlers_frame h5
  obtain ⟨ns6, e6⟩ := postCheckHandlers_frame h6
  have hd5 : m5.defaults = m'.defaults := by rw [e6]
  have hd4 : m4.defaults = m'.defaults := by rw [e6, e5]
  intro mt x hx ho
  have later : ∀ {y : Note}, y ∈ m4.notes → Further y x → (∃ y ∈ m.notes, Further y x) ∨
      (∃ p ∈ numbered m0.kind 0 ts, LineAbout mt (fun n => shownName (spelling ts n)) (fun n => shownCategory (spelling ts n)) p x) ∨
      (∃ sec ∈ [(false, ls), (true, ts)], ∃ n ∈ namesOf sec.2, AboutField mt (shownName (spelling sec.2 n)) (shownCategory (spelling sec.2 n)) (classOf n)
        (str "field-" ++ lower (shownName (spelling sec.2 n))) (some (fieldType sec.1)) x) := by
    intro y hy e
    have hoy : y.cls.origin = .field := by rw [← e.cls]; exact ho
    have hy2 : y ∈ m2.notes := by
      have : y ∈ amongClass [y.cls] m4.notes := by unfold amongClass; rw [List.mem_filter]; exact ⟨hy, by simp⟩
      rw [h4 _ (by intro X hX; rw [List.mem_singleton] at hX; rw [hX]; exact hoy)] at this
      exact (List.mem_filter.1 this).1
    rcases h2 with ⟨_, rfl⟩ | P
    · exact .inl ⟨y, hy2, e⟩
    · obtain ⟨added, e1, p1⟩ := C111_context P
      rw [e1] at hy2
      rcases List.mem_append.1 hy2 with hy2 | hy2
      · exact .inl ⟨y, hy2, e⟩
      · have hkk : (finishStart env co m).kind = m0.kind := hk
        rw [hkk] at p1
        rcases p1 y hy2 with ⟨p, hp, h | h⟩ | ⟨n, hn, h⟩ | h
        · exact .inr (.inl ⟨p, hp, .inl (h.further e)⟩)
        · rcases h.1 with h | h <;> (rw [h] at hoy; exact nomatch hoy)
        · exact .inr (.inr ⟨(true, ts), by simp, n, hn, h.further e⟩)
        · have := h.1; rw [this] at hoy; exact nomatch hoy
  rcases postCheckHandlers_gains (hd5.trans (hd'.trans hd)) h6 x hx with ⟨y, hy, e⟩ | ⟨h, hh, hab⟩
  · rcases postCheckHandlers_gains (hd4.trans (hd'.trans hd)) h5 y hy with ⟨z, hz, e'⟩ | ⟨h, hh, hab⟩
    · exact later hz (e'.trans e)
    · obtain ⟨n, hn, rfl⟩ := List.mem_map.1 hh
      refine .inr (.inr ⟨(false, ls), by simp, n, hn, ?_⟩)
      have := (hab (shownCategory (spelling ls n)) (classOf n)).further e
      rw [(hHL n hn).shown] at this
      exact this
  · obtain ⟨n, hn, rfl⟩ := List.mem_map.1 hh
    refine .inr (.inr ⟨(true, ts), by simp, n, hn, ?_⟩)
    have := hab (shownCategory (spelling ts n)) (classOf n)
    rw [(hHtL n hn).shown] at this
    exact this
/-- the notes on fields that a whole message has, from its first line to its end -/
theorem C111_whole {env : Env} {kind : MsgKind} {start : Option Rat} {noContent head : Bool} {related : Option Msg} {top : Op}
    (htop : (∃ a b c, top = .requestTopline a b c) ∨ ∃ a b c, top = .responseTopline a b c) {ls ts : List Line} {chunks : List Str} {co : Bool} {w' : World}
    (h : RunsTo env ([top, .headers ls] ++ chunks.map .feed ++ [.finish co ts]) ⟨fresh env kind start noContent head, related⟩ w') :
    let mt : Val := .str (env.render.translate kind.name)
    ∀ x ∈ w'.msg.notes, x.cls.origin = .field → ∃ sec ∈ [(false, ls), (true, ts)],
      (∃ p ∈ numbered kind 0 sec.2, LineAbout mt (fun n => shownName (spelling sec.2 n)) (fun n => shownCategory (spelling sec.2 n)) p x) ∨
      (∃ n ∈ namesOf sec.2, AboutField mt (shownName (spelling sec.2 n)) (shownCategory (spelling sec.2 n)) (classOf n)
        (str "field-" ++ lower (shownName (spelling sec.2 n))) (some (fieldType sec.1)) x) := by
  obtain ⟨m0, m, e, hk, E⟩ := Ended.of_calls htop h
  intro mt x hx ho
  have hend := C111_at_end E x hx ho
  rw [hk] at hend
  rcases hend with ⟨y, hy, hyx⟩ | ⟨p, hp, h⟩ | ⟨sec, hs, n, hn, h⟩
  · have hoy : y.cls.origin = .field := by rw [← hyx.cls]; exact ho
    have only : ∀ X ∈ [y.cls], X.origin = .field := fun X hX => by rw [List.mem_singleton] at hX; rw [hX]; exact hoy
    -- nothing is said of fields before the headers
    have h0 : ∀ z ∈ m0.notes, z.cls.origin = .message := by
      have hall : Adds (NoteOf [.message]) (fresh env kind start noContent head).notes m0.notes := by
        rcases htop with ⟨a, b, c, rfl⟩ | ⟨a, b, c, rfl⟩
        · have := (requestTopline_lint env a b c _ (fresh_good env kind start noContent head)).1
          rw [e]; exact this
        · have := (responseTopline_lint a b c _ (fresh_good env kind start noContent head)).1
          rw [e]; exact this
      intro z hz
      have := (Adds.all (stable_of _) hall (by intro n hn; simp [fresh, Msg.new] at hn) z hz).2.1
      rwa [List.mem_singleton] at this
    -- the headers
    obtain ⟨m1, h1, hm⟩ := E.fed
    have hg0 : Good m0 := by
      obtain ⟨r, hr, rfl | ⟨co, rfl⟩⟩ := E.start
      · exact hr.good
      · exact ⟨hr.good.mt, hr.good.hs, hr.good.ts⟩
    have hg : Good m1 := by
      have := (processHeaders_lint env related ls m0 hg0).2
      rwa [h1] at this
    unfold Msg.processHeaders at h1
    obtain ⟨mh, _, hh, hc⟩ := andThen_ok h1
    obtain ⟨ce, ec⟩ := setCharset_same env mh
    rw [hc] at ec
    obtain ⟨added, a1, a2⟩ := C111_context (⟨E.start, E.new, hh⟩ : Processed env related false ls m0 mh)
    rw [hk] at a2
    have hy1 : y ∈ mh.notes := by
      have : y ∈ amongClass [y.cls] m.notes := by unfold amongClass; rw [List.mem_filter]; exact ⟨hy, by simp⟩
      rw [hm, feedAll_among only env chunks m1 hg, show m1.notes = mh.notes from by rw [show m1 = _ from ec]] at this
      exact (List.mem_filter.1 this).1
    rw [a1] at hy1
    rcases List.mem_append.1 hy1 with hy1 | hy1
    · have := h0 y hy1
      rw [hoy] at this
      exact nomatch this
    · refine ⟨(false, ls), by simp, ?_⟩
      rcases a2 y hy1 with ⟨p, hp, h | h⟩ | ⟨n, hn, h⟩ | h
      · exact .inl ⟨p, hp, .inl (h.further hyx)⟩
      · rcases h.1 with h | h <;> (rw [h] at hoy; exact nomatch hoy)
      · exact .inr ⟨n, hn, h.further hyx⟩
      · have := h.1; rw [this] at hoy; exact nomatch hoy
  · exact ⟨(true, ts), by simp, .inl ⟨p, hp, h⟩⟩
  · exact ⟨sec, hs, .inr ⟨n, hn, h⟩⟩

/-! ### examples -/

/-- the notes on fields of a whole response -/
def endNotes (env : Env) (related : Option Msg) (ls : List Line) (ts : List Line) : List Note :=
  (Op.runAll env (wholeCalls okLine ls [] ts) ⟨fresh env .response none false false, related⟩).msg.notes.filter fun x => x.cls.origin == .field

/-- the first policy of a message gets the sub-notes on missing endpoints of all policies, and they name its field, even those of the trailers -/
example : (endNotes structEnv (some clearRequest) [(str "content-security-policy", str "default-src x; report-to a"), (str "accept-ch", str "dpr")]
      [(str "Content-security-policy-report-only", str "default-src y; report-to b")]).map (fun x => (x.cls, x.subject, dget x.vars (str "field_name"), dget x.vars (str "field_type"), x.category)) =
    [(.CONTENT_SECURITY_POLICY, str "field-content-security-policy", some (.str (str "Content-Security-Policy")), some (.str (str "header")), .SECURITY),
      (.CONTENT_SECURITY_POLICY, str "field-content-security-policy-report-only", some (.str (str "Content-Security-Policy-Report-Only")), some (.str (str "trailer")), .SECURITY),
      (.ACCEPT_CH_IN_PLAIN_HTTP, str "field-accept-ch", some (.str (str "Accept-CH")), some (.str (str "header")), .CONNEG),
      (.ACCEPT_CH_MISSING_VARY, str "field-accept-ch", some (.str (str "Accept-CH")), some (.str (str "header")), .CONNEG)] ∧
    (endNotes structEnv (some clearRequest) [(str "content-security-policy", str "default-src x; report-to a"), (str "accept-ch", str "dpr")]
      [(str "Content-security-policy-report-only", str "default-src y; report-to b")]).flatMap (fun x => x.subnotes.map fun s => (x.subject, s.cls, s.subject, dget s.vars (str "endpoint"))) =
    [(str "field-content-security-policy", .CSP_REPORT_TO_MISSING, str "field-content-security-policy", some (.str (str "a"))),
      (str "field-content-security-policy", .CSP_REPORT_TO_MISSING, str "field-content-security-policy", some (.str (str "b")))] := by constructor <;> decide +kernel

/-- the hypotheses of the theorems are met by that message -/
example : RunsTo structEnv ([okLine, .headers [(str "content-security-policy", str "default-src x; report-to a"), (str "accept-ch", str "dpr")]] ++ ([] : List Str).map .feed ++
      [.finish true [(str "Content-security-policy-report-only", str "default-src y; report-to b")]]) ⟨fresh structEnv .response none false false, some clearRequest⟩
    (Op.runAll structEnv (wholeCalls okLine [(str "content-security-policy", str "default-src x; report-to a"), (str "accept-ch", str "dpr")] []
      [(str "Content-security-policy-report-only", str "default-src y; report-to b")]) ⟨fresh structEnv .response none false false, some clearRequest⟩) :=
  runs_of_ranOk (by decide +kernel)

end

end HL.Props
