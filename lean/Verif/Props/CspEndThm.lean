import Verif.Props.PostThm
import Verif.Props.CspThm

/-!
# Content-Security-Policy at the end of a response (C104)
-/

namespace HL.Props
open HL.F

/-! ### specification -/

/-- the fields that carry policies -/
def cspFields : List FieldId := [.content_security_policy_, .content_security_policy_report_only_]

/-- the endpoints that the policies in force report to (`report-to`), and that aren't among those defined -/
def cspUndefined (endpoints policies : List Str) : List Str :=
  ((policies.flatMap fun p => inForce (cspDirectives p)).filter fun d => d.1 == str "report-to" && !endpoints.contains d.2).map (·.2)

/-- what is said of these -/
def cspMissing (onlyReport : Bool) (endpoints policies : List Str) : List (NoteId × Dict Val) :=
  (cspUndefined endpoints policies).map fun e => (.CSP_REPORT_TO_MISSING, [(str "endpoint", .str e),
    (str "report_only_text", .str (if onlyReport then str "\n\nBrowsers will only report violations of this policy, not enforce it." else []))])

/-- what is said of the policies of a section when it's processed (C77) -/
def cspOf (ls : List Line) : List (Str × Report) :=
  (namesAmong cspFields ls).flatMap fun n => (cspReports (decide (classOf n = .content_security_policy_report_only_)) (elementsOf ls n)).map (fieldSubject n, ·)

/-- what is said of them at the end -/
def cspMissingOf (endpoints : List Str) (ls : List Line) : List (NoteId × Dict Val) :=
  (namesAmong cspFields ls).flatMap fun n => cspMissing (decide (classOf n = .content_security_policy_report_only_)) endpoints (elementsOf ls n)

/-- the same, but the first of them has more sub-notes -/
def withKids (ks : List (NoteId × Dict Val)) : List (Str × Report) → List (Str × Report)
  | [] => []
  | (s, r) :: l => (s, { r with kids := r.kids ++ ks }) :: l

/-! ### proof -/

/-- the first of these notes gets these children -/
def attach (ks : List (NoteId × Dict Val)) : List Note → List Note
  | [] => []
  | n :: l => ks.foldl (fun n k => n.addChild k.1 k.2) n :: l

theorem attach_nil (l : List Note) : attach [] l = l := by cases l <;> rfl
theorem attach_append (a b : List (NoteId × Dict Val)) (l : List Note) : attach (a ++ b) l = attach b (attach a l) := by
  cases l with
  | nil => rfl
  | cons n l => show List.foldl _ _ _ :: _ = List.foldl _ (List.foldl _ _ _) _ :: _; rw [List.foldl_append]

theorem attach_head {ks : List (NoteId × Dict Val)} {l : List Note} (h : ∃ n r, l = n :: r ∧ n.cls = .CONTENT_SECURITY_POLICY) :
    ∃ n r, attach ks l = n :: r ∧ n.cls = .CONTENT_SECURITY_POLICY := by
  obtain ⟨n, r, rfl, hn⟩ := h
  exact ⟨_, r, rfl, by rw [(foldl_addChild_cls ks n).1, hn]⟩

theorem addToFirst_attach {Xs : List NoteId} (hc : Xs.contains .CONTENT_SECURITY_POLICY = true) {kid} {ns l : List Note} (hl : amongClass Xs ns = l)
    (h : ∃ n r, l = n :: r ∧ n.cls = .CONTENT_SECURITY_POLICY) : ∃ ns', addToFirstCsp kid ns = some ns' ∧ amongClass Xs ns' = attach [kid] l := by
  obtain ⟨n, r, rfl, hn⟩ := h
  induction ns with
  | nil => exact nomatch hl
  | cons x xs ih =>
    unfold addToFirstCsp
    by_cases hx : x.cls = .CONTENT_SECURITY_POLICY
    · rw [if_pos hx]
      refine ⟨_, rfl, ?_⟩
      have h1 : Xs.contains x.cls = true := by rw [hx]; exact hc
      have h2 : Xs.contains (x.addChild kid.1 kid.2).cls = true := h1
      unfold amongClass at hl ⊢
      rw [List.filter_cons, if_pos h1] at hl
      rw [List.filter_cons, if_pos h2]
      injection hl with e1 e2
      subst e1
      rw [e2]
      rfl
    · rw [if_neg hx]
      by_cases hm : Xs.contains x.cls = true
      · unfold amongClass at hl
        rw [List.filter_cons, if_pos hm] at hl
        injection hl with e1 e2
        exact absurd (e1 ▸ hn) hx
      · have e : amongClass Xs (x :: xs) = amongClass Xs xs := by unfold amongClass; rw [List.filter_cons, if_neg hm]
        rw [e] at hl
        obtain ⟨ns', h1, h2⟩ := ih hl
        refine ⟨x :: ns', by rw [h1]; rfl, ?_⟩
        rw [← h2]
        unfold amongClass
        rw [List.filter_cons, if_neg hm]

/-- the children that the check of a handler at the end adds -/
def kidsAt (c : Ctx) (hd : Handler) : List (NoteId × Dict Val) :=
  if hd.fid ∈ cspFields ∧ hd.value.truthy = true then
    match csp.missingEndpoints c hd with
    | .ok l => l.map fun e => (.CSP_REPORT_TO_MISSING, [(str "endpoint", .str e), (str "report_only_text", .str (cspRo (decide (hd.fid = .content_security_policy_report_only_))).text)])
    | .error _ => []
  else []

theorem cspPost_attach {Xs : List NoteId} (hc : Xs.contains .CONTENT_SECURITY_POLICY = true) {c : Ctx} {add : AddNote} {b : Bool} {hd : Handler} {ns l : List Note}
    (hl : amongClass Xs ns = l) (hf : hd.fid = (if b then .content_security_policy_report_only_ else .content_security_policy_))
    (h : kidsAt c hd = [] ∨ ∃ n r, l = n :: r ∧ n.cls = .CONTENT_SECURITY_POLICY) : amongClass Xs (csp.postCheck c add (cspRo b) hd ns).1 = attach (kidsAt c hd) l := by
  have hfb : hd.fid ∈ cspFields := by rw [hf]; cases b <;> decide
  have hb : decide (hd.fid = .content_security_policy_report_only_) = b := by rw [hf]; cases b <;> decide
  unfold csp.postCheck kidsAt at *
  by_cases ht : hd.value.truthy = true
  · rw [if_neg (by simp [ht])]
    rw [if_pos ⟨hfb, ht⟩] at h ⊢
    rw [hb] at h ⊢
    revert h
    generalize csp.missingEndpoints c hd = me
    intro h
    cases me with
    | error e => exact hl.trans (attach_nil l).symm
    | ok ms =>
      dsimp only at h ⊢
      rw [List.map_eq_nil_iff] at h
      induction ms generalizing ns l with
      | nil => exact hl.trans (attach_nil l).symm
      | cons e es ih =>
        have hh : ∃ n r, l = n :: r ∧ n.cls = .CONTENT_SECURITY_POLICY := h.resolve_left (by simp)
        rw [List.foldl_cons, List.map_cons]
        refine Eq.trans ?_ (attach_append [_] _ l).symm
        obtain ⟨ns', h1, h2⟩ := addToFirst_attach hc (kid := (.CSP_REPORT_TO_MISSING, [(str "endpoint", .str e), (str "report_only_text", .str (cspRo b).text)])) hl hh
        rw [h1]
        exact ih h2 (.inr (attach_head hh))
  · rw [if_pos (by simp [ht]), if_neg fun h => ht h.2]
    exact hl.trans (attach_nil l).symm

theorem post_attach {c : Ctx} {add : AddNote} {hd : Handler} {ns l : List Note} (hl : amongClass cspClasses ns = l)
    (h : kidsAt c hd = [] ∨ ∃ n r, l = n :: r ∧ n.cls = .CONTENT_SECURITY_POLICY) : amongClass cspClasses (hd.postCheck c add ns).1 = attach (kidsAt c hd) l := by
  by_cases hf : hd.fid ∈ cspFields
  · have : hd.fid = .content_security_policy_ ∨ hd.fid = .content_security_policy_report_only_ := by simpa [cspFields] using hf
    rcases this with hf | hf
    · have := cspPost_attach (add := add) (b := false) rfl hl hf h
      unfold Handler.postCheck
      rw [hf]
      exact this
    · have := cspPost_attach (add := add) (b := true) rfl hl hf h
      unfold Handler.postCheck
      rw [hf]
      exact this
  · have hk : kidsAt c hd = [] := by unfold kidsAt; rw [if_neg fun h => hf h.1]
    rw [hk, attach_nil, ← hl]
    have hown := postCheck_own c add hd
    have hap : ∃ w, ∀ ns, hd.postCheck c add ns = (ns ++ w, (hd.postCheck c add ns).2) := by
      have n1 : hd.fid ≠ .content_security_policy_ := fun e => hf (by rw [e]; decide)
      have n2 : hd.fid ≠ .content_security_policy_report_only_ := fun e => hf (by rw [e]; decide)
      unfold Handler.postCheck
      split
      all_goals first | exact ⟨_, fun _ => rfl⟩ | (rename_i e; exact absurd e n1) | (rename_i e; exact absurd e n2) | exact ⟨[], fun ns => by simp only [List.append_nil]⟩
    obtain ⟨w, hw⟩ := hap
    rw [hw] at hown ⊢
    rw [List.nil_append] at hown
    rw [amongClass_append, among_only (ns := w), List.append_nil]
    intro x hx hc
    have h1 := hown x hx
    have : ∀ g, g ∉ cspFields → ∀ X ∈ cspClasses, (postOwn g).contains X = false := by intro g; cases g <;> decide
    rw [this _ hf _ hc] at h1
    exact nomatch h1

theorem posts_attach {env related t} {hs : List Handler} {m m' : Msg} {l : List Note} (hl : amongClass cspClasses m.notes = l)
    (hk : (∀ hd ∈ hs, hd.value ≠ .none → kidsAt ⟨env, m, related⟩ hd = []) ∨ ∃ n r, l = n :: r ∧ n.cls = .CONTENT_SECURITY_POLICY)
    (h : postCheckHandlers env related t hs m = (m', .ok ())) :
    amongClass cspClasses m'.notes = attach (hs.flatMap fun hd => if hd.value = .none then [] else kidsAt ⟨env, m, related⟩ hd) l := by
  induction hs generalizing m l with
  | nil =>
    obtain ⟨rfl, _⟩ := Prod.mk.inj h
    exact hl.trans (attach_nil l).symm
  | cons hd hs ih =>
    unfold postCheckHandlers at h
    rw [List.flatMap_cons]
    by_cases hv : hd.value = .none
    · rw [if_pos hv] at h ⊢
      exact ih hl (hk.imp (fun hk x hx => hk x (by simp [hx])) id) h
    · rw [if_neg hv] at h ⊢
      have h1 := post_attach (add := m.fieldAdder t hd) hl (hk.imp (fun hk => hk hd (by simp) hv) id)
      generalize hd.postCheck ⟨env, m, related⟩ (m.fieldAdder t hd) m.notes = q at h h1
      obtain ⟨notes, r⟩ := q
      cases r with
      | error e => exact absurd h (by simp)
      | ok u =>
        dsimp only at h h1
        rw [attach_append]
        refine ih (m := { m with notes := notes }) h1 ?_ h
        rcases hk with hk | hk
        · exact .inl fun x hx hxv => hk x (by simp [hx]) hxv
        · exact .inr (attach_head hk)

theorem Reports.more {x : Note} {s : Str} {r : Report} (h : Reports x s r) {ks : List (NoteId × Dict Val)} (hk : ∀ k ∈ ks, (k.2.map (·.1)).Nodup) :
    Reports (ks.foldl (fun n k => n.addChild k.1 k.2) x) s { r with kids := r.kids ++ ks } := by
  rw [foldl_addChild]
  refine ⟨h.cls, h.subject, h.vars, ?_⟩
  refine Each.append h.kids ?_
  have hs := h.subject
  clear h
  induction ks with
  | nil => exact .nil
  | cons k ks ih => exact .cons ⟨rfl, hs, dget_given (hk k (by simp))⟩ (ih fun k h => hk k (by simp [h]))

theorem attach_reports {ns : List Note} {l : List (Str × Report)} (h : Each (fun (x : Note) p => Reports x p.1 p.2) ns l) {ks : List (NoteId × Dict Val)} (hk : ∀ k ∈ ks, (k.2.map (·.1)).Nodup) :
    Each (fun (x : Note) p => Reports x p.1 p.2) (attach ks ns) (withKids ks l) := by
  cases h with
  | nil => exact .nil
  | cons h t => exact .cons (h.more hk) t

theorem feedAll_among {Xs : List NoteId} (ho : ∀ X ∈ Xs, X.origin = .field) (env : Env) (chunks : List Str) (m : Msg) (hg : Good m) :
    amongClass Xs (feedAll env chunks m).notes = amongClass Xs m.notes := by
  unfold feedAll
  induction chunks generalizing m with
  | nil => rfl
  | cons c cs ih =>
    rw [List.foldl_cons, ih _ (feedContent_lint env c m hg).2]
    have h : ∃ ns, (m.feedContent env c).1.notes = m.notes ++ ns ∧ ∀ n ∈ ns, n.cls.origin ≠ .field := by
      unfold Msg.feedContent
      dsimp only
      split
      · exact ⟨[], (List.append_nil _).symm, by simp⟩
      · unfold Msg.decodeFeed
        dsimp only
        split
        · exact ⟨[], (List.append_nil _).symm, by simp⟩
        · split
          · exact ⟨[], (List.append_nil _).symm, by simp⟩
          · dsimp only
            rw [sinks_notes]
            refine ⟨_, rfl, fun n hn ho => ?_⟩
            have := (feedPipe_emits hg.mt _ _ _ n hn).2
            rw [ho] at this
            exact nomatch this
    obtain ⟨ns, e, hn⟩ := h
    rw [e, amongClass_append, among_only (ns := ns), List.append_nil]
    exact fun n h1 h2 => hn n h1 (ho _ h2)

section
variable {env : Env} {related : Option Msg} {ls ts : List Line} {chunks : List Str} {co : Bool} {m0 m m' : Msg}

theorem cspMissing_nodup {b eps ps} : ∀ k ∈ cspMissing b eps ps, (k.2.map (·.1)).Nodup := by
  intro k hk
  unfold cspMissing at hk
  obtain ⟨e, _, rfl⟩ := List.mem_map.1 hk
  show ([str "endpoint", str "report_only_text"] : List Str).Nodup
  decide

/-- the children that the check of a field at the end adds, from its policies -/
theorem Left.csp {t} {k : Msg} {n : Str} {h : Handler} (L : Left env related t ls k n h) (hk : k.kind = .response) (hc : classOf n ∈ cspFields) {c : Ctx} {eps : List Str}
    (he : F.endpointNames c = .ok (eps.map .str)) :
    h.value ≠ .none ∧ kidsAt c h = cspMissing (decide (classOf n = .content_security_policy_report_only_)) eps (elementsOf ls n) := by
  have hc' : classOf n = .content_security_policy_ ∨ classOf n = .content_security_policy_report_only_ := by simpa [cspFields] using hc
  obtain ⟨b, hb, hb'⟩ : ∃ b : Bool, classOf n = (if b then .content_security_policy_report_only_ else .content_security_policy_) ∧
      decide (classOf n = .content_security_policy_report_only_) = b := by
    rcases hc' with hc | hc
    · exact ⟨false, hc, by rw [hc]; decide⟩
    · exact ⟨true, hc, by rw [hc]; decide⟩
  have hv : h.value = .list ((elementsOf ls n).map fun p => Val.ofDict ((inForce (cspDirectives p)).map fun e => (e.1, .str e.2))) := by
    have hkind : (classOf n).info.kind = .list := by rw [hb]; cases b <;> rfl
    rw [L.value, fieldValue_class (by rw [hb]; cases b <;> decide) (by rw [hkind]; decide), if_pos (by rw [hb, hk]; cases b <;> rfl),
      valueOf_list hkind (fun x => Val.ofDict ((inForce (cspDirectives x)).map fun e => (e.1, .str e.2))) (fun x => by
        have h1 : parseText ⟨env, k, related⟩ (if b then .content_security_policy_report_only_ else .content_security_policy_) x = (csp.parse (cspRo b) {} x).2.res := by cases b <;> rfl
        rw [hb, h1, csp_parse_eq]
        rfl)]
    unfold elementsOf
    rw [List.map_map, hb]
    cases b <;> rfl
  refine ⟨by rw [hv]; simp, ?_⟩
  unfold kidsAt
  rw [L.fid, hb']
  by_cases hz : elementsOf ls n = []
  · rw [if_neg (by rw [hv, hz]; simp [Val.truthy])]
    rw [hz]
    rfl
  · rw [if_pos ⟨hc, by rw [hv]; simp [Val.truthy, hz]⟩]
    unfold csp.missingEndpoints
    rw [he, hv, csp_all_eq]
    show List.map _ _ = _
    unfold cspMissing cspUndefined
    have e : (cspRo b).text = if b then str "\n\nBrowsers will only report violations of this policy, not enforce it." else [] := by cases b <;> rfl
    rw [e]
    congr 1
    show List.map _ _ = List.map _ _
    congr 1
    apply List.filter_congr
    intro d _
    obtain ⟨a, v⟩ := d
    dsimp only
    rw [mem_named]
    simp

/-- **C104** at the end of a response, there is the note that C77 describes for each `Content-Security-Policy` (or report-only one) of the headers and the trailers, and no
other; and the first of them has, after the sub-notes that C77 describes, one for each endpoint that the policies of the message report to and `Reporting-Endpoints` doesn't
define, in order -/
theorem C104_csp_endpoints (E : Ended env related ls chunks co ts m0 m m') (hu : Unpadded ls) (hk : m0.kind = .response) (hd : DictShape env)
    (h0 : amongClass cspClasses m0.notes = []) :
    Each (fun (x : Note) p => Reports x p.1 p.2) (amongClass cspClasses m'.notes)
      (withKids (cspMissingOf ((endpointsOf env ls).map (·.1)) ls ++ cspMissingOf ((endpointsOf env ls).map (·.1)) ts) (cspOf ls ++ cspOf ts)) := by
  obtain ⟨H, Ht, m2, m4, m5, hH, hHt, h2, h4, hh4, h5, h6⟩ := E.steps
  obtain ⟨ns5, e5⟩ := postCheckHandlers_frame h5
  obtain ⟨ns6, e6⟩ := postCheckHandlers_frame h6
  have hkf : (finishStart env co m).kind = .response := E.pieces.2.1.trans hk
  have hends := E.endpointNames hu hk hd
  have hends' : F.endpointNames ⟨env, m', related⟩ = .ok (((endpointsOf env ls).map (·.1)).map .str) := by rw [hends, List.map_map]; rfl
  have he5 : F.endpointNames ⟨env, m5, related⟩ = .ok (((endpointsOf env ls).map (·.1)).map .str) := by rw [← hends', e6]; rfl
  have he4 : F.endpointNames ⟨env, m4, related⟩ = .ok (((endpointsOf env ls).map (·.1)).map .str) := by rw [← he5, e5]; rfl
  -- the notes of the sections
  have hhead : Each (fun (x : Note) p => Reports x p.1 p.2) (amongClass cspClasses m.notes) (cspOf ls) := by
    obtain ⟨m1, h1, hm⟩ := E.fed
    have hg0 : Good m0 := by
      obtain ⟨r, hr, rfl | ⟨co, rfl⟩⟩ := E.start
      · exact hr.good
      · exact ⟨hr.good.mt, hr.good.hs, hr.good.ts⟩
    have hg : Good m1 := by
      have := (processHeaders_lint env related ls m0 hg0).2
      rwa [h1] at this
    unfold Msg.processHeaders at h1
    obtain ⟨mh, _, hh, hc⟩ := andThen_ok h1
    obtain ⟨ce, ec⟩ := setCharset_same env mh
    rw [hc] at ec
    have P : Processed env related false ls m0 mh := ⟨E.start, E.new, hh⟩
    obtain ⟨added, a1, a2⟩ := C77_csp P hk
    rw [hm, feedAll_among (by decide) env chunks m1 hg]
    rw [show m1.notes = mh.notes from by rw [show m1 = _ from ec], a1, amongClass_append, h0, List.nil_append]
    exact a2
  have hall : Each (fun (x : Note) p => Reports x p.1 p.2) (amongClass cspClasses m4.notes) (cspOf ls ++ cspOf ts) := by
    rw [h4 cspClasses (by decide)]
    rcases h2 with ⟨rfl, rfl⟩ | P
    · have : cspOf [] = [] := rfl
      rw [this, List.append_nil]
      exact hhead
    · obtain ⟨added, a1, a2⟩ := C77_csp P hkf
      rw [a1, amongClass_append]
      exact hhead.append a2
  have kls : ∀ (k : Msg) t ks (H : Str → Handler) c, k.kind = .response → (∀ n ∈ namesOf ks, Left env related t ks k n (H n)) →
      F.endpointNames c = .ok (((endpointsOf env ls).map (·.1)).map .str) →
      (((namesOf ks).map H).flatMap fun hd => if hd.value = .none then [] else kidsAt c hd) = cspMissingOf ((endpointsOf env ls).map (·.1)) ks := by
    intro k t ks H c hk hH he
    unfold cspMissingOf namesAmong
    rw [List.flatMap_map, flatMap_filter_if]
    apply flatMap_congr_mem
    intro n hn
    by_cases hc : classOf n ∈ cspFields
    · obtain ⟨h1, h2⟩ := (hH n hn).csp hk hc he
      rw [if_neg h1, h2, if_pos (by simpa using hc)]
    · have : kidsAt c (H n) = [] := by unfold kidsAt; rw [if_neg]; rw [(hH n hn).fid]; exact fun h => hc h.1
      rw [this, if_neg (c := cspFields.contains (classOf n) = true) (by simpa using hc)]
      split <;> rfl
  have k1 := kls m0 false ls H ⟨env, m4, related⟩ hk hH he4
  have k2 := kls _ true ts Ht ⟨env, m5, related⟩ hkf hHt he5
  have hnone : ∀ ks, cspOf ks = [] → cspMissingOf ((endpointsOf env ls).map (·.1)) ks = [] := by
    intro ks h
    unfold cspOf at h
    unfold cspMissingOf
    rw [List.flatMap_eq_nil_iff] at h ⊢
    intro n hn
    have := h n hn
    rw [List.map_eq_nil_iff] at this
    unfold cspReports sayIf at this
    dsimp only at this
    have hz : elementsOf ks n = [] := by
      by_cases hz : elementsOf ks n = []
      · exact hz
      · rw [if_pos (by simpa using hz)] at this; exact nomatch this
    rw [hz]
    rfl
  have hcond : (cspMissingOf ((endpointsOf env ls).map (·.1)) ls = [] ∧ cspMissingOf ((endpointsOf env ls).map (·.1)) ts = []) ∨
      ∃ n r, amongClass cspClasses m4.notes = n :: r ∧ n.cls = .CONTENT_SECURITY_POLICY := by
    cases hl : cspOf ls ++ cspOf ts with
    | nil =>
      rw [List.append_eq_nil_iff] at hl
      exact .inl ⟨hnone _ hl.1, hnone _ hl.2⟩
    | cons p q =>
      rw [hl] at hall
      generalize hns : amongClass cspClasses m4.notes = ns at hall
      cases hall with
      | cons hr _ =>
        refine .inr ⟨_, _, rfl, hr.cls.trans ?_⟩
        have hp : p ∈ cspOf ls ++ cspOf ts := by rw [hl]; simp
        have : ∀ ks, p ∈ cspOf ks → p.2.cls = .CONTENT_SECURITY_POLICY := by
          intro ks hp
          unfold cspOf at hp
          obtain ⟨n, _, hp⟩ := List.mem_flatMap.1 hp
          obtain ⟨r, hr', rfl⟩ := List.mem_map.1 hp
          rw [(mem_sayIf.1 hr').2]
        rcases List.mem_append.1 hp with hp | hp
        · exact this _ hp
        · exact this _ hp
  have a5 := posts_attach rfl (hcond.imp (fun h hd hh hv => by
      rw [h.1, List.flatMap_eq_nil_iff] at k1
      have := k1 hd hh
      rwa [if_neg hv] at this) id) h5
  rw [k1] at a5
  have a6 := posts_attach a5 (hcond.imp (fun h hd hh hv => by
      rw [h.2, List.flatMap_eq_nil_iff] at k2
      have := k2 hd hh
      rwa [if_neg hv] at this) fun h => attach_head h) h6
  rw [k2, ← attach_append] at a6
  rw [a6]
  refine attach_reports hall fun k hk => ?_
  rcases List.mem_append.1 hk with hk | hk <;> (unfold cspMissingOf at hk; obtain ⟨n, _, hk⟩ := List.mem_flatMap.1 hk; exact cspMissing_nodup k hk)

/-- **C104** (in terms of calls) the notes on the policies of a whole response -/
theorem C104_whole_response {start noContent head} {version status : Str} {phrase : Option Str} {w' : World}
    (h : RunsTo env ([.responseTopline version status phrase, .headers ls] ++ chunks.map .feed ++ [.finish co ts]) ⟨fresh env .response start noContent head, related⟩ w')
    (hu : Unpadded ls) (hd : DictShape env) :
    Each (fun (x : Note) p => Reports x p.1 p.2) (amongClass cspClasses w'.msg.notes)
      (withKids (cspMissingOf ((endpointsOf env ls).map (·.1)) ls ++ cspMissingOf ((endpointsOf env ls).map (·.1)) ts) (cspOf ls ++ cspOf ts)) := by
  obtain ⟨m0, m, e, hk, E⟩ := Ended.of_calls (.inr ⟨_, _, _, rfl⟩) h
  refine C104_csp_endpoints E hu hk hd ?_
  have := (responseTopline_lint version status phrase _ (fresh_good env .response start noContent head)).1
  have hall := Adds.all (stable_of _) this (by intro n hn; simp [fresh, Msg.new] at hn)
  have e' : m0.notes = ((fresh env .response start noContent head).responseTopline version status phrase).1.notes := by rw [e]; rfl
  rw [e']
  refine among_only fun n hn hc => ?_
  have h1 := (hall n hn).2.1
  rw [List.mem_singleton] at h1
  have : ∀ X ∈ cspClasses, X.origin = .field := by decide
  rw [this _ hc] at h1
  exact nomatch h1

end

end HL.Props
