import Verif.Props.PinpointThm

/-!
# C12: field names are case-insensitive
-/

namespace HL.Props

/-! ### specification -/

/-- an octet of a name, with ASCII capitals made small -/
def smallLetter (c : Nat) : Nat := if 65 ≤ c ∧ c ≤ 90 then c + 32 else c

/-- the same line with letters of its name in other cases (names are octets; only ASCII letters have case) -/
def Recased (l l' : Line) : Prop := l.2 = l'.2 ∧ l.1.map smallLetter = l'.1.map smallLetter

/-- line by line -/
def RecasedLines : List Line → List Line → Prop
  | [], [] => True
  | l :: ls, l' :: ls' => Recased l l' ∧ RecasedLines ls ls'
  | _, _ => False

/-! ### handlers -/

/-- handlers that differ in how the name is spelled only -/
structure HRel (h h' : Handler) : Prop where
  eq : h' = { h with wireName := h'.wireName, canonicalName := h'.canonicalName }
  tok : isToken h.wireName = isToken h'.wireName
  canon : lower h.canonicalName = lower h'.canonicalName
  named : h.fid.info.canonicalName ≠ none → h.canonicalName = h'.canonicalName

theorem HRel.refl (h : Handler) : HRel h h := ⟨rfl, rfl, rfl, fun _ => rfl⟩
theorem HRel.fid {h h'} (r : HRel h h') : h'.fid = h.fid := by rw [r.eq]
theorem HRel.value {h h'} (r : HRel h h') : h'.value = h.value := by rw [r.eq]
theorem HRel.aux {h h'} (r : HRel h h') : h'.aux = h.aux := by rw [r.eq]
theorem HRel.raw {h h'} (r : HRel h h') : h'.raw = h.raw := by rw [r.eq]
theorem HRel.sfp {h h'} (r : HRel h h') : h'.sfParsed = h.sfParsed := by rw [r.eq]
theorem HRel.cat {h h'} (r : HRel h h') : h'.category = h.category := by rw [r.eq]
theorem HRel.ref {h h'} (r : HRel h h') : h'.reference = h.reference := by rw [r.eq]
theorem HRel.norm {h h'} (r : HRel h h') : h'.normName = h.normName := by rw [r.eq]

/-- change the attributes that do not come from the name in both -/
theorem HRel.set {h h'} (r : HRel h h') (v raw sf aux) :
    HRel { h with value := v, raw := raw, sfParsed := sf, aux := aux } { h' with value := v, raw := raw, sfParsed := sf, aux := aux } :=
  ⟨by rw [r.eq], r.tok, r.canon, r.named⟩

/-- adders for the two: the same subject, and the same variables unless the name has no other spelling -/
structure AddRel (f : FieldId) (a a' : AddNote) : Prop where
  subject : a.subject = a'.subject
  named : f.info.canonicalName ≠ none → a = a'

theorem AddRel.sim {f a a'} (h : AddRel f a a') : AddSim true a a' := fun _ => h.subject

theorem unnamed_parse {h : Handler} (hn : h.fid.info.canonicalName = none) (c add v) : (h.parse c add v).1 = h.aux := by
  unfold Handler.parse Handler.noAux
  split <;> first | rfl | (rename_i hf; rw [hf] at hn; exact nomatch hn)

theorem unnamed_evaluate {h : Handler} (hn : h.fid.info.canonicalName = none) (c add) : h.evaluate c add = (h, pure ()) := by
  unfold Handler.evaluate
  split <;> first | rfl | (rename_i hf; rw [hf] at hn; exact nomatch hn)

/-- the handler with another spelling -/
def respell (h : Handler) (w n : Str) : Handler := { h with wireName := w, canonicalName := n }

theorem HRel.ex {h h'} (r : HRel h h') : ∃ w n, h' = respell h w n := ⟨_, _, r.eq⟩

theorem parse_names (h : Handler) (c add v w n) : ((respell h w n).parse c add v).1 = (h.parse c add v).1 := by
  unfold Handler.parse Handler.noAux respell
  dsimp only
  split <;> rfl

theorem parse_rel {h h'} (r : HRel h h') {a a'} (ha : AddRel h.fid a a') (c v) :
    (h'.parse c a' v).1 = (h.parse c a v).1 ∧ Sim true (h.parse c a v).2 (h'.parse c a' v).2 := by
  refine ⟨?_, (Handler.parse_sim ha.sim r.fid.symm (by rw [r.aux]; exact .refl _) c v).2⟩
  by_cases hn : h.fid.info.canonicalName = none
  · rw [unnamed_parse hn, unnamed_parse (by rw [r.fid]; exact hn), r.aux]
  · rw [← ha.named hn]; obtain ⟨w, n, rfl⟩ := r.ex; exact parse_names ..

theorem elementSyntax_rel {h h'} (r : HRel h h') {a a'} (ha : AddRel h.fid a a') (v) : Sim true (h.elementSyntax a v) (h'.elementSyntax a' v) := by
  unfold Handler.elementSyntax
  rw [r.fid, r.ref, r.cat]
  have := ha.sim
  split
  · exact .refl _
  · split
    · exact .refl _
    · split
      · exact sim_bind (.refl _) fun _ => sim_add this
      · exact sim_when (sim_add this)

theorem append_rel {h h'} (r : HRel h h') (x) :
    (∃ e, h.append x = .error e ∧ h'.append x = .error e) ∨ ∃ k k', h.append x = .ok k ∧ h'.append x = .ok k' ∧ HRel k k' := by
  unfold Handler.append
  rw [r.value]
  split
  · refine .inr ⟨_, _, rfl, rfl, ?_⟩
    exact ⟨by rw [r.eq], r.tok, r.canon, r.named⟩
  · exact .inl ⟨_, rfl, rfl⟩

/-- the outcome of a step on a handler -/
structure OutRel {α} (p p' : Handler × W α) : Prop where
  h : HRel p.1 p'.1
  w : Sim true p.2 p'.2

theorem sim_prefix {α} {ns ns' : List Note} {w w' : W α} (hn : ns.map (noteKey true) = ns'.map (noteKey true)) (hw : Sim true w w') :
    Sim true (prefixNotes ns w) (prefixNotes ns' w') := ⟨hw.res, by unfold prefixNotes; rw [List.map_append, List.map_append, hn, hw.notes]⟩

theorem HRel.setAux {h h'} (r : HRel h h') (a) : HRel { h with aux := a } { h' with aux := a } := ⟨by rw [r.eq], r.tok, r.canon, r.named⟩
theorem HRel.setValue {h h'} (r : HRel h h') (v) : HRel { h with value := v } { h' with value := v } := ⟨by rw [r.eq], r.tok, r.canon, r.named⟩

theorem append_fid {h k : Handler} {x} (e : h.append x = .ok k) : k.fid = h.fid := (append_id e).fid

theorem listLoop_rel (c : Ctx) {f : FieldId} {a a'} (ha : AddRel f a a') (vs : List Str) :
    ∀ {h h' : Handler}, h.fid = f → HRel h h' → OutRel (h.listLoop c a vs) (h'.listLoop c a' vs) := by
  induction vs with
  | nil => intro h h' _ r; exact ⟨r, .refl _⟩
  | cons v vs ih =>
    intro h h' hf r
    unfold Handler.listLoop
    have hs := elementSyntax_rel r (hf ▸ ha) v
    have hp := parse_rel r (hf ▸ ha) c (strip v)
    dsimp only
    generalize h.elementSyntax a v = s at *
    generalize h'.elementSyntax a' v = s' at *
    generalize h.parse c a (strip v) = p at *
    generalize h'.parse c a' (strip v) = p' at *
    obtain ⟨ax, w⟩ := p
    obtain ⟨ax', w'⟩ := p'
    obtain ⟨hax, hw⟩ := hp
    dsimp only at hax hw ⊢
    subst hax
    rw [← hs.res]
    have hns : (s.notes ++ w.notes).map (noteKey true) = (s'.notes ++ w'.notes).map (noteKey true) := by
      rw [List.map_append, List.map_append, hs.notes, hw.notes]
    cases s.res with
    | error e => exact ⟨r, ⟨rfl, hs.notes⟩⟩
    | ok u =>
      dsimp only
      rw [← hw.res]
      cases w.res with
      | error e =>
        dsimp only
        split
        · have := ih (h := { h with aux := ax' }) (h' := { h' with aux := ax' }) hf (r.setAux _)
          exact ⟨this.h, sim_prefix hns this.w⟩
        · exact ⟨r.setAux _, rfl, hns⟩
      | ok x =>
        dsimp only
        rcases append_rel (r.setAux ax') x with ⟨e, h1, h2⟩ | ⟨k, k', h1, h2, hk⟩
        · rw [h1, h2]; exact ⟨r.setAux _, rfl, hns⟩
        · rw [h1, h2]
          have := ih (h := k) (h' := k') (by rw [append_fid h1]; exact hf) hk
          exact ⟨this.h, sim_prefix hns this.w⟩

theorem offsetAdd_rel {h h'} (r : HRel h h') (d o) : AddRel h.fid (h.offsetAdd d o) (h'.offsetAdd d o) :=
  ⟨rfl, fun hn => by unfold Handler.offsetAdd; rw [r.named hn]⟩

/-! ### messages -/

/-- handlers kept under the same keys -/
inductive HsRel : Dict Handler → Dict Handler → Prop where
  | nil : HsRel [] []
  | cons (k : Str) {h h' d d'} (r : HRel h h') (s : HsRel d d') : HsRel ((k, h) :: d) ((k, h') :: d')

theorem HsRel.keys {d d'} (r : HsRel d d') : d.map (·.1) = d'.map (·.1) := by
  induction r with
  | nil => rfl
  | cons k r s ih => simp only [List.map_cons, ih]

theorem HsRel.rel {d d'} (r : HsRel d d') : ∀ k h h', dget d k = some h → dget d' k = some h' → HRel h h' := by
  induction r with
  | nil => intro k h h' e; simp [dget] at e
  | cons k r s ih =>
    intro k2 h h' e e'
    rw [dget_cons] at e e'
    split at e
    · rename_i hk
      rw [if_pos hk] at e'
      cases e; cases e'; exact r
    · rename_i hk
      rw [if_neg hk] at e'
      exact ih _ _ _ e e'

/-- sections that differ in spellings only -/
structure SRel (s s' : Section) : Prop where
  eq : s' = { s with text := s'.text, handlers := s'.handlers }
  text : s.text.map (fun l => (lower l.1, l.2)) = s'.text.map (fun l => (lower l.1, l.2))
  hs : HsRel s.handlers s'.handlers

/-- messages that differ in the spelling of field names, and in the variables of notes, only -/
structure MRel (m m' : Msg) : Prop where
  eq : m' = { m with notes := m'.notes, headers := m'.headers, trailers := m'.trailers }
  notes : m.notes.map (noteKey true) = m'.notes.map (noteKey true)
  head : SRel m.headers m'.headers
  trail : SRel m.trailers m'.trailers

theorem HsRel.refl : ∀ d, HsRel d d
  | [] => .nil
  | (k, _) :: d => .cons k (.refl _) (HsRel.refl d)
theorem SRel.refl (s) : SRel s s := ⟨rfl, rfl, .refl _⟩
theorem MRel.refl (m) : MRel m m := ⟨rfl, rfl, .refl _, .refl _⟩

theorem HsRel.dhas {d d'} (r : HsRel d d') (k) : dhas d k = dhas d' k := by
  rw [Bool.eq_iff_iff, dhas_iff_mem_keys, dhas_iff_mem_keys, r.keys]

theorem HsRel.dset {d d'} (r : HsRel d d') {h h'} (hr : HRel h h') (k) : HsRel (dset d k h) (dset d' k h') := by
  induction r with
  | nil => exact .cons _ hr .nil
  | cons k2 r s ih =>
    unfold HL.dset
    split
    · exact .cons _ hr s
    · exact .cons _ r ih

theorem HsRel.get {d d'} (r : HsRel d d') (k) : (dget d k = none ∧ dget d' k = none) ∨ ∃ h h', dget d k = some h ∧ dget d' k = some h' ∧ HRel h h' := by
  have := r.dhas k
  rw [← dget_isSome, ← dget_isSome] at this
  cases h1 : dget d k with
  | none => rw [h1] at this; exact .inl ⟨rfl, by cases h2 : dget d' k <;> rw [h2] at this <;> simp at this ⊢⟩
  | some h =>
    rw [h1] at this
    cases h2 : dget d' k with
    | none => rw [h2] at this; simp at this
    | some h' => exact .inr ⟨h, h', rfl, rfl, r.rel _ _ _ h1 h2⟩

theorem HRel.trans {a b c : Handler} (r : HRel a b) (s : HRel b c) : HRel a c :=
  ⟨by rw [s.eq]; rw [r.eq], r.tok.trans s.tok, r.canon.trans s.canon, fun h => (r.named h).trans (s.named (by rw [r.fid]; exact h))⟩

/-- a new handler -/
theorem mkHandler_rel {a b : Str} (f : FieldId) (h : lower a = lower b) : HRel (mkHandler f a) (mkHandler f b) := by
  have h2 : lower (strip a) = lower (strip b) := by rw [← strip_lower, ← strip_lower, h]
  refine ⟨?_, ?_, mkHandler_canon h, ?_⟩
  · unfold mkHandler
    dsimp only
    rw [h2]
    split <;> rfl
  · rw [mkHandler_wire, mkHandler_wire]; exact isToken_lower h
  · rw [mkHandler_fid]
    intro hn
    unfold mkHandler
    dsimp only
    rw [h2]
    split
    · rfl
    · obtain ⟨x, hc⟩ := Option.ne_none_iff_exists'.1 hn
      dsimp only
      rw [hc]; rfl

theorem findHandler_rel {d d'} (r : HsRel d d') {a b : Str} (h : lower a = lower b) : HRel (findHandler d a) (findHandler d' b) := by
  unfold findHandler
  rw [← h]
  rcases r.get (lower a) with ⟨h1, h2⟩ | ⟨x, x', h1, h2, hr⟩
  · rw [h1, h2]
    dsimp only
    rw [C23_case_insensitive a b h]
    exact mkHandler_rel _ h
  · rw [h1, h2]; exact hr

/-! ### checks do not see the difference -/

theorem parse_msg (h : Handler) (env : Env) (m : Msg) (rel : Option Msg) (ns s s' add v) :
    h.parse ⟨env, { m with notes := ns, headers := s, trailers := s' }, rel⟩ add v = h.parse ⟨env, m, rel⟩ add v := by
  unfold Handler.parse
  split <;> rfl

theorem hsts_any {ns ns' : List Note} (h : ns.map (noteKey true) = ns'.map (noteKey true)) :
    ns.any (fun n => F.hstsInvalidating.contains n.cls) = ns'.any (fun n => F.hstsInvalidating.contains n.cls) := by
  have h1 : ns.map (·.cls) = ns'.map (·.cls) := by
    have := congrArg (List.map (·.1)) h
    rwa [List.map_map, List.map_map] at this
  have e : ∀ l : List Note, l.any (fun n => F.hstsInvalidating.contains n.cls) = (l.map (·.cls)).any (fun c => F.hstsInvalidating.contains c) := by
    intro l; rw [List.any_map]; rfl
  rw [e, e, h1]

theorem linkTokens_msg {c c' : Ctx} (he : c.env = c'.env) (hb : c.msg.baseUri = c'.msg.baseUri) (lv) :
    ∀ ts, F.link.tokens c lv ts = F.link.tokens c' lv ts
  | [] => rfl
  | t :: ts => by unfold F.link.tokens; rw [linkTokens_msg he hb lv ts, he, hb]

theorem linkHints_msg {c c' : Ctx} (he : c.env = c'.env) (hb : c.msg.baseUri = c'.msg.baseUri) :
    ∀ xs, F.link.hints c xs = F.link.hints c' xs
  | [] => rfl
  | x :: xs => by
    unfold F.link.hints
    rw [linkHints_msg he hb xs]
    congr 1
    funext p
    dsimp only
    split
    · rw [linkTokens_msg he hb]
    · rfl

theorem link_msg {c c' : Ctx} (he : c.env = c'.env) (hb : c.msg.baseUri = c'.msg.baseUri) (add h) :
    F.link.evaluate c add h = F.link.evaluate c' add h := by
  unfold F.link.evaluate
  congr 1
  funext items
  rw [linkHints_msg he hb]

theorem permissionsItem_msg {c c' : Ctx} (he : c.env = c'.env) (f x) : F.permissions_policy.item c f x = F.permissions_policy.item c' f x := by
  unfold F.permissions_policy.item
  rw [he]

theorem permissionsFeatures_msg {c c' : Ctx} (he : c.env = c'.env) : ∀ ps, F.permissions_policy.features c ps = F.permissions_policy.features c' ps
  | [] => rfl
  | p :: ps => by
    unfold F.permissions_policy.features
    rw [permissionsFeatures_msg he ps]
    have : F.permissions_policy.feature c p.1 p.2 = F.permissions_policy.feature c' p.1 p.2 := by
      unfold F.permissions_policy.feature
      have hi : F.permissions_policy.item c p.1 = F.permissions_policy.item c' p.1 := funext fun x => permissionsItem_msg he _ x
      rw [hi]
    rw [this]

theorem permissions_msg {c c' : Ctx} (he : c.env = c'.env) (add h) :
    F.permissions_policy.evaluate c add h = F.permissions_policy.evaluate c' add h := by
  unfold F.permissions_policy.evaluate
  split
  · rfl
  · split
    · rfl
    · rw [permissionsFeatures_msg he]

theorem coepRO_msg {c c' : Ctx} (add : AddNote) (h) (hk : dhas c.msg.headers.handlers (str "cross-origin-embedder-policy") = dhas c'.msg.headers.handlers (str "cross-origin-embedder-policy")) :
    F.coepRO.evaluate c' add h = F.coepRO.evaluate c add h := by
  unfold F.coepRO.evaluate
  rw [hk]

theorem coopRO_msg {c c' : Ctx} (add : AddNote) (h) (hk : dhas c.msg.headers.handlers (str "cross-origin-opener-policy") = dhas c'.msg.headers.handlers (str "cross-origin-opener-policy")) :
    F.coopRO.evaluate c' add h = F.coopRO.evaluate c add h := by
  unfold F.coopRO.evaluate
  rw [hk]

theorem hsts_msg {env : Env} {m m' : Msg} {rel : Option Msg} (add h) (hn : m.notes.any (fun n => F.hstsInvalidating.contains n.cls) = m'.notes.any (fun n => F.hstsInvalidating.contains n.cls))
    (hx : F.hsts.overHttp ⟨env, m', rel⟩ = F.hsts.overHttp ⟨env, m, rel⟩) :
    F.hsts.evaluate ⟨env, m', rel⟩ add h = F.hsts.evaluate ⟨env, m, rel⟩ add h := by
  unfold F.hsts.evaluate F.hsts.isValid F.hsts.notesToAdd
  dsimp only at hn ⊢
  rw [hn, hx]

theorem evaluate_msg (h : Handler) (env : Env) {m m' : Msg} (r : MRel m m') (rel : Option Msg) (add) :
    h.evaluate ⟨env, m', rel⟩ add = h.evaluate ⟨env, m, rel⟩ add := by
  have hn := hsts_any r.notes
  have hk := r.head.hs.dhas
  have he : m' = { m with notes := m'.notes, headers := { m.headers with text := m'.headers.text, handlers := m'.headers.handlers }, trailers := m'.trailers } := by
    rw [← r.head.eq]; exact r.eq
  generalize m'.notes = ns at *
  generalize m'.headers.text = t at *
  generalize m'.headers.handlers = d at *
  generalize m'.trailers = s' at *
  subst he
  unfold Handler.evaluate
  split
  all_goals try rfl
  all_goals refine congrArg h.keep ?_
  · apply coepRO_msg; exact hk _
  · apply coopRO_msg; exact hk _
  · apply link_msg <;> rfl
  · apply permissions_msg; rfl
  · apply hsts_msg
    · exact hn
    · rfl

theorem assign_names (h : Handler) (x w n) : (respell h w n).assign x = (respell (h.assign x).1 w n, (h.assign x).2) := by
  unfold Handler.assign
  split <;> rfl

theorem appendVals_names (h : Handler) (x w n) : (respell h w n).appendVals x = (respell (h.appendVals x).1 w n, (h.appendVals x).2) := by
  unfold Handler.appendVals
  split <;> rfl

theorem evaluate_names (h : Handler) (c add w n) :
    (respell h w n).evaluate c add = (respell (h.evaluate c add).1 w n, (h.evaluate c add).2) := by
  unfold Handler.evaluate
  rw [show (respell h w n).fid = h.fid from rfl]
  split <;> first | rfl | exact assign_names .. | exact appendVals_names ..

section
variable {env : Env} {rel : Option Msg} {m m' : Msg}

theorem parse_rel2 (mr : MRel m m') {h h'} (r : HRel h h') {a a'} (ha : AddRel h.fid a a') (v) :
    (h'.parse ⟨env, m', rel⟩ a' v).1 = (h.parse ⟨env, m, rel⟩ a v).1 ∧ Sim true (h.parse ⟨env, m, rel⟩ a v).2 (h'.parse ⟨env, m', rel⟩ a' v).2 := by
  rw [mr.eq, parse_msg]
  exact parse_rel r ha _ v

theorem listLoop_msg (mr : MRel m m') (add : AddNote) (vs : List Str) :
    ∀ h : Handler, h.listLoop ⟨env, m', rel⟩ add vs = h.listLoop ⟨env, m, rel⟩ add vs := by
  induction vs with
  | nil => intro h; rfl
  | cons v vs ih =>
    intro h
    have hp : h.parse ⟨env, m', rel⟩ add (strip v) = h.parse ⟨env, m, rel⟩ add (strip v) := by rw [mr.eq, parse_msg]
    unfold Handler.listLoop
    dsimp only
    rw [hp]
    split
    · rfl
    · split
      · split
        · rw [ih]
        · rfl
      · split
        · rfl
        · rw [ih]

theorem MRel.defaults (mr : MRel m m') : m'.defaults = m.defaults := by rw [mr.eq]
theorem MRel.kind (mr : MRel m m') : m'.kind = m.kind := by rw [mr.eq]

theorem handleInput_rel (mr : MRel m m') {h h'} (r : HRel h h') (v o) :
    OutRel (h.handleInput ⟨env, m, rel⟩ v o) (h'.handleInput ⟨env, m', rel⟩ v o) := by
  unfold Handler.handleInput
  rw [r.fid, r.raw]
  dsimp only
  rw [mr.defaults]
  split
  · rw [listLoop_msg mr]
    exact listLoop_rel _ (offsetAdd_rel r _ _) _ rfl r
  · exact ⟨⟨by rw [r.eq], r.tok, r.canon, r.named⟩, .refl _⟩
  · exact ⟨⟨by rw [r.eq], r.tok, r.canon, r.named⟩, .refl _⟩
  · rcases append_rel r (.str v) with ⟨e, h1, h2⟩ | ⟨k, k', h1, h2, hk⟩
    · rw [h1, h2]; exact ⟨r, .refl _⟩
    · rw [h1, h2]; exact ⟨⟨by rw [hk.eq], hk.tok, hk.canon, hk.named⟩, .refl _⟩
  · rcases append_rel r (.str v) with ⟨e, h1, h2⟩ | ⟨k, k', h1, h2, hk⟩
    · rw [h1, h2]; exact ⟨r, .refl _⟩
    · rw [h1, h2]; exact ⟨hk, .refl _⟩
  · exact ⟨r, .refl _⟩

theorem evaluate_out (mr : MRel m m') {h h'} (r : HRel h h') {a a'} (ha : AddRel h.fid a a') :
    OutRel (h.evaluate ⟨env, m, rel⟩ a) (h'.evaluate ⟨env, m', rel⟩ a') := by
  rw [evaluate_msg _ _ mr]
  by_cases hn : h.fid.info.canonicalName = none
  · rw [unnamed_evaluate hn, unnamed_evaluate (by rw [r.fid]; exact hn)]
    exact ⟨r, .refl _⟩
  · rw [← ha.named hn]
    have hid := evaluate_id ⟨env, m, rel⟩ a h
    have hid' := evaluate_id ⟨env, m, rel⟩ a h'
    obtain ⟨w, n, rfl⟩ := r.ex
    rw [evaluate_names] at hid' ⊢
    refine ⟨⟨rfl, ?_, ?_, ?_⟩, .refl _⟩
    · rw [hid.wire]; exact r.tok
    · rw [hid.canon]; exact r.canon
    · rw [hid.fid, hid.canon]; exact r.named

theorem evalAfter_out (mr : MRel m m') {h h'} (r : HRel h h') {a a'} (ha : AddRel h.fid a a') {ns ns' : List Note}
    (hn : ns.map (noteKey true) = ns'.map (noteKey true)) :
    OutRel (h.evalAfter ⟨env, m, rel⟩ a ns) (h'.evalAfter ⟨env, m', rel⟩ a' ns') := by
  unfold Handler.evalAfter
  rw [r.value]
  split
  · exact ⟨r, rfl, hn⟩
  · have := evaluate_out (env := env) (rel := rel) mr r ha
    exact ⟨this.h, sim_prefix hn this.w⟩

theorem mk1_key {a a' : AddNote} {f} (ha : AddRel f a a') (cls : NoteId) (vrs vrs' cat) :
    [a.mk1 cls vrs cat].map (noteKey true) = [a'.mk1 cls vrs' cat].map (noteKey true) := by
  rw [List.map_singleton, List.map_singleton, noteKey_mk1 ha.sim]

theorem map_append_key {α β} {f : α → β} {a b a' b' : List α} (h1 : a.map f = a'.map f) (h2 : b.map f = b'.map f) :
    (a ++ b).map f = (a' ++ b').map f := by rw [List.map_append, List.map_append, h1, h2]

/-- the notes about the lines of a field that allows one value -/
def singleNotes (a : AddNote) (h : Handler) (first : Str) (more : List (Str × Nat)) : List Note :=
  (if more.isEmpty then [] else [a.mk1 .SINGLE_HEADER_REPEAT]) ++
      (match h.fid.info.syn with
       | none => []
       | some r => if matchSpaced r first then []
         else if h.fid.info.reportSyntax then [a.mk1 .BAD_SYNTAX [(str "ref_uri", .str h.reference)]] else [])

theorem finishSingleton_eq (c : Ctx) (add : AddNote) (h : Handler) : h.finishSingleton c add = match h.raw with
    | [] => ({ h with value := .none }, pure ())
    | (first, _) :: more =>
      match (h.parse c add (strip first)).2.res with
      | .ok v => ({ h with aux := (h.parse c add (strip first)).1, value := v }).evalAfter c add (singleNotes add h first more ++ (h.parse c add (strip first)).2.notes)
      | .error e =>
        if e.isValueError then ({ h with aux := (h.parse c add (strip first)).1, value := .none }, ⟨singleNotes add h first more ++ (h.parse c add (strip first)).2.notes, .ok ()⟩)
        else ({ h with aux := (h.parse c add (strip first)).1 }, ⟨singleNotes add h first more ++ (h.parse c add (strip first)).2.notes, .error e⟩) := rfl

theorem singleNotes_key {h h'} (r : HRel h h') {a a'} (ha : AddRel h.fid a a') (first more) :
    (singleNotes a h first more).map (noteKey true) = (singleNotes a' h' first more).map (noteKey true) := by
  unfold singleNotes
  rw [r.fid]
  apply map_append_key
  · split
    · rfl
    · exact mk1_key ha _ _ _ _
  · split
    · rfl
    · split
      · rfl
      · split
        · exact mk1_key ha _ _ _ _
        · rfl

theorem HRel.setBoth {h h'} (r : HRel h h') (x v) : HRel { h with aux := x, value := v } { h' with aux := x, value := v } := ⟨by rw [r.eq], r.tok, r.canon, r.named⟩

theorem finishSingleton_out (mr : MRel m m') {h h'} (r : HRel h h') {a a'} (ha : AddRel h.fid a a') :
    OutRel (h.finishSingleton ⟨env, m, rel⟩ a) (h'.finishSingleton ⟨env, m', rel⟩ a') := by
  rw [finishSingleton_eq, finishSingleton_eq]
  cases hraw : h.raw with
  | nil =>
    rw [r.raw, hraw]
    dsimp only
    exact ⟨⟨by rw [r.eq], r.tok, r.canon, r.named⟩, .refl _⟩
  | cons x more =>
    obtain ⟨first, o⟩ := x
    have hraw' := r.raw.trans hraw
    rw [hraw']
    dsimp only
    have hp := parse_rel2 (env := env) (rel := rel) mr r ha (strip first)
    have hns := singleNotes_key r ha first more
    generalize singleNotes a h first more = ns at *
    generalize singleNotes a' h' first more = ns' at *
    generalize h.parse _ a (strip first) = p at *
    generalize h'.parse _ a' (strip first) = p' at *
    obtain ⟨ax, w⟩ := p
    obtain ⟨ax', w'⟩ := p'
    obtain ⟨hax, hw⟩ := hp
    dsimp only at hax hw ⊢
    subst hax
    rw [← hw.res]
    have hns2 := map_append_key hns hw.notes
    cases w.res with
    | ok v =>
      dsimp only
      refine evalAfter_out mr ?_ (by exact ha) hns2
      exact ⟨by rw [r.eq], r.tok, r.canon, r.named⟩
    | error e =>
      dsimp only
      split
      · exact ⟨⟨by rw [r.eq], r.tok, r.canon, r.named⟩, rfl, hns2⟩
      · exact ⟨⟨by rw [r.eq], r.tok, r.canon, r.named⟩, rfl, hns2⟩

/-- the syntax note for a line of a field that cannot be combined -/
def brokenNotes (c : Ctx) (h : Handler) (raw : Str) (o : Nat) : List Note :=
  match h.fid.info.syn with
  | none => []
  | some r => if matchSpaced r raw then [] else [(h.offsetAdd c.msg.defaults o).mk1 .BAD_SYNTAX [(str "ref_uri", .str h.reference)]]

theorem brokenLoop_cons (c : Ctx) (raw : Str) (o : Nat) (rest) (h : Handler) (acc) : h.brokenLoop c ((raw, o) :: rest) acc =
    (match (h.parse c (h.offsetAdd c.msg.defaults o) (strip raw)).2.res with
    | .ok v =>
      ((({ h with aux := (h.parse c (h.offsetAdd c.msg.defaults o) (strip raw)).1 } : Handler).brokenLoop c rest (acc ++ [v])).1,
        prefixNotes (brokenNotes c h raw o ++ (h.parse c (h.offsetAdd c.msg.defaults o) (strip raw)).2.notes)
          (({ h with aux := (h.parse c (h.offsetAdd c.msg.defaults o) (strip raw)).1 } : Handler).brokenLoop c rest (acc ++ [v])).2)
    | .error e =>
      if e.isValueError then
        ((({ h with aux := (h.parse c (h.offsetAdd c.msg.defaults o) (strip raw)).1 } : Handler).brokenLoop c rest acc).1,
        prefixNotes (brokenNotes c h raw o ++ (h.parse c (h.offsetAdd c.msg.defaults o) (strip raw)).2.notes)
          (({ h with aux := (h.parse c (h.offsetAdd c.msg.defaults o) (strip raw)).1 } : Handler).brokenLoop c rest acc).2)
      else ({ h with aux := (h.parse c (h.offsetAdd c.msg.defaults o) (strip raw)).1 }, ⟨brokenNotes c h raw o ++ (h.parse c (h.offsetAdd c.msg.defaults o) (strip raw)).2.notes, .error e⟩)) := rfl

theorem brokenLoop_out (mr : MRel m m') (rs : List (Str × Nat)) : ∀ {h h' : Handler} (_ : HRel h h') (acc : List Val),
    OutRel (h.brokenLoop ⟨env, m, rel⟩ rs acc) (h'.brokenLoop ⟨env, m', rel⟩ rs acc) := by
  induction rs with
  | nil => intro h h' r acc; exact ⟨r, .refl _⟩
  | cons x rs ih =>
    intro h h' r acc
    obtain ⟨raw, o⟩ := x
    have ha := offsetAdd_rel r m.defaults o
    have hp := parse_rel2 (env := env) (rel := rel) mr r ha (strip raw)
    rw [brokenLoop_cons, brokenLoop_cons]
    have hns : (brokenNotes ⟨env, m, rel⟩ h raw o).map (noteKey true) = (brokenNotes ⟨env, m', rel⟩ h' raw o).map (noteKey true) := by
      unfold brokenNotes
      dsimp only
      rw [r.fid, mr.defaults]
      split
      · rfl
      · split
        · rfl
        · exact mk1_key ha _ _ _ _
    dsimp only
    rw [mr.defaults]
    generalize brokenNotes ⟨env, m, rel⟩ h raw o = ns at *
    generalize brokenNotes ⟨env, m', rel⟩ h' raw o = ns' at *
    generalize h.parse _ _ (strip raw) = p at *
    generalize h'.parse _ _ (strip raw) = p' at *
    obtain ⟨ax, w⟩ := p
    obtain ⟨ax', w'⟩ := p'
    obtain ⟨hax, hw⟩ := hp
    dsimp only at hax hw ⊢
    subst hax
    rw [← hw.res]
    have hns2 := map_append_key hns hw.notes
    cases w.res with
    | ok v =>
      have := ih (r.setAux ax') (acc ++ [v])
      exact ⟨this.h, sim_prefix hns2 this.w⟩
    | error e =>
      dsimp only
      split
      · have := ih (r.setAux ax') acc
        exact ⟨this.h, sim_prefix hns2 this.w⟩
      · exact ⟨r.setAux _, rfl, hns2⟩

theorem finishBroken_out (mr : MRel m m') {h h'} (r : HRel h h') {a a'} (ha : AddRel h.fid a a') :
    OutRel (h.finishBroken ⟨env, m, rel⟩ a) (h'.finishBroken ⟨env, m', rel⟩ a') := by
  unfold Handler.finishBroken
  rw [r.raw]
  have := brokenLoop_out (env := env) (rel := rel) mr h.raw r []
  have hid := brokenLoop_id ⟨env, m, rel⟩ h.raw h []
  generalize h.brokenLoop _ h.raw [] = p at *
  generalize h'.brokenLoop _ h.raw [] = p' at *
  obtain ⟨k, w⟩ := p
  obtain ⟨k', w'⟩ := p'
  obtain ⟨hk, hw⟩ := this
  dsimp only at *
  rw [← hw.res]
  cases w.res with
  | error e => exact ⟨hk, rfl, hw.notes⟩
  | ok vs => exact evalAfter_out mr (hk.setValue _) (by rw [show k.fid = h.fid from hid.fid]; exact ha) hw.notes

theorem dupKeys_key {a a' : AddNote} {f} (ha : AddRel f a a') (ds) : (dupKeyNotes a ds).map (noteKey true) = (dupKeyNotes a' ds).map (noteKey true) := by
  unfold dupKeyNotes
  rw [List.map_map, List.map_map]
  apply List.map_congr_left
  intro x _
  exact noteKey_mk1 ha.sim _ _ _ _

theorem finishSf_out (mr : MRel m m') {h h'} (r : HRel h h') {a a'} (ha : AddRel h.fid a a') (t) :
    OutRel (h.finishSf ⟨env, m, rel⟩ a t) (h'.finishSf ⟨env, m', rel⟩ a' t) := by
  unfold Handler.finishSf
  rw [r.value, r.sfp, r.cat]
  split
  · exact ⟨r, .refl _⟩
  · split
    · exact ⟨r, .refl _⟩
    · split
      · exact ⟨r, .refl _⟩
      · dsimp only
        split
        · refine evalAfter_out mr ?_ (by exact ha) (dupKeys_key ha _)
          exact ⟨by rw [r.eq], r.tok, r.canon, r.named⟩
        · exact ⟨⟨by rw [r.eq], r.tok, r.canon, r.named⟩, rfl, map_append_key (dupKeys_key ha _) (mk1_key ha _ _ _ _)⟩
        · exact ⟨⟨by rw [r.eq], r.tok, r.canon, r.named⟩, rfl, map_append_key (dupKeys_key ha _) (mk1_key ha _ _ _ _)⟩

theorem finishJson_out (mr : MRel m m') {h h'} (r : HRel h h') {a a'} (ha : AddRel h.fid a a') :
    OutRel (h.finishJson ⟨env, m, rel⟩ a) (h'.finishJson ⟨env, m', rel⟩ a') := by
  unfold Handler.finishJson
  rw [r.value, r.cat]
  split
  · exact ⟨r, .refl _⟩
  · split
    · exact ⟨r, .refl _⟩
    · dsimp only
      split
      · refine evalAfter_out mr ?_ (by exact ha) rfl
        exact ⟨by rw [r.eq], r.tok, r.canon, r.named⟩
      · exact ⟨⟨by rw [r.eq], r.tok, r.canon, r.named⟩, rfl, mk1_key ha _ _ _ _⟩
      · exact ⟨r, .refl _⟩

theorem finish_out (mr : MRel m m') {h h'} (r : HRel h h') {a a'} (ha : AddRel h.fid a a') :
    OutRel (h.finish ⟨env, m, rel⟩ a) (h'.finish ⟨env, m', rel⟩ a') := by
  unfold Handler.finish
  rw [r.fid]
  split
  · exact finishSingleton_out mr r ha
  · exact finishBroken_out mr r ha
  · exact finishSf_out mr r ha _
  · exact finishJson_out mr r ha
  · exact evalAfter_out mr r ha rfl
  · exact evalAfter_out mr r ha rfl

/-! ### lines -/

theorem smallLetter_big (c : Nat) : decide (smallLetter c ≥ 128) = decide (c ≥ 128) := by
  unfold smallLetter; split <;> simp <;> omega

theorem recased_len {a b : Str} (h : a.map smallLetter = b.map smallLetter) : a.length = b.length := by
  have := congrArg List.length h
  simpa using this

theorem any_map_small (a : Str) : (a.map smallLetter).any (· ≥ 128) = a.any (· ≥ 128) := by
  induction a with
  | nil => rfl
  | cons c a ih => rw [List.map_cons, List.any_cons, List.any_cons, ih]; rw [smallLetter_big]

theorem recased_ascii {a b : Str} (h : a.map smallLetter = b.map smallLetter) : nonAscii a = nonAscii b := by
  unfold nonAscii
  rw [← any_map_small, h, any_map_small]

theorem small_decode (a : Str) : (decodeName a).map lowerC = (a.map smallLetter).filter (· < 128) := by
  unfold decodeName
  induction a with
  | nil => rfl
  | cons c a ih =>
    rw [List.map_cons, List.filter_cons, List.filter_cons]
    have hl : c < 128 → smallLetter c = lowerC c := by
      intro h; unfold smallLetter lowerC
      have : ¬ (192 ≤ c) := by omega
      simp [this]
    have := smallLetter_big c
    by_cases hc : c < 128
    · have h2 : smallLetter c < 128 := by
        by_cases h3 : smallLetter c ≥ 128
        · rw [decide_eq_true h3] at this; have := of_decide_eq_true this.symm; omega
        · omega
      rw [if_pos (decide_eq_true hc), if_pos (decide_eq_true h2), List.map_cons, ih, hl hc]
    · have h2 : ¬ smallLetter c < 128 := by
        intro h3
        rw [decide_eq_false (by omega)] at this; have := of_decide_eq_false this.symm; omega
      rw [if_neg (by simpa using hc), if_neg (by simpa using h2), ih]

theorem recased_lower {a b : Str} (h : a.map smallLetter = b.map smallLetter) : lower (decodeName a) = lower (decodeName b) := by
  unfold lower
  rw [small_decode, small_decode, h]

theorem MRel.sec (mr : MRel m m') (t : Bool) : SRel (m.section t) (m'.section t) := by
  cases t
  · exact mr.head
  · exact mr.trail

theorem MRel.setSection (mr : MRel m m') (t : Bool) {s s'} (r : SRel s s') : MRel (m.setSection t s) (m'.setSection t s') := by
  cases t
  · exact ⟨by show { m' with headers := s' } = _; rw [mr.eq]; rfl, mr.notes, r, mr.trail⟩
  · exact ⟨by show { m' with trailers := s' } = _; rw [mr.eq]; rfl, mr.notes, mr.head, r⟩

theorem MRel.addNotes (mr : MRel m m') {ns ns'} (h : ns.map (noteKey true) = ns'.map (noteKey true)) : MRel (m.addNotes ns) (m'.addNotes ns') :=
  ⟨by show { m' with notes := _ } = _; rw [mr.eq]; rfl, map_append_key mr.notes h, mr.head, mr.trail⟩

theorem recorded_rel {s s'} (r : SRel s s') {l l' : Line} (hl : Recased l l') {h h'} (hr : HRel h h') :
    SRel (recorded s l.1 l.2 h) (recorded s' l'.1 l'.2 h') := by
  obtain ⟨hv, hn⟩ := hl
  refine ⟨?_, ?_, ?_⟩
  · unfold recorded
    dsimp only
    rw [← hv, recased_len hn]
    rw [r.eq]
  · show (s.text ++ _).map _ = (s'.text ++ _).map _
    rw [List.map_append, List.map_append, r.text, List.map_singleton, List.map_singleton, recased_lower hn, hv]
  · show HsRel (dset s.handlers (lineKey l.1) h) (dset s'.handlers (lineKey l'.1) h')
    rw [show lineKey l'.1 = lineKey l.1 from (recased_lower hn).symm]
    exact r.hs.dset hr _

theorem adder_rel (mr : MRel m m') (f : FieldId) (x : Str) {b b' : Dict Val} (hb : f.info.canonicalName ≠ none → b = b') :
    AddRel f (m.adder x b) (m'.adder x b') :=
  ⟨rfl, fun h => by unfold Msg.adder; rw [mr.defaults, hb h]⟩

theorem preCheck_rel {h h'} (r : HRel h h') {a a'} (ha : AddRel h.fid a a') (k) :
    HRel (h.preCheck k a).1 (h'.preCheck k a').1 ∧ (h.preCheck k a).2.1 = (h'.preCheck k a').2.1 ∧
      (h.preCheck k a).2.2.map (noteKey true) = (h'.preCheck k a').2.2.map (noteKey true) := by
  unfold Handler.preCheck
  rw [r.fid, ← r.tok, r.cat]
  split
  · exact ⟨⟨by rw [r.eq], r.tok, r.canon, r.named⟩, rfl, mk1_key ha _ _ _ _⟩
  · split
    · exact ⟨r, rfl, mk1_key ha _ _ _ _⟩
    · dsimp only
      split
      · refine ⟨r, rfl, ?_⟩
        have := mk1_key ha .FIELD_DEPRECATED [(str "deprecation_ref", .str h.reference)] [(str "deprecation_ref", .str h'.reference)] none
        simp only [List.map_cons, List.map_nil, noteKey, List.cons.injEq, Prod.mk.injEq, and_true, true_and] at this ⊢
        exact ⟨this.1, this.2.2⟩
      · refine ⟨r, rfl, ?_⟩
        dsimp only
        split
        · exact mk1_key ha _ _ _ _
        · rfl

theorem lineHandler_rel (mr : MRel m m') (t) {l l' : Line} (hl : Recased l l') : HRel (lineHandler t m l.1) (lineHandler t m' l'.1) :=
  findHandler_rel (mr.sec t).hs (recased_lower hl.2)

theorem lineCheck_rel (mr : MRel m m') (t o) {l l' : Line} (hl : Recased l l') :
    HRel (lineCheck t m o l.1).1 (lineCheck t m' o l'.1).1 ∧ (lineCheck t m o l.1).2.1 = (lineCheck t m' o l'.1).2.1 ∧
      (lineCheck t m o l.1).2.2.map (noteKey true) = (lineCheck t m' o l'.1).2.2.map (noteKey true) := by
  unfold lineCheck
  rw [mr.kind]
  have r := lineHandler_rel mr t hl
  exact preCheck_rel r (adder_rel mr _ _ fun h => by rw [r.named h]) _

theorem any_rel (mr : MRel m m') (x b b') : AddRel .unknownField (m.adder x b) (m'.adder x b') := adder_rel mr _ _ fun h => absurd rfl h

theorem encNotes_rel (mr : MRel m m') (o) {l l' : Line} (hl : Recased l l') :
    (encNotes m o l.1 l.2).map (noteKey true) = (encNotes m' o l'.1 l'.2).map (noteKey true) := by
  unfold encNotes
  rw [recased_ascii hl.2, hl.1]
  apply map_append_key <;> split <;> first | rfl | exact mk1_key (any_rel mr _ _ _) _ _ _ _

theorem lineMid_rel (mr : MRel m m') (t o) {l l' : Line} (hl : Recased l l') :
    MRel (lineMid t m o l.1 l.2) (lineMid t m' o l'.1 l'.2) := by
  obtain ⟨h1, _, h3⟩ := lineCheck_rel mr t o hl
  exact (mr.setSection t (recorded_rel (mr.sec t) hl h1)).addNotes (map_append_key (encNotes_rel mr o hl) h3)

/-- related outcomes -/
structure RunRel {α} (p p' : Run α) : Prop where
  m : MRel p.1 p'.1
  res : p.2 = p'.2

theorem processLine_rel (mr : MRel m m') (t o) {l l' : Line} (hl : Recased l l') :
    RunRel (processLine env rel t m o l) (processLine env rel t m' o l') := by
  obtain ⟨h1, h2, h3⟩ := lineCheck_rel mr t o hl
  have hmid := lineMid_rel mr t o hl
  have hin : OutRel (lineInput env rel t m o l.1 l.2) (lineInput env rel t m' o l'.1 l'.2) := by
    have := handleInput_rel (env := env) (rel := rel) hmid h1 l.2 o
    unfold lineInput
    rw [← hl.1] at this ⊢
    exact this
  rw [show l = (l.1, l.2) from rfl, show l' = (l'.1, l'.2) from rfl, processLine_eq, processLine_eq, ← h2]
  split
  · exact ⟨hmid, rfl⟩
  · dsimp only
    rw [← hin.w.res]
    have hm : MRel ((m.setSection t (recorded (m.section t) l.1 l.2 (lineInput env rel t m o l.1 l.2).1)).addNotes
          (encNotes m o l.1 l.2 ++ (lineCheck t m o l.1).2.2 ++ (lineInput env rel t m o l.1 l.2).2.notes))
        ((m'.setSection t (recorded (m'.section t) l'.1 l'.2 (lineInput env rel t m' o l'.1 l'.2).1)).addNotes
          (encNotes m' o l'.1 l'.2 ++ (lineCheck t m' o l'.1).2.2 ++ (lineInput env rel t m' o l'.1 l'.2).2.notes)) :=
      (mr.setSection t (recorded_rel (mr.sec t) hl hin.h)).addNotes (map_append_key (map_append_key (encNotes_rel mr o hl) h3) hin.w.notes)
    generalize (lineInput env rel t m o l.1 l.2).2.res = res
    cases res with
    | error e => exact ⟨hm, rfl⟩
    | ok u =>
      refine ⟨hm.addNotes ?_, rfl⟩
      unfold bigNotes
      rw [recased_len hl.2, hl.1]
      split
      · exact mk1_key (any_rel mr _ _ _) _ _ _ _
      · rfl

theorem processLines_rel (t) : ∀ {ls ls' : List Line} (_ : RecasedLines ls ls') {m m' : Msg} (_ : MRel m m') (o : Nat),
    RunRel (processLines env rel t ls o m) (processLines env rel t ls' o m')
  | [], [], _, _, _, mr, _ => ⟨mr, rfl⟩
  | [], _ :: _, h, _, _, _, _ => h.elim
  | _ :: _, [], h, _, _, _, _ => h.elim
  | l :: ls, l' :: ls', h, m, m', mr, o => by
    have := processLine_rel (env := env) (rel := rel) mr t o h.1
    unfold processLines
    generalize processLine env rel t m o l = p at *
    generalize processLine env rel t m' o l' = p' at *
    obtain ⟨x, y⟩ := p
    obtain ⟨x', y'⟩ := p'
    obtain ⟨hm, hr⟩ := this
    dsimp only at hm hr
    subst hr
    cases y with
    | error e => exact ⟨hm, rfl⟩
    | ok o' => exact processLines_rel t h.2 hm o'

theorem fieldAdder_rel (mr : MRel m m') (t) {h h'} (r : HRel h h') : AddRel h.fid (m.fieldAdder t h) (m'.fieldAdder t h') := by
  refine ⟨?_, ?_⟩
  · show str "field-" ++ lower h.canonicalName = str "field-" ++ lower h'.canonicalName
    rw [r.canon]
  · intro hn
    unfold Msg.fieldAdder Msg.adder
    rw [mr.defaults, r.named hn]

theorem finishHandler_rel (mr : MRel m m') (t k) : RunRel (finishHandler env rel t m k) (finishHandler env rel t m' k) := by
  unfold finishHandler
  rcases (mr.sec t).hs.get k with ⟨h1, h2⟩ | ⟨h, h', h1, h2, r⟩
  · rw [h1, h2]; exact ⟨mr, rfl⟩
  · rw [h1, h2]
    dsimp only
    have := finish_out (env := env) (rel := rel) mr r (fieldAdder_rel mr t r)
    generalize h.finish _ _ = p at *
    generalize h'.finish _ _ = p' at *
    obtain ⟨k1, w⟩ := p
    obtain ⟨k1', w'⟩ := p'
    obtain ⟨hk, hw⟩ := this
    dsimp only at hk hw ⊢
    rw [← hw.res]
    have hm := mr.addNotes hw.notes
    have hs := (hm.sec t)
    have hs2 : SRel { (m.addNotes w.notes).section t with handlers := dset ((m.addNotes w.notes).section t).handlers k k1 }
        { (m'.addNotes w'.notes).section t with handlers := dset ((m'.addNotes w'.notes).section t).handlers k k1' } :=
      ⟨by rw [hs.eq], hs.text, hs.hs.dset hk k⟩
    cases w.res with
    | error e => exact ⟨hm.setSection t hs2, rfl⟩
    | ok u =>
      refine ⟨hm.setSection t ⟨?_, hs2.text, hs2.hs⟩, rfl⟩
      rw [hk.norm, hk.value, hs.eq]

theorem finishHandlers_rel (t) : ∀ (ks : List Str) {m m' : Msg} (_ : MRel m m'), RunRel (finishHandlers env rel t ks m) (finishHandlers env rel t ks m')
  | [], _, _, mr => ⟨mr, rfl⟩
  | k :: ks, m, m', mr => by
    have := finishHandler_rel (env := env) (rel := rel) mr t k
    unfold finishHandlers
    generalize finishHandler env rel t m k = p at *
    generalize finishHandler env rel t m' k = p' at *
    obtain ⟨x, y⟩ := p
    obtain ⟨x', y'⟩ := p'
    obtain ⟨hm, hr⟩ := this
    dsimp only at hm hr
    subst hr
    cases y with
    | error e => exact ⟨hm, rfl⟩
    | ok o' => exact finishHandlers_rel t ks hm

theorem SRel.size {s s'} (r : SRel s s') : s'.size = s.size := by rw [r.eq]
theorem SRel.parsed {s s'} (r : SRel s s') : s'.parsed = s.parsed := by rw [r.eq]

theorem processSection_rel (mr : MRel m m') (t) {ls ls'} (hl : RecasedLines ls ls') :
    RunRel (processSection env rel t ls m) (processSection env rel t ls' m') := by
  have := processLines_rel (env := env) (rel := rel) t hl mr 0
  unfold processSection
  generalize processLines env rel t ls 0 m = p at *
  generalize processLines env rel t ls' 0 m' = p' at *
  obtain ⟨x, y⟩ := p
  obtain ⟨x', y'⟩ := p'
  obtain ⟨hm, hr⟩ := this
  dsimp only at hm hr
  subst hr
  cases y with
  | error e => exact ⟨hm, rfl⟩
  | ok u =>
    dsimp only
    have hm2 : MRel (x.addNotes (sectionSizeNotes t x)) (x'.addNotes (sectionSizeNotes t x')) := by
      apply hm.addNotes
      unfold sectionSizeNotes
      dsimp only
      rw [(hm.sec t).size]
      split
      · exact mk1_key (any_rel hm _ _ _) _ _ _ _
      · rfl
    rw [← (hm2.sec t).hs.keys]
    exact finishHandlers_rel t _ hm2

theorem setCharset_rel (mr : MRel m m') : RunRel (m.setCharset env) (m'.setCharset env) := by
  unfold Msg.setCharset
  rw [mr.head.parsed]
  split
  · exact ⟨mr, rfl⟩
  · split
    · exact ⟨mr, rfl⟩
    · split
      · exact ⟨mr, rfl⟩
      · split
        · split
          · exact ⟨⟨by rw [mr.eq], mr.notes, mr.head, mr.trail⟩, rfl⟩
          · split <;> exact ⟨mr, rfl⟩
        · exact ⟨mr, rfl⟩

theorem processHeaders_rel (mr : MRel m m') {ls ls'} (hl : RecasedLines ls ls') :
    RunRel (m.processHeaders env rel ls) (m'.processHeaders env rel ls') := by
  have := processSection_rel (env := env) (rel := rel) mr false hl
  unfold Msg.processHeaders Run.andThen
  generalize processSection env rel false ls m = p at *
  generalize processSection env rel false ls' m' = p' at *
  obtain ⟨x, y⟩ := p
  obtain ⟨x', y'⟩ := p'
  obtain ⟨hm, hr⟩ := this
  dsimp only at hm hr
  subst hr
  cases y with
  | error e => exact ⟨hm, rfl⟩
  | ok u => exact setCharset_rel hm

end

end HL.Props
