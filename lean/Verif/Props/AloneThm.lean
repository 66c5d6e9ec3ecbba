import Verif.Props.SaidThm
import Verif.Props.HstsThm
import Verif.Props.CaseThm
import Verif.Props.OffsetThm

/-!
# C125: fields are judged alone

What is recorded for a field of a section, and what is said about it as a whole, depends on its own lines and on
those of the few fields its checks look at, not on any other line.
-/

namespace HL.Props
open HL.F

/-! ### specification -/

/-- the fields that the checks of a field look at, by the names they are shown with -/
def checksLookAt (shown : Str) : List Str :=
  if shown = str "date" then [str "age"]
  else if shown = str "last-modified" then [str "date"]
  else if shown = str "content-length" then [str "transfer-encoding"]
  else if shown = str "cross-origin-embedder-policy-report-only" then [str "cross-origin-embedder-policy"]
  else if shown = str "cross-origin-opener-policy-report-only" then [str "cross-origin-opener-policy"]
  else []

/-- the lines that may matter to the field `n`: its own, those of fields shown under the same name, and those of the
fields its checks look at -/
def matters (n : Str) (l : Line) : Bool :=
  lower (shownName (lineKey l.1)) == lower (shownName n) || (checksLookAt (lower (shownName n))).contains (lineKey l.1)

/-- what notes about the field `n` have as their subject -/
def subjectOf (n : Str) : Str := str "field-" ++ lower (shownName n)

/-- what was said about the field `n` when `m` became `m'` -/
def saidOf (n : Str) (m m' : Msg) : List Note := (m'.notes.drop m.notes.length).filter fun x => x.subject == subjectOf n

/-- notes about a field of that name can be told from other notes: `field-block` is the subject of notes about the size of a
section, `field-date field-age` that of notes about `Date` and `Age` -/
def Distinct (n : Str) : Prop := lower (shownName n) ≠ str "block" ∧ lower (shownName n) ≠ str "date field-age"

/-! ### what `evaluate` sees -/

/-- two contexts look the same to the checks of a field class -/
structure SeesSame (f : FieldId) (c₁ c₂ : Ctx) : Prop where
  age : f = .date_ → dget c₁.msg.headers.parsed (str "age") = dget c₂.msg.headers.parsed (str "age")
  date : f = .last_modified_ → dget c₁.msg.headers.parsed (str "date") = dget c₂.msg.headers.parsed (str "date")
  te : f = .content_length_ → dget c₁.msg.headers.parsed (str "transfer-encoding") = dget c₂.msg.headers.parsed (str "transfer-encoding")
  coep : f = .cross_origin_embedder_policy_report_only_ →
    dhas c₁.msg.headers.handlers (str "cross-origin-embedder-policy") = dhas c₂.msg.headers.handlers (str "cross-origin-embedder-policy")
  coop : f = .cross_origin_opener_policy_report_only_ →
    dhas c₁.msg.headers.handlers (str "cross-origin-opener-policy") = dhas c₂.msg.headers.handlers (str "cross-origin-opener-policy")
  hsts : c₁.msg.notes.any (fun n => hstsInvalidating.contains n.cls) = c₂.msg.notes.any (fun n => hstsInvalidating.contains n.cls)

theorem dhas_dget {β} (d d' : Dict β) (k : Str) (h : dget d k = dget d' k) : dhas d k = dhas d' k := by
  rw [← dget_isSome, ← dget_isSome, h]

theorem evaluate_same {env related t m} {c₁ c₂ : Ctx} (d₁ : During env related t m c₁) (d₂ : During env related t m c₂) (h : Handler)
    (hs : SeesSame h.fid c₁ c₂) (add : AddNote) : h.evaluate c₁ add = h.evaluate c₂ add := by
  obtain ⟨e₁, m₁, r₁⟩ := c₁
  obtain ⟨e₂, m₂, r₂⟩ := c₂
  obtain ⟨rfl, rfl, x₁⟩ := d₁
  obtain ⟨h2, h3, x₂⟩ := d₂
  dsimp only at h2 h3 x₁ x₂
  subst h2 h3
  obtain ⟨ns₁, s₁, rfl⟩ := x₁
  obtain ⟨ns₂, s₂, rfl⟩ := x₂
  obtain ⟨g1, g2, g3, g4, g5, g6⟩ := hs
  dsimp only at g1 g2 g3 g4 g5 g6
  unfold Handler.evaluate
  generalize hf : h.fid = f at *
  have hbase : ((m.setSection t s₁).addNotes ns₁).baseUri = ((m.setSection t s₂).addNotes ns₂).baseUri := by cases t <;> rfl
  by_cases q1 : f = .date_
  · subst q1
    dsimp only
    unfold date.evaluate
    dsimp only
    rw [g1 rfl]
    cases t <;> rfl
  by_cases q2 : f = .last_modified_
  · subst q2
    dsimp only
    unfold last_modified.evaluate servDate
    dsimp only
    rw [g2 rfl]
    cases t <;> rfl
  by_cases q3 : f = .content_length_
  · subst q3
    dsimp only
    unfold content_length.evaluate
    dsimp only
    rw [dhas_dget _ _ _ (g3 rfl)]
  by_cases q4 : f = .cross_origin_embedder_policy_report_only_
  · subst q4
    dsimp only
    unfold coepRO.evaluate
    dsimp only
    rw [g4 rfl]
  by_cases q5 : f = .cross_origin_opener_policy_report_only_
  · subst q5
    dsimp only
    unfold coopRO.evaluate
    dsimp only
    rw [g5 rfl]
  by_cases q6 : f = .strict_transport_security_
  · subst q6
    dsimp only
    unfold hsts.evaluate hsts.isValid
    dsimp only
    rw [g6]
    cases t <;> rfl
  by_cases q7 : f = .link_
  · subst q7
    dsimp only
    rw [link_msg (c := ⟨e₂, (m.setSection t s₁).addNotes ns₁, r₂⟩) (c' := ⟨e₂, (m.setSection t s₂).addNotes ns₂, r₂⟩) rfl hbase]
  by_cases q8 : f = .permissions_policy_
  · subst q8
    dsimp only
    rw [permissions_msg (c := ⟨e₂, (m.setSection t s₁).addNotes ns₁, r₂⟩) (c' := ⟨e₂, (m.setSection t s₂).addNotes ns₂, r₂⟩) rfl]
  clear g1 g2 g3 g4 g5 g6
  cases f <;> first | contradiction | (cases t <;> rfl)

/-! ### finishing in two contexts -/

theorem parse_both {env related t m} {c₁ c₂ : Ctx} (d₁ : During env related t m c₁) (d₂ : During env related t m c₂) (h : Handler) (add : AddNote) (v : Str) :
    h.parse c₁ add v = h.parse c₂ add v := by
  obtain ⟨e₁, m₁, r₁⟩ := c₁
  obtain ⟨e₂, m₂, r₂⟩ := c₂
  obtain ⟨rfl, rfl, x₁⟩ := d₁
  obtain ⟨h2, h3, x₂⟩ := d₂
  dsimp only at h2 h3 x₁ x₂
  subst h2 h3
  rw [parse_ext x₁, parse_ext x₂]

theorem evalAfter_same {env related t m} {c₁ c₂ : Ctx} (d₁ : During env related t m c₁) (d₂ : During env related t m c₂) (h : Handler)
    (hs : SeesSame h.fid c₁ c₂) (add : AddNote) (ns) : h.evalAfter c₁ add ns = h.evalAfter c₂ add ns := by
  unfold Handler.evalAfter
  rw [evaluate_same d₁ d₂ h hs]

theorem finish_alike {env related t m} {c₁ c₂ : Ctx} (d₁ : During env related t m c₁) (d₂ : During env related t m c₂) (h : Handler)
    (hs : SeesSame h.fid c₁ c₂) (hk : h.fid.info.kind ≠ .broken) (add : AddNote) : h.finish c₁ add = h.finish c₂ add := by
  unfold Handler.finish
  split
  · unfold Handler.finishSingleton
    split
    · rfl
    · dsimp only
      rw [parse_both d₁ d₂]
      generalize Handler.parse _ _ _ _ = p
      split
      · exact evalAfter_same d₁ d₂ _ (by exact hs) _ _
      · rfl
  · rename_i hb; exact absurd hb hk
  · unfold Handler.finishSf
    rw [d₁.env, d₂.env]
    split
    · rfl
    · split
      · rfl
      · split
        · rfl
        · dsimp only
          split
          · exact evalAfter_same d₁ d₂ _ (by exact hs) _ _
          · rfl
          · rfl
  · unfold Handler.finishJson
    rw [d₁.env, d₂.env]
    split
    · rfl
    · split
      · rfl
      · split
        · exact evalAfter_same d₁ d₂ _ (by exact hs) _ _
        · rfl
        · rfl
  · exact evalAfter_same d₁ d₂ _ hs _ _
  · exact evalAfter_same d₁ d₂ _ hs _ _

/-! ### the numbers of the lines don't matter to the handler -/

theorem elementSyntax_moved (h : Handler) (add add' : AddNote) (v : Str) : (h.elementSyntax add v).res = (h.elementSyntax add' v).res := by
  unfold Handler.elementSyntax
  split
  · rfl
  · split
    · rfl
    · split
      · rename_i i _
        cases syntaxProblem v i <;> rfl
      · unfold W.when; split <;> rfl

theorem parse_moved (c : Ctx) {h : Handler} (ha : AuxOwn h.fid h.aux) (hf : h.fid ≠ .set_cookie_) (add add' : AddNote) (v : Str) :
    (h.parse c add v).1 = (h.parse c add' v).1 ∧ (h.parse c add v).2.res = (h.parse c add' v).2.res := by
  have hsim := Handler.parse_sim (b := false) (add := add) (add' := add') (fun h => by simp at h) (hd := h) (hd' := h) rfl (.refl _) c v
  have none : ∀ {a : Aux}, AuxOwn h.fid a → a.notes = [] := by
    intro a ha
    cases hn : a.notes with
    | nil => rfl
    | cons n ns => exact absurd (ha n (by rw [hn]; simp)).1 hf
  refine ⟨?_, hsim.2.res⟩
  have n1 := none (parse_auxOwn (c := c) (add := add) (v := v) ha)
  have n2 := none (parse_auxOwn (c := c) (add := add') (v := v) ha)
  have k := hsim.1.kids
  have w := hsim.1.vals
  generalize (h.parse c add v).1 = a at *
  generalize (h.parse c add' v).1 = a' at *
  obtain ⟨a1, a2, a3⟩ := a
  obtain ⟨b1, b2, b3⟩ := a'
  dsimp only at *
  subst n1 n2 k w
  rfl

theorem listLoop_moved (c : Ctx) (add add' : AddNote) (vs : List Str) : ∀ h : Handler, AuxOwn h.fid h.aux → h.fid ≠ .set_cookie_ →
    (h.listLoop c add vs).1 = (h.listLoop c add' vs).1 := by
  induction vs with
  | nil => intro h _ _; rfl
  | cons v vs ih =>
    intro h ha hf
    unfold Handler.listLoop
    have hs := elementSyntax_moved h add add' v
    dsimp only
    generalize h.elementSyntax add v = s at *
    generalize h.elementSyntax add' v = s' at *
    rw [← hs]
    cases s.res with
    | error e => rfl
    | ok u =>
      dsimp only
      obtain ⟨p1, p2⟩ := parse_moved c ha hf add add' (strip v)
      have hp := parse_auxOwn (c := c) (add := add) (v := strip v) ha
      generalize h.parse c add (strip v) = p at *
      generalize h.parse c add' (strip v) = p' at *
      obtain ⟨aux, r⟩ := p
      obtain ⟨aux', r'⟩ := p'
      dsimp only at p1 p2 hp ⊢
      subst p1
      rw [← p2]
      cases r.res with
      | error e =>
        dsimp only
        split
        · exact ih { h with aux } hp hf
        · rfl
      | ok x =>
        dsimp only
        cases ha2 : ({ h with aux } : Handler).append x with
        | error e => rfl
        | ok h' =>
          have he : h'.fid = h.fid := (append_id ha2).fid
          exact ih h' (by rw [he, append_aux ha2]; exact hp) (by rw [he]; exact hf)

theorem fedLines_moved (c : Ctx) {name : Str} (hk : (classOf name).info.kind ≠ .broken) {ps ps' : List (Nat × Str)} (h : ps.map (·.2) = ps'.map (·.2)) :
    fedLines c name ps = fedLines c name ps' := by
  have hf : classOf name ≠ .set_cookie_ := by intro e; rw [e] at hk; exact hk rfl
  have key : ∀ (ps ps' : List (Nat × Str)) (h : Handler), ps.map (·.2) = ps'.map (·.2) → AuxOwn h.fid h.aux → h.fid = classOf name →
      ps.foldl (fun h p => (h.handleInput c p.2 p.1).1) h = ps'.foldl (fun h p => (h.handleInput c p.2 p.1).1) h := by
    intro ps
    induction ps with
    | nil =>
      intro ps' h e _ _
      cases ps' with
      | nil => rfl
      | cons _ _ => exact absurd e (by simp)
    | cons p ps ih =>
      intro ps' h e ha hc
      cases ps' with
      | nil => exact absurd e (by simp)
      | cons p' ps' =>
        rw [List.map_cons, List.map_cons, List.cons.injEq] at e
        rw [List.foldl_cons, List.foldl_cons]
        have e1 : (h.handleInput c p.2 p.1).1 = (h.handleInput c p'.2 p'.1).1 := by
          rw [e.1]
          unfold Handler.handleInput
          split
          · exact listLoop_moved c _ _ _ h ha (by rw [hc]; exact hf)
          · rfl
          · rename_i hb; rw [hc] at hb; exact absurd hb hk
          · split <;> rfl
          · split <;> rfl
          · rfl
        rw [e1]
        refine ih ps' _ e.2 ?_ ?_
        · rw [(handleInput_id _ _ _ _).fid]
          exact handleInput_auxOwn ha
        · rw [(handleInput_id _ _ _ _).fid, hc]
  exact key ps ps' _ h (by rw [mkHandler_aux]; intro n hn; exact nomatch hn) (mkHandler_fid _ _)

/-! ### `Cookie` and `Set-Cookie`: the notes of lines are about lines -/

theorem kind_broken {f : FieldId} (h : f.info.kind = .broken) : f = .cookie_ ∨ f = .set_cookie_ := by
  cases f <;> first | exact .inl rfl | exact .inr rfl | exact absurd h (by decide)

theorem parse_aux_offset (c : Ctx) {h : Handler} (hk : h.fid.info.kind = .broken) (ha : ∀ n ∈ h.aux.notes, isOffset n.subject = true) (add : AddNote)
    (hs : isOffset add.subject = true) (v : Str) : ∀ n ∈ (h.parse c add v).1.notes, isOffset n.subject = true := by
  unfold Handler.parse Handler.noAux
  rcases kind_broken hk with hf | hf <;> rw [hf] <;> dsimp only
  · exact ha
  · unfold set_cookie.parse
    split
    · exact ha
    · intro n hn
      simp only [List.mem_append] at hn
      rcases hn with hn | hn
      · exact ha n hn
      · rw [(looseParse_own _ _ _ n hn).subject _ rfl]; exact hs

theorem brokenLoop_offset (c : Ctx) (rs : List (Str × Nat)) : ∀ (h : Handler) (acc : List Val), h.fid.info.kind = .broken →
    (∀ n ∈ h.aux.notes, isOffset n.subject = true) →
    (∀ n ∈ (h.brokenLoop c rs acc).1.aux.notes, isOffset n.subject = true) ∧ ∀ n ∈ (h.brokenLoop c rs acc).2.notes, isOffset n.subject = true := by
  induction rs with
  | nil => intro h acc _ ha; exact ⟨ha, fun n hn => nomatch hn⟩
  | cons r rs ih =>
    obtain ⟨raw, o⟩ := r
    intro h acc hk ha
    rw [brokenLoop_cons]
    have hs : isOffset (h.offsetAdd c.msg.defaults o).subject = true := isOffset_offset o
    have hp := parse_aux_offset c hk ha _ hs (strip raw)
    have hn : ∀ n ∈ brokenNotes c h raw o ++ (h.parse c (h.offsetAdd c.msg.defaults o) (strip raw)).2.notes, isOffset n.subject = true := by
      intro n hn
      rcases List.mem_append.1 hn with hn | hn
      · unfold brokenNotes at hn
        split at hn
        · exact nomatch hn
        · split at hn
          · exact nomatch hn
          · rw [List.mem_singleton] at hn; subst hn; exact hs
      · rw [(Handler.parse_own c h (strip raw) n hn).subject _ rfl]; exact hs
    generalize brokenNotes c h raw o ++ (h.parse c (h.offsetAdd c.msg.defaults o) (strip raw)).2.notes = ns at *
    generalize h.parse c (h.offsetAdd c.msg.defaults o) (strip raw) = p at *
    have go : ∀ acc, (∀ n ∈ (({ h with aux := p.1 } : Handler).brokenLoop c rs acc).1.aux.notes, isOffset n.subject = true) ∧
        ∀ n ∈ (prefixNotes ns (({ h with aux := p.1 } : Handler).brokenLoop c rs acc).2).notes, isOffset n.subject = true := by
      intro acc
      obtain ⟨i1, i2⟩ := ih { h with aux := p.1 } acc hk hp
      refine ⟨i1, fun n hm => ?_⟩
      rcases List.mem_append.1 hm with hm | hm
      · exact hn n hm
      · exact i2 n hm
    cases p.2.res with
    | ok v => exact go _
    | error e =>
      dsimp only
      split
      · exact go _
      · exact ⟨hp, hn⟩

/-- what `evaluate` of `Set-Cookie` says of the field as a whole -/
theorem set_cookie_front (add : AddNote) (h : Handler) (vs : List Val) (hv : h.value = .list vs) : ∃ front, (∀ h' : Handler, h'.value = .list vs →
    (set_cookie.evaluate add h').notes = front ++ h'.aux.notes) := by
  refine ⟨(set_cookie.evaluate add { h with aux := {} }).notes, ?_⟩
  intro h' hv'
  unfold set_cookie.evaluate
  rw [hv']
  dsimp only
  rw [hv]
  unfold Val.iter
  simp only [W.bind_def, W.bind, W.lift, W.when]
  generalize hasDups _ = b1
  generalize (!List.isEmpty _) = b2
  cases b1 <;> cases b2 <;> rfl

theorem evaluate_front (c₁ c₂ : Ctx) (add : AddNote) (h₁ h₂ : Handler) {f : FieldId} (hk : f.info.kind = .broken) (f₁ : h₁.fid = f) (f₂ : h₂.fid = f)
    {vs : List Val} (v₁ : h₁.value = .list vs) (v₂ : h₂.value = .list vs) (a₁ : ∀ n ∈ h₁.aux.notes, isOffset n.subject = true)
    (a₂ : ∀ n ∈ h₂.aux.notes, isOffset n.subject = true) {S : Str} (hS : isOffset S = false) :
    (h₁.evaluate c₁ add).2.notes.filter (·.subject == S) = (h₂.evaluate c₂ add).2.notes.filter (·.subject == S) := by
  unfold Handler.evaluate
  rw [f₁, f₂]
  have away : ∀ ns : List Note, (∀ n ∈ ns, isOffset n.subject = true) → ns.filter (·.subject == S) = [] := by
    intro ns h
    rw [List.filter_eq_nil_iff]
    intro n hn he
    rw [beq_iff_eq] at he
    have := h n hn
    rw [he, hS] at this
    exact nomatch this
  rcases kind_broken hk with rfl | rfl <;> dsimp only
  · obtain ⟨front, hf⟩ := set_cookie_front add h₁ vs v₁
    show (set_cookie.evaluate add h₁).notes.filter _ = (set_cookie.evaluate add h₂).notes.filter _
    rw [hf _ v₁, hf _ v₂, List.filter_append, List.filter_append, away _ a₁, away _ a₂]

theorem finishBroken_said {env related t m} {c₁ c₂ : Ctx} (d₁ : During env related t m c₁) (d₂ : During env related t m c₂) (add : AddNote) {h₁ h₂ : Handler}
    (hf : h₁.fid = h₂.fid) (hk : h₁.fid.info.kind = .broken) (hr : h₁.raw.map (·.1) = h₂.raw.map (·.1)) (a₁ : h₁.aux = {}) (a₂ : h₂.aux = {})
    (ok₁ : (h₁.finish c₁ add).2.res = .ok ()) (ok₂ : (h₂.finish c₂ add).2.res = .ok ()) {S : Str} (hS : isOffset S = false) :
    (h₁.finish c₁ add).2.notes.filter (·.subject == S) = (h₂.finish c₂ add).2.notes.filter (·.subject == S) := by
  have away : ∀ ns : List Note, (∀ n ∈ ns, isOffset n.subject = true) → ns.filter (·.subject == S) = [] := by
    intro ns h
    rw [List.filter_eq_nil_iff]
    intro n hn he
    rw [beq_iff_eq] at he
    have := h n hn
    rw [he, hS] at this
    exact nomatch this
  have key : ∀ {c : Ctx} {h : Handler}, h.fid.info.kind = .broken → h.aux = {} → (h.finish c add).2.res = .ok () →
      ∃ h' : Handler, h'.fid = h.fid ∧ h'.value = .list (h.raw.filterMap fun p => (parseText c h.fid (strip p.1)).toOption) ∧
        (∀ n ∈ h'.aux.notes, isOffset n.subject = true) ∧ (h.finish c add).2.notes.filter (·.subject == S) = (h'.evaluate c add).2.notes.filter (·.subject == S) := by
    intro c h hk ha hok
    have e : h.finish c add = h.finishBroken c add := by unfold Handler.finish; rw [hk]
    rw [e] at hok ⊢
    unfold Handler.finishBroken at hok ⊢
    obtain ⟨o1, o2⟩ := brokenLoop_offset c h.raw h [] hk (by rw [ha]; exact fun n hn => nomatch hn)
    have hv := brokenLoop_value c h.raw h []
    have hi := brokenLoop_id c h.raw h []
    generalize h.brokenLoop c h.raw [] = p at *
    obtain ⟨h1, w⟩ := p
    dsimp only at *
    cases hw : w.res with
    | error e => rw [hw] at hok; exact nomatch hok
    | ok vs =>
      refine ⟨{ h1 with value := .list vs }, hi.fid, by rw [hv vs hw]; rfl, o1, ?_⟩
      dsimp only
      unfold Handler.evalAfter
      rw [if_neg (by exact fun h => nomatch h)]
      show (w.notes ++ _).filter _ = _
      rw [List.filter_append, away _ o2, List.nil_append]
      rfl
  obtain ⟨x₁, i₁, v₁, o₁, e₁⟩ := key hk a₁ ok₁
  obtain ⟨x₂, i₂, v₂, o₂, e₂⟩ := key (hf ▸ hk) a₂ ok₂
  rw [e₁, e₂]
  refine evaluate_front c₁ c₂ add x₁ x₂ hk i₁ (i₂.trans hf.symm) v₁ ?_ o₁ o₂ hS
  rw [v₂, hf]
  have hp : parseText c₂ = parseText c₁ := by
    funext f v
    unfold parseText
    rw [parse_both d₂ d₁]
  have hm : ∀ rs : List (Str × Nat), rs.filterMap (fun p => (parseText c₁ h₂.fid (strip p.1)).toOption) =
      (rs.map (·.1)).filterMap fun x => (parseText c₁ h₂.fid (strip x)).toOption := by
    intro rs; rw [List.filterMap_map]; rfl
  rw [hp, hm, hm, hr]

/-! ### lists -/

theorem dedup_filter (p : Str → Bool) (l : List Str) : (dedup l).filter p = dedup (l.filter p) := by
  unfold dedup
  have key : ∀ (l acc : List Str), (l.foldl (fun acc x => if acc.contains x then acc else acc ++ [x]) acc).filter p =
      (l.filter p).foldl (fun acc x => if acc.contains x then acc else acc ++ [x]) (acc.filter p) := by
    intro l
    induction l with
    | nil => intro acc; rfl
    | cons x l ih =>
      intro acc
      rw [List.foldl_cons, ih]
      by_cases hx : p x = true
      · rw [List.filter_cons_of_pos hx, List.foldl_cons]
        congr 1
        have hc : (acc.filter p).contains x = acc.contains x := by
          rw [Bool.eq_iff_iff, List.contains_iff_mem, List.contains_iff_mem, List.mem_filter]
          exact ⟨fun h => h.1, fun h => ⟨h, hx⟩⟩
        rw [hc]
        split
        · rfl
        · rw [List.filter_append, List.filter_cons_of_pos hx]; rfl
      · rw [List.filter_cons_of_neg hx]
        congr 1
        split
        · rfl
        · rw [List.filter_append, List.filter_cons_of_neg hx, List.filter_nil, List.append_nil]
  exact key l []

theorem namesOf_filter (p : Str → Bool) (ls : List Line) : (namesOf ls).filter p = namesOf (ls.filter fun l => p (lineKey l.1)) := by
  unfold namesOf
  rw [dedup_filter, List.filter_map]
  rfl

theorem valuesOf_filter {p : Str → Bool} {n : Str} (hn : p n = true) (ls : List Line) : valuesOf (ls.filter fun l => p (lineKey l.1)) n = valuesOf ls n := by
  unfold valuesOf
  rw [List.filter_filter]
  congr 1
  apply List.filter_congr
  intro l _
  by_cases h : lineKey l.1 = n
  · rw [h, hn, Bool.and_true]
  · simp [h]

theorem spelling_filter {p : Str → Bool} {n : Str} (hn : p n = true) (ls : List Line) : spelling (ls.filter fun l => p (lineKey l.1)) n = spelling ls n := by
  unfold spelling
  rw [List.find?_filter]
  congr 3
  funext l
  by_cases h : lineKey l.1 = n
  · simp [h, hn]
  · simp [h]

theorem split_unique {α} {a b a' b' : List α} {n : α} (h : a ++ n :: b = a' ++ n :: b') (h1 : n ∉ a) (h2 : n ∉ a') : a = a' := by
  induction a generalizing a' with
  | nil =>
    cases a' with
    | nil => rfl
    | cons x a' =>
      rw [List.nil_append, List.cons_append, List.cons.injEq] at h
      exact absurd (by rw [h.1]; exact List.mem_cons_self ..) h2
  | cons x a ih =>
    cases a' with
    | nil =>
      rw [List.nil_append, List.cons_append, List.cons.injEq] at h
      exact absurd (by rw [h.1]; exact List.mem_cons_self ..) h1
    | cons y a' =>
      rw [List.cons_append, List.cons_append, List.cons.injEq] at h
      rw [h.1, ih h.2 (fun hm => h1 (List.mem_cons_of_mem _ hm)) (fun hm => h2 (List.mem_cons_of_mem _ hm))]

/-! ### names and how they are shown -/

theorem shown_lower {a b : Str} (h : lower a = lower b) : lower (shownName a) = lower (shownName b) := by
  rw [← (mkHandler_shown a).1, ← (mkHandler_shown b).1, classOf_lower h, mkHandler_canon h]

/-- the fields the checks of a class look at -/
theorem checksLookAt_class (n : Str) :
    (classOf n = .date_ → checksLookAt (lower (shownName n)) = [str "age"]) ∧
    (classOf n = .last_modified_ → checksLookAt (lower (shownName n)) = [str "date"]) ∧
    (classOf n = .content_length_ → checksLookAt (lower (shownName n)) = [str "transfer-encoding"]) ∧
    (classOf n = .cross_origin_embedder_policy_report_only_ → checksLookAt (lower (shownName n)) = [str "cross-origin-embedder-policy"]) ∧
    (classOf n = .cross_origin_opener_policy_report_only_ → checksLookAt (lower (shownName n)) = [str "cross-origin-opener-policy"]) := by
  refine ⟨?_, ?_, ?_, ?_, ?_⟩
  all_goals
    intro h
    unfold shownName
    rw [h]
    rfl

theorem elsewhere_two {cls : NoteId} {s : Str} (h : elsewhere cls = some s) : s = str "field-date field-age" ∨ s = str "header-access-control-allow-origin" := by
  unfold elsewhere at h
  split at h
  all_goals first
    | (cases h; exact .inl rfl)
    | (cases h; exact .inr rfl)
    | cases h

theorem subject_offset (n : Str) (k : Nat) : offsetSubject k ≠ subjectOf n := fun h => nomatch h

theorem subject_inj {a b : Str} (h : str "field-" ++ a = str "field-" ++ b) : a = b := List.append_cancel_left h

theorem about_ne {mt canon cat f S ft x} {n : Str} (hn : Distinct n) (h : AboutField mt canon cat f S ft x) (hS : S ≠ subjectOf n) : x.subject ≠ subjectOf n := by
  rw [h.subject]
  cases he : elsewhere x.cls with
  | none => exact hS
  | some s =>
    show s ≠ _
    rcases elsewhere_two he with rfl | rfl
    · intro hh
      exact hn.2 (subject_inj (a := str "date field-age") hh).symm
    · exact fun hh => nomatch hh

/-! ### what is said of a field -/

/-- what finishing the handler of a name says -/
def finishSaid (env : Env) (related : Option Msg) (t : Bool) (m : Msg) (ls : List Line) (ctx : Str → Ctx) (k : Str) : List Note :=
  (finishIn m t (readHandler ⟨env, m, related⟩ ls k) (ctx k)).2.notes

theorem finishSaid_about {env related t} {ls : List Line} {m : Msg} {mt : Val} {ctx : Str → Ctx} {n : Str} (hm : m.defaults = mtDefaults mt) (hn : n ∈ namesOf ls)
    (hd : During env related t m (ctx n)) : ∀ x ∈ finishSaid env related t m ls ctx n, (∃ canon cat f S ft, AboutField mt canon cat f S ft x ∧
      ((∃ k, S = offsetSubject k) ∨ S = str "field-" ++ lower (shownName n))) := by
  intro x hx
  unfold finishSaid at hx
  let idOf : Str → Handler := fun k => mkHandler (classOf (spelling ls k)) (spelling ls k)
  have hcm : (ctx n).msg.defaults = mtDefaults mt := (ext_defaults hd.ext).trans hm
  have hsh : lower (shownName (spelling ls n)) = lower (shownName n) := shown_lower (by rw [lower_spelling hn, lower_name hn])
  have hh : SameId (readHandler ⟨env, m, related⟩ ls n) (idOf n) ∧ Kept (fun _ => True) (readHandler ⟨env, m, related⟩ ls n).aux ∧
      ((readHandler ⟨env, m, related⟩ ls n).fid.info.kind = .broken → (readHandler ⟨env, m, related⟩ ls n).aux = {}) := by
    unfold readHandler handlerFor
    dsimp only
    split
    · refine ⟨fed_id _ _ _, fed_kept _ _ _ hm, ?_⟩
      intro hk
      rw [(fed_id _ _ _).fid, mkHandler_fid] at hk
      rw [fed_broken hk]
      show (mkHandler _ _).aux = _; rw [mkHandler_aux]
    · refine ⟨checked_id _ _, ?_, fun _ => ?_⟩
      · unfold checked; split <;> (show Kept _ (mkHandler _ _).aux; rw [mkHandler_aux]; exact kept_empty)
      · unfold checked; split <;> (show (mkHandler _ _).aux = _; rw [mkHandler_aux])
  generalize readHandler ⟨env, m, related⟩ ls n = hd1 at *
  obtain ⟨hid, hkept, hbr⟩ := hh
  have hfin := finish_about (mt := mt) (ctx n) hcm hd1 (fieldAdder_fits hm t hd1) (by unfold Sorted; rw [hid.fid, hid.cat]; exact (mkHandler_shown _).2.2) hkept hbr x hx
  unfold FinishAbout at hfin
  rcases hfin with hfin | ⟨_, q, _, hfin⟩
  · refine ⟨_, _, _, _, _, hfin, .inr ?_⟩
    rw [hid.canon]
    dsimp only [idOf]
    rw [(mkHandler_shown _).1, hsh]
  · exact ⟨_, _, _, _, _, hfin, .inl ⟨_, rfl⟩⟩

/-- is the field shown under the name `n` is? -/
def shownLike (n k : Str) : Bool := lower (shownName k) == lower (shownName n)

theorem saidOf_eq {env related t} {ls : List Line} {m m' : Msg} (P : Processed env related t ls m m') : ∃ ctx : Str → Ctx,
    (∀ k ∈ namesOf ls, During env related t m (ctx k) ∧ (finishIn m t (readHandler ⟨env, m, related⟩ ls k) (ctx k)).2.res = .ok () ∧ (ctx k).msg.notes <+: m'.notes) ∧
    (∀ a k b, namesOf ls = a ++ k :: b → Seen env related t ls m a (ctx k)) ∧
    ∀ n, Distinct n → saidOf n m m' =
      ((namesOf ls).filter (shownLike n)).flatMap fun k => (finishSaid env related t m ls ctx k).filter fun x => x.subject == subjectOf n := by
  have hr := P.linting.ready t
  have hm : m.defaults = mtDefaults _ := P.linting.defaults
  generalize hmt : (Val.str (env.render.translate m.kind.name)) = mt at hm
  obtain ⟨lineNotes, sizeNotes, ctx, h1, _, h3, h4, h5, _, h7⟩ := section_outcome_full hr P.new P.ok
  refine ⟨ctx, h4, fun a k b e => seen_of P.linting P.ok h4 e (h7 a k b e), ?_⟩
  intro n hn
  have hok : processLines env related t ls 0 m = ((processLines env related t ls 0 m).1, .ok ()) := by
    have := P.ok
    unfold processSection at this
    split at this
    · simp at this
    · rename_i hh; rw [hh]
  let idOf : Str → Handler := fun k => mkHandler (classOf (spelling ls k)) (spelling ls k)
  obtain ⟨added, e1, p1⟩ := processLines_about (mt := mt) idOf (fun k => (mkHandler_shown _).2.2) hr hm
    ⟨by rw [P.new]; intro k h he; exact (nomatch he), by intro k l _ hf; dsimp only [idOf]; rw [spelling_find hf]⟩ hok
  have hln : added = lineNotes := List.append_cancel_left (e1.symm.trans h1)
  subst hln
  have none : ∀ ns : List Note, (∀ x ∈ ns, x.subject ≠ subjectOf n) → (ns.filter fun x => x.subject == subjectOf n) = [] := by
    intro ns h
    rw [List.filter_eq_nil_iff]
    intro x hx he
    exact h x hx (by simpa using he)
  unfold saidOf
  rw [h5, List.drop_left, List.filter_append, List.filter_append, none added, none sizeNotes, List.nil_append, List.nil_append, List.filter_flatMap]
  · have key : ∀ l : List Str, (∀ k ∈ l, k ∈ namesOf ls) →
        (l.flatMap fun k => (finishSaid env related t m ls ctx k).filter fun x => x.subject == subjectOf n) =
        (l.filter (shownLike n)).flatMap fun k => (finishSaid env related t m ls ctx k).filter fun x => x.subject == subjectOf n := by
      intro l
      induction l with
      | nil => intro _; rfl
      | cons k l ih =>
        intro hl
        rw [List.flatMap_cons, ih fun x hx => hl x (List.mem_cons_of_mem _ hx)]
        by_cases hk : shownLike n k = true
        · rw [List.filter_cons_of_pos hk, List.flatMap_cons]
        · rw [List.filter_cons_of_neg hk, none, List.nil_append]
          intro x hx
          have hkn := hl k (List.mem_cons_self ..)
          obtain ⟨_, _, _, S, _, ha, hS⟩ := finishSaid_about hm hkn (h4 k hkn).1 x hx
          refine about_ne hn ha ?_
          rcases hS with ⟨o, rfl⟩ | rfl
          · exact subject_offset _ _
          · intro he
            apply hk
            unfold shownLike
            rw [beq_iff_eq]
            exact subject_inj he
    exact key _ fun k hk => hk
  · intro x hx
    rw [h3] at hx
    unfold sectionSizeNotes at hx
    dsimp only at hx
    split at hx
    · rw [List.mem_singleton] at hx
      subst hx
      intro he
      exact hn.1 (subject_inj (a := str "block") he).symm
    · exact nomatch hx
  · intro x hx
    obtain ⟨p, _, hh⟩ := p1 x hx
    unfold LineAbout at hh
    rcases hh with hh | ⟨_, hh, _⟩
    · exact about_ne hn hh (subject_offset _ _)
    · rw [hh]; exact subject_offset _ _

/-! ### the theorem -/

/-- `matters`, of a name -/
def mattersKey (n k : Str) : Bool := shownLike n k || (checksLookAt (lower (shownName n))).contains k

theorem matters_key (n : Str) : matters n = fun l => mattersKey n (lineKey l.1) := rfl

theorem before_same {p : Str → Bool} {l₁ l₂ : List Str} (h : l₁.filter p = l₂.filter p) (d₁ : l₁.Nodup) (d₂ : l₂.Nodup) {a₁ b₁ a₂ b₂ : List Str} {k : Str}
    (hk : p k = true) (e₁ : l₁ = a₁ ++ k :: b₁) (e₂ : l₂ = a₂ ++ k :: b₂) {x : Str} (hx : p x = true) : x ∈ a₁ ↔ x ∈ a₂ := by
  subst e₁ e₂
  rw [List.filter_append, List.filter_append, List.filter_cons_of_pos hk, List.filter_cons_of_pos hk] at h
  have n₁ : k ∉ a₁ := fun hm => (List.nodup_append.1 d₁).2.2 k hm k (List.mem_cons_self ..) rfl
  have n₂ : k ∉ a₂ := fun hm => (List.nodup_append.1 d₂).2.2 k hm k (List.mem_cons_self ..) rfl
  have := split_unique h (fun hm => n₁ (List.mem_filter.1 hm).1) (fun hm => n₂ (List.mem_filter.1 hm).1)
  constructor
  · intro hm
    have h' : x ∈ a₂.filter p := this ▸ List.mem_filter.2 ⟨hm, hx⟩
    exact (List.mem_filter.1 h').1
  · intro hm
    have h' : x ∈ a₁.filter p := this ▸ List.mem_filter.2 ⟨hm, hx⟩
    exact (List.mem_filter.1 h').1

theorem readHandler_fid {c : Ctx} {ls : List Line} {k : Str} (hk : k ∈ namesOf ls) : (readHandler c ls k).fid = classOf k := by
  unfold readHandler handlerFor
  split
  · rw [(fed_id _ _ _).fid, mkHandler_fid, classOf_spelling hk]
  · rw [(checked_id _ _).fid, mkHandler_fid, classOf_spelling hk]

section
variable {env : Env} {related : Option Msg} {t : Bool} {ls₁ ls₂ : List Line} {m m₁ m₂ : Msg}

/-- the checks of a field see the same when the lines that matter are the same -/
theorem sees_same {n : Str} (h : ls₁.filter (matters n) = ls₂.filter (matters n)) (P₁ : Processed env related t ls₁ m m₁) (P₂ : Processed env related t ls₂ m m₂)
    (hu₁ : Unpadded ls₁) (hu₂ : Unpadded ls₂) {k : Str} (hs : shownLike n k = true) {a₁ a₂ b₁ b₂ : List Str} {c₁ c₂ : Ctx}
    (e₁ : namesOf ls₁ = a₁ ++ k :: b₁) (e₂ : namesOf ls₂ = a₂ ++ k :: b₂) (d₁ : During env related t m c₁) (d₂ : During env related t m c₂)
    (q₁ : c₁.msg.notes <+: m₁.notes) (q₂ : c₂.msg.notes <+: m₂.notes)
    (s₁ : Seen env related t ls₁ m a₁ c₁) (s₂ : Seen env related t ls₂ m a₂ c₂) : SeesSame (classOf k) c₁ c₂ := by
  rw [matters_key] at h
  have hnames : (namesOf ls₁).filter (mattersKey n) = (namesOf ls₂).filter (mattersKey n) := by
    rw [namesOf_filter, namesOf_filter, h]
  have hkey : mattersKey n k = true := by unfold mattersKey; rw [hs]; rfl
  have hlook : checksLookAt (lower (shownName k)) = checksLookAt (lower (shownName n)) := by
    unfold shownLike at hs; rw [beq_iff_eq] at hs; rw [hs]
  have dep : ∀ x, checksLookAt (lower (shownName k)) = [x] → mattersKey n x = true := by
    intro x hx
    unfold mattersKey
    rw [← hlook, hx]; simp
  have parsed : ∀ x, mattersKey n x = true → dget c₁.msg.headers.parsed x = dget c₂.msg.headers.parsed x := by
    intro x hx
    cases t with
    | true =>
      obtain ⟨_, _, x₁⟩ := d₁.ext
      obtain ⟨_, _, x₂⟩ := d₂.ext
      rw [x₁, x₂]; rfl
    | false =>
      have p₁ := s₁.parsed hu₁ x
      have p₂ := s₂.parsed hu₂ x
      have hv : valuesOf ls₁ x = valuesOf ls₂ x := by rw [← valuesOf_filter hx ls₁, h, valuesOf_filter hx ls₂]
      have hb := before_same hnames (show (namesOf ls₁).Nodup from dedup_nodup _) (show (namesOf ls₂).Nodup from dedup_nodup _) hkey e₁ e₂ hx
      change dget (c₁.msg.section false).parsed x = dget (c₂.msg.section false).parsed x
      rw [p₁, p₂, hv]
      by_cases hm : x ∈ a₁
      · rw [if_pos hm, if_pos (hb.1 hm)]
      · rw [if_neg hm, if_neg (fun hh => hm (hb.2 hh))]
  have handlers : ∀ x, mattersKey n x = true → dhas c₁.msg.headers.handlers x = dhas c₂.msg.headers.handlers x := by
    intro x hx
    cases t with
    | true =>
      obtain ⟨_, _, x₁⟩ := d₁.ext
      obtain ⟨_, _, x₂⟩ := d₂.ext
      rw [x₁, x₂]; rfl
    | false =>
      have p₁ := s₁.keys
      have p₂ := s₂.keys
      change dhas (c₁.msg.section false).handlers x = dhas (c₂.msg.section false).handlers x
      have hd : ∀ d : Dict Handler, dhas d x = (d.map (·.1)).contains x := by
        intro d
        unfold dhas
        rw [Bool.eq_iff_iff, List.contains_iff_mem, List.any_eq_true, List.mem_map]
        constructor
        · rintro ⟨p, hp, he⟩; exact ⟨p, hp, by simpa using he⟩
        · rintro ⟨p, hp, he⟩; exact ⟨p, hp, by simpa using he⟩
      rw [hd, hd, p₁, p₂, Bool.eq_iff_iff, List.contains_iff_mem, List.contains_iff_mem]
      have : ∀ ls : List Str, x ∈ ls ↔ x ∈ ls.filter (mattersKey n) := fun ls => ⟨fun hm => List.mem_filter.2 ⟨hm, hx⟩, fun hm => (List.mem_filter.1 hm).1⟩
      rw [this (namesOf ls₁), hnames, ← this]
  obtain ⟨l1, l2, l3, l4, l5⟩ := checksLookAt_class k
  exact ⟨fun e => parsed _ (dep _ (l1 e)), fun e => parsed _ (dep _ (l2 e)), fun e => parsed _ (dep _ (l3 e)), fun e => handlers _ (dep _ (l4 e)),
    fun e => handlers _ (dep _ (l5 e)), (prefix_any P₁ d₁ q₁).trans (prefix_any P₂ d₂ q₂).symm⟩

/-- finishing a field says the same -/
theorem finishSaid_same {n : Str} (h : ls₁.filter (matters n) = ls₂.filter (matters n)) {k : Str} (hs : shownLike n k = true)
    (k₁ : k ∈ namesOf ls₁) (k₂ : k ∈ namesOf ls₂) {ctx₁ ctx₂ : Str → Ctx} (d₁ : During env related t m (ctx₁ k)) (d₂ : During env related t m (ctx₂ k))
    (o₁ : (finishIn m t (readHandler ⟨env, m, related⟩ ls₁ k) (ctx₁ k)).2.res = .ok ()) (o₂ : (finishIn m t (readHandler ⟨env, m, related⟩ ls₂ k) (ctx₂ k)).2.res = .ok ())
    (ss : SeesSame (classOf k) (ctx₁ k) (ctx₂ k)) :
    ((finishSaid env related t m ls₁ ctx₁ k).filter fun x => x.subject == subjectOf n) =
      (finishSaid env related t m ls₂ ctx₂ k).filter fun x => x.subject == subjectOf n := by
  rw [matters_key] at h
  have hkey : mattersKey n k = true := by unfold mattersKey; rw [hs]; rfl
  have hsp : spelling ls₁ k = spelling ls₂ k := by rw [← spelling_filter hkey ls₁, h, spelling_filter hkey ls₂]
  have hv : (sent m.kind k ls₁).map (·.2) = (sent m.kind k ls₂).map (·.2) := by
    rw [sent_snd, sent_snd, ← valuesOf_filter hkey ls₁, h, valuesOf_filter hkey ls₂]
  have f₁ := readHandler_fid (c := ⟨env, m, related⟩) k₁
  have f₂ := readHandler_fid (c := ⟨env, m, related⟩) k₂
  unfold finishSaid finishIn
  unfold finishIn at o₁ o₂
  have hcan : m.fieldAdder t (readHandler ⟨env, m, related⟩ ls₁ k) = m.fieldAdder t (readHandler ⟨env, m, related⟩ ls₂ k) := by
    have : (readHandler ⟨env, m, related⟩ ls₁ k).canonicalName = (readHandler ⟨env, m, related⟩ ls₂ k).canonicalName := by
      unfold readHandler handlerFor
      rw [hsp]
      split
      · rw [(fed_id _ _ _).canon, (fed_id _ _ _).canon]
      · rfl
    unfold Msg.fieldAdder
    rw [this]
  rw [hcan] at o₁ ⊢
  generalize m.fieldAdder t (readHandler ⟨env, m, related⟩ ls₂ k) = add at *
  by_cases hb : (classOf k).info.kind = .broken
  · refine finishBroken_said d₁ d₂ add (f₁.trans f₂.symm) (by rw [f₁]; exact hb) ?_ ?_ ?_ o₁ o₂ rfl
    all_goals
      clear o₁ o₂ f₁ f₂
      unfold readHandler handlerFor
    · rw [hsp]
      split
      · have hb' : (classOf (spelling ls₂ k)).info.kind = .broken := by rw [classOf_spelling k₂]; exact hb
        rw [fed_broken hb', fed_broken hb']
        show ((sent m.kind k ls₁).map fun p => (p.2, p.1)).map (·.1) = ((sent m.kind k ls₂).map fun p => (p.2, p.1)).map (·.1)
        rw [List.map_map, List.map_map]
        exact hv
      · rfl
    · split
      · rw [fed_broken (by rw [classOf_spelling k₁]; exact hb)]
        show (mkHandler _ _).aux = _; rw [mkHandler_aux]
      · unfold checked; split <;> (show (mkHandler _ _).aux = _; rw [mkHandler_aux])
    · split
      · rw [fed_broken (by rw [classOf_spelling k₂]; exact hb)]
        show (mkHandler _ _).aux = _; rw [mkHandler_aux]
      · unfold checked; split <;> (show (mkHandler _ _).aux = _; rw [mkHandler_aux])
  · have hh : readHandler ⟨env, m, related⟩ ls₁ k = readHandler ⟨env, m, related⟩ ls₂ k := by
      unfold readHandler handlerFor
      rw [hsp]
      split
      · exact fedLines_moved _ (by rw [classOf_spelling k₂]; exact hb) hv
      · rfl
    rw [hh, finish_alike d₁ d₂ _ (by rw [f₂]; exact ss) (by rw [f₂]; exact hb)]

/-- **C125**: in two sections that a message could have, the same is recorded for a field and the same is said about it
if the lines that matter to it - its own and those of the fields its checks look at - are the same, in the same order;
no other line makes a difference, wherever it is -/
theorem C125_alone (P₁ : Processed env related t ls₁ m m₁) (P₂ : Processed env related t ls₂ m m₂) (hu₁ : Unpadded ls₁) (hu₂ : Unpadded ls₂)
    (n : Str) (hn : Distinct n) (h : ls₁.filter (matters n) = ls₂.filter (matters n)) :
    dget (m₁.section t).parsed n = dget (m₂.section t).parsed n ∧ saidOf n m m₁ = saidOf n m m₂ := by
  have hk := h
  rw [matters_key] at hk
  have hnames : (namesOf ls₁).filter (mattersKey n) = (namesOf ls₂).filter (mattersKey n) := by
    rw [namesOf_filter, namesOf_filter, hk]
  have mem : ∀ x, mattersKey n x = true → (x ∈ namesOf ls₁ ↔ x ∈ namesOf ls₂) := by
    intro x hx
    have : ∀ ls : List Str, x ∈ ls ↔ x ∈ ls.filter (mattersKey n) := fun ls => ⟨fun hm => List.mem_filter.2 ⟨hm, hx⟩, fun hm => (List.mem_filter.1 hm).1⟩
    rw [this (namesOf ls₁), hnames, ← this]
  have shk : ∀ x, shownLike n x = true → mattersKey n x = true := by intro x hx; unfold mattersKey; rw [hx]; rfl
  have hnn : mattersKey n n = true := shk n (by unfold shownLike; exact beq_self_eq_true _)
  constructor
  · rw [section_values P₁.linting P₁.new hu₁ P₁.ok n, section_values P₂.linting P₂.new hu₂ P₂.ok n]
    have hv : valuesOf ls₁ n = valuesOf ls₂ n := by rw [← valuesOf_filter hnn ls₁, hk, valuesOf_filter hnn ls₂]
    rw [hv]
    by_cases hm : n ∈ namesOf ls₁
    · rw [if_pos hm, if_pos ((mem n hnn).1 hm)]
    · rw [if_neg hm, if_neg (fun hh => hm ((mem n hnn).2 hh))]
  · obtain ⟨ctx₁, g₁, w₁, r₁⟩ := saidOf_eq P₁
    obtain ⟨ctx₂, g₂, w₂, r₂⟩ := saidOf_eq P₂
    rw [r₁ n hn, r₂ n hn]
    have hsh : (namesOf ls₁).filter (shownLike n) = (namesOf ls₂).filter (shownLike n) := by
      have : ∀ ls : List Str, ls.filter (shownLike n) = (ls.filter (mattersKey n)).filter (shownLike n) := by
        intro ls
        rw [List.filter_filter]
        apply List.filter_congr
        intro x _
        by_cases hx : shownLike n x = true
        · rw [hx, shk x hx]; rfl
        · simp [hx]
      rw [this, hnames, ← this]
    have each : ∀ k ∈ (namesOf ls₁).filter (shownLike n),
        ((finishSaid env related t m ls₁ ctx₁ k).filter fun x => x.subject == subjectOf n) =
          (finishSaid env related t m ls₂ ctx₂ k).filter fun x => x.subject == subjectOf n := by
      intro k hk1
      obtain ⟨k₁, hs⟩ := List.mem_filter.1 hk1
      have k₂ := (mem k (shk k hs)).1 k₁
      obtain ⟨a₁, b₁, e₁⟩ := List.append_of_mem k₁
      obtain ⟨a₂, b₂, e₂⟩ := List.append_of_mem k₂
      exact finishSaid_same h hs k₁ k₂ (g₁ k k₁).1 (g₂ k k₂).1 (g₁ k k₁).2.1 (g₂ k k₂).2.1
        (sees_same h P₁ P₂ hu₁ hu₂ hs e₁ e₂ (g₁ k k₁).1 (g₂ k k₂).1 (g₁ k k₁).2.2 (g₂ k k₂).2.2 (w₁ _ _ _ e₁) (w₂ _ _ _ e₂))
    rw [hsh] at each ⊢
    exact flatMap_congr_mem each

/-- **C125**, of a single section: what is recorded for a field and said about it does not change when every line that does not
matter to it is dropped -/
theorem C125_dropped (P₁ : Processed env related t ls₁ m m₁) (hu₁ : Unpadded ls₁) (n : Str) (hn : Distinct n) (keep : Line → Bool)
    (hk : ∀ l, matters n l = true → keep l = true) (P₂ : Processed env related t (ls₁.filter keep) m m₂) :
    dget (m₁.section t).parsed n = dget (m₂.section t).parsed n ∧ saidOf n m m₁ = saidOf n m m₂ := by
  refine C125_alone P₁ P₂ hu₁ (fun l hl => hu₁ l (List.mem_filter.1 hl).1) n hn ?_
  rw [List.filter_filter]
  apply List.filter_congr
  intro l _
  by_cases h : matters n l = true
  · rw [h, hk l h]; rfl
  · simp [h]

end

/-! ### examples -/

/-- what is recorded for a field and said about it when a response has these headers -/
def judgedAs (n : Str) (ls : List Line) : Option Val × List NoteId :=
  let m := fresh toyEnv .response none false false
  let m' := (processSection toyEnv none false ls m).1
  (dget (m'.section false).parsed n, (saidOf n m m').map (·.cls))

def linesAlone : List Line := [(str "Vary", str "a b"), (str "etag", str "a\"b"), (str "Content-Length", str "10"), (str "ETAG", str "\"a\"")]
def linesAlone' : List Line := [(str "etag", str "a\"b"), (str "Age", str "x"), (str "Etag", str "\"a\"")]

/-- a fresh response whose headers are processed without an exception -/
theorem fresh_processed {ls : List Line} (h : (processSection toyEnv none false ls (fresh toyEnv .response none false false)).2 = .ok ()) :
    Processed toyEnv none false ls (fresh toyEnv .response none false false) (processSection toyEnv none false ls (fresh toyEnv .response none false false)).1 :=
  ⟨⟨_, ⟨.response, none, false, false, none, [], rfl⟩, .inl rfl⟩, rfl, Prod.ext rfl h⟩

/-- two sections with the same values of `ETag` in the same order (other spellings after the first, other fields and other
positions) meet the hypotheses; the same is said, and it is something -/
example : Processed toyEnv none false linesAlone (fresh toyEnv .response none false false) (processSection toyEnv none false linesAlone (fresh toyEnv .response none false false)).1 ∧
    Processed toyEnv none false (linesAlone.filter (matters (str "etag"))) (fresh toyEnv .response none false false)
      (processSection toyEnv none false (linesAlone.filter (matters (str "etag"))) (fresh toyEnv .response none false false)).1 ∧
    Unpadded linesAlone ∧ Distinct (str "etag") ∧ linesAlone.filter (matters (str "etag")) = [(str "etag", str "a\"b"), (str "ETAG", str "\"a\"")] :=
  ⟨fresh_processed (by kernel_rfl), fresh_processed (by kernel_rfl), by unfold Unpadded; decide +kernel, by unfold Distinct; decide +kernel, by decide +kernel⟩

example : judgedAs (str "etag") linesAlone = (some (.tuple [.bool false, .str (str "a\"b")]), [.SINGLE_HEADER_REPEAT, .BAD_SYNTAX]) := by kernel_rfl
example : judgedAs (str "etag") linesAlone' = (some (.tuple [.bool false, .str (str "a\"b")]), [.SINGLE_HEADER_REPEAT, .BAD_SYNTAX]) := by kernel_rfl

/-- the fields in `checksLookAt` do matter, and so does their order: the length and the date of modification are judgedAs by what
comes before them -/
example : (judgedAs (str "content-length") [(str "Content-Length", str "10")]).2 = [] ∧
    (judgedAs (str "content-length") [(str "Transfer-Encoding", str "chunked"), (str "Content-Length", str "10")]).2 = [.CL_AND_TE_PRESENT] ∧
    (judgedAs (str "content-length") [(str "Content-Length", str "10"), (str "Transfer-Encoding", str "chunked")]).2 = [] ∧
    (judgedAs (str "last-modified") [(str "Date", str "Tue, 02 Jan 2024 03:03:05 GMT"), (str "Last-Modified", str "Tue, 02 Jan 2024 03:04:05 GMT")]).2 = [.LM_PRESENT] ∧
    (judgedAs (str "last-modified") [(str "Last-Modified", str "Tue, 02 Jan 2024 03:04:05 GMT"), (str "Date", str "Tue, 02 Jan 2024 03:03:05 GMT")]).2 = [] := by
  decide +kernel

end HL.Props
