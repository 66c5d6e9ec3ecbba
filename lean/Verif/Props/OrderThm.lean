import Verif.Props.AloneLines

/-!
# C127: the order of fields with different names does not matter

Two sections with the same lines, in orders that agree on the lines of each field (and of the fields its checks look
at), have the same notes, in some order, but for the numbers of the lines.
-/

namespace HL.Props
open HL.F

/-! ### specification -/

/-- a subject without the number of the line -/
def unnumber (s : Str) : Str := if isOffset s then str "offset" else s

/-- a note (and its sub-notes) without the number of the line -/
def unnumbered (x : Note) : Note := { x with subject := unnumber x.subject, subnotes := x.subnotes.map fun s => { s with subject := unnumber s.subject } }

/-- the notes added when `m` became `m'` -/
def addedTo (m m' : Msg) : List Note := m'.notes.drop m.notes.length

/-- neither line can make a difference to the other: their fields are not shown under the same name, and the checks of neither
look at the other -/
def Apart (x y : Line) : Prop :=
  lower (shownName (lineKey x.1)) ≠ lower (shownName (lineKey y.1)) ∧
  lineKey y.1 ∉ checksLookAt (lower (shownName (lineKey x.1))) ∧ lineKey x.1 ∉ checksLookAt (lower (shownName (lineKey y.1)))

/-! ### notes that differ in the number of the line only -/

theorem unnumbered_eq {x y : Note} (h : unplaced x = unplaced y) (hs : unnumber x.subject = unnumber y.subject)
    (kx : ∀ s ∈ x.subnotes, s.subject = x.subject) (ky : ∀ s ∈ y.subnotes, s.subject = y.subject) : unnumbered x = unnumbered y := by
  obtain ⟨c1, s1, k1, v1, n1⟩ := x
  obtain ⟨c2, s2, k2, v2, n2⟩ := y
  unfold unplaced at h
  unfold unnumbered
  simp only [Note.mk.injEq] at h ⊢
  dsimp only at hs kx ky
  refine ⟨h.1, hs, h.2.2.1, h.2.2.2.1, ?_⟩
  have hn := h.2.2.2.2
  clear h
  induction n1 generalizing n2 with
  | nil =>
    cases n2 with
    | nil => rfl
    | cons _ _ => exact nomatch hn
  | cons a n1 ih =>
    cases n2 with
    | nil => exact nomatch hn
    | cons b n2 =>
      rw [List.map_cons, List.map_cons, List.cons.injEq] at hn
      rw [List.map_cons, List.map_cons, List.cons.injEq]
      refine ⟨?_, ih (fun s hs => kx s (List.mem_cons_of_mem _ hs)) n2 (fun s hs => ky s (List.mem_cons_of_mem _ hs)) hn.2⟩
      have e1 := kx a (List.mem_cons_self ..)
      have e2 := ky b (List.mem_cons_self ..)
      obtain ⟨hn, _⟩ := hn
      cases a
      cases b
      simp_all

theorem lines_unnumbered {a b : Nat} {k : Str} {xs : List Note} : ∀ {ys : List Note}, xs.map unplaced = ys.map unplaced → (∀ x ∈ xs, OfLine k a x) →
    (∀ y ∈ ys, OfLine k b y) → xs.map unnumbered = ys.map unnumbered := by
  induction xs with
  | nil =>
    intro ys h _ _
    cases ys with
    | nil => rfl
    | cons _ _ => exact nomatch h
  | cons x xs ih =>
    intro ys h hx hy
    cases ys with
    | nil => exact nomatch h
    | cons y ys =>
      rw [List.map_cons, List.map_cons, List.cons.injEq] at h
      rw [List.map_cons, List.map_cons, ih h.2 (fun z hz => hx z (List.mem_cons_of_mem _ hz)) (fun z hz => hy z (List.mem_cons_of_mem _ hz))]
      obtain ⟨px, _, kx⟩ := hx x (List.mem_cons_self ..)
      obtain ⟨py, _, ky⟩ := hy y (List.mem_cons_self ..)
      congr 1
      refine unnumbered_eq h.1 ?_ kx ky
      have hcls : x.cls = y.cls := by have := congrArg Note.cls h.1; exact this
      rw [px, py, hcls]
      cases he : elsewhere y.cls with
      | none => unfold unnumber; rw [Option.getD_none, Option.getD_none, isOffset_offset, isOffset_offset]; rfl
      | some s => rfl

theorem Pairs.unnumbered {Q : Nat → Nat → Prop} {xs ys : List Note} (h : Pairs Q xs ys) (kx : ∀ x ∈ xs, ∀ s ∈ x.subnotes, s.subject = x.subject)
    (ky : ∀ y ∈ ys, ∀ s ∈ y.subnotes, s.subject = y.subject) : xs.map HL.Props.unnumbered = ys.map HL.Props.unnumbered := by
  induction h with
  | nil => rfl
  | cons h1 h2 h3 h4 _ ih =>
    rw [List.map_cons, List.map_cons, ih (fun z hz => kx z (List.mem_cons_of_mem _ hz)) (fun z hz => ky z (List.mem_cons_of_mem _ hz))]
    congr 1
    refine unnumbered_eq h1 ?_ (kx _ (List.mem_cons_self ..)) (ky _ (List.mem_cons_self ..))
    rw [h3, h4]
    unfold unnumber
    rw [isOffset_offset, isOffset_offset]; rfl

/-! ### the lines, name by name -/

theorem flatMap_append_perm {α β} (f g : α → List β) (l : List α) : (l.flatMap fun k => f k ++ g k).Perm (l.flatMap f ++ l.flatMap g) := by
  induction l with
  | nil => exact .refl _
  | cons k l ih =>
    rw [List.flatMap_cons, List.flatMap_cons, List.flatMap_cons, List.append_assoc, List.append_assoc]
    refine List.Perm.append_left _ ?_
    refine (List.Perm.append_left _ ih).trans ?_
    rw [← List.append_assoc, ← List.append_assoc]
    exact List.Perm.append_right _ List.perm_append_comm

theorem flatMap_one {β} (k : Str) (s : List β) (l : List Str) (hn : l.Nodup) (hk : k ∈ l) : (l.flatMap fun x => if k = x then s else []) = s := by
  induction l with
  | nil => exact nomatch hk
  | cons a l ih =>
    rw [List.flatMap_cons]
    rw [List.nodup_cons] at hn
    by_cases h : k = a
    · subst h
      rw [if_pos rfl]
      have : (l.flatMap fun x => if k = x then s else []) = [] := by
        rw [List.flatMap_eq_nil_iff]
        intro x hx
        rw [if_neg]
        intro e
        subst e
        exact hn.1 hx
      rw [this, List.append_nil]
    · rw [if_neg h, List.nil_append]
      exact ih hn.2 ((List.mem_cons.1 hk).resolve_left h)

theorem spokenAll_same (c : Ctx) (k : Str) (ps : List (Nat × Line)) : ∀ H H' : Str → Option Handler, H k = H' k → (∀ p ∈ ps, lineKey p.2.1 = k) →
    spokenAll c H ps = spokenAll c H' ps := by
  induction ps with
  | nil => intro H H' _ _; rfl
  | cons p ps ih =>
    intro H H' h hk
    have hp := hk p (List.mem_cons_self ..)
    have hf : finds H p.2 = finds H' p.2 := by unfold finds; rw [hp, h]
    show _ ++ _ = _ ++ _
    rw [hf]
    congr 1
    refine ih _ _ ?_ fun q hq => hk q (List.mem_cons_of_mem _ hq)
    unfold updated
    rw [if_pos hp, if_pos hp]

/-- the lines of a name -/
def linesNamed (k : Str) (ps : List (Nat × Line)) : List (Nat × Line) := ps.filter fun p => lineKey p.2.1 == k

theorem spokenAll_perm (c : Ctx) (ks : List Str) (hks : ks.Nodup) (ps : List (Nat × Line)) : ∀ H : Str → Option Handler, (∀ p ∈ ps, lineKey p.2.1 ∈ ks) →
    (spokenAll c H ps).Perm (ks.flatMap fun k => spokenAll c H (linesNamed k ps)) := by
  induction ps with
  | nil =>
    intro H _
    have : (ks.flatMap fun k => spokenAll c H (linesNamed k [])) = [] := by
      rw [List.flatMap_eq_nil_iff]; intro k _; rfl
    rw [this]
    exact .refl _
  | cons p ps ih =>
    intro H hk
    have hp := hk p (List.mem_cons_self ..)
    have step : ∀ k, spokenAll c H (linesNamed k (p :: ps)) =
        (if lineKey p.2.1 = k then (spoken c (finds H p.2) p).2 else []) ++
          spokenAll c (updated H (lineKey p.2.1) (spoken c (finds H p.2) p).1) (linesNamed k ps) := by
      intro k
      unfold linesNamed
      by_cases h : lineKey p.2.1 = k
      · rw [List.filter_cons_of_pos (p := fun q : Nat × Line => lineKey q.2.1 == k) (by simpa using h), if_pos h]
        rfl
      · rw [List.filter_cons_of_neg (p := fun q : Nat × Line => lineKey q.2.1 == k) (by simpa using h), if_neg h, List.nil_append]
        refine spokenAll_same c k _ _ _ ?_ ?_
        · unfold updated; rw [if_neg h]
        · intro q hq; simpa using (List.mem_filter.1 hq).2
    have e : (ks.flatMap fun k => spokenAll c H (linesNamed k (p :: ps))) = ks.flatMap fun k =>
        (if lineKey p.2.1 = k then (spoken c (finds H p.2) p).2 else []) ++
          spokenAll c (updated H (lineKey p.2.1) (spoken c (finds H p.2) p).1) (linesNamed k ps) := by
      congr 1
      funext k
      exact step k
    rw [e]
    refine List.Perm.trans ?_ (flatMap_append_perm _ _ _).symm
    rw [flatMap_one _ _ ks hks hp]
    exact List.Perm.append_left _ (ih _ fun q hq => hk q (List.mem_cons_of_mem _ hq))

theorem spokenAll_unnumbered (c : Ctx) {mt : Val} (hm : c.msg.defaults = mtDefaults mt) (ps : List (Nat × Line)) : ∀ (ps' : List (Nat × Line)) (H H' : Str → Option Handler),
    ps.map (·.2) = ps'.map (·.2) → (∀ p ∈ ps, strip (decodeName p.2.1) = decodeName p.2.1) → HandlersOk H → HandlersOk H' → TwinAll H H' →
    (spokenAll c H ps).map unnumbered = (spokenAll c H' ps').map unnumbered := by
  induction ps with
  | nil =>
    intro ps' H H' h _ _ _ _
    cases ps' with
    | nil => rfl
    | cons _ _ => exact nomatch h
  | cons p ps ih =>
    intro ps' H H' h hu hH hH' ht
    cases ps' with
    | nil => exact nomatch h
    | cons p' ps' =>
      obtain ⟨o, l⟩ := p
      obtain ⟨o', l'⟩ := p'
      rw [List.map_cons, List.map_cons, List.cons.injEq] at h
      obtain ⟨h1, h2⟩ := h
      dsimp only at h1
      subst h1
      have hul := hu _ (List.mem_cons_self ..)
      obtain ⟨i, a⟩ := finds_ok hH hul
      obtain ⟨i', a'⟩ := finds_ok hH' hul
      obtain ⟨s1, s2, s3⟩ := spoken_ofLine c hm (p := (o, l)) i a
      obtain ⟨s1', s2', s3'⟩ := spoken_ofLine c hm (p := (o', l)) i' a'
      obtain ⟨t, ao⟩ := finds_twin ht l
      obtain ⟨t1, t2, t3⟩ := spoken_twin t ao c o o' l
      show List.map _ (_ ++ _) = List.map _ (_ ++ _)
      rw [List.map_append, List.map_append, lines_unnumbered t3 s3 s3']
      congr 1
      refine ih ps' _ _ h2 (fun p hp => hu p (List.mem_cons_of_mem _ hp)) (updated_ok hH (i.moved s1) s2) (updated_ok hH' (i'.moved s1') s2') ?_
      exact updated_twin ht t1 (by rw [s1.fid]; exact t2)

/-! ### finishing -/

theorem evaluate_unnumbered (c₁ c₂ : Ctx) (add : AddNote) {Q : Nat → Nat → Prop} {h₁ h₂ : Handler} (hk : h₁.fid.info.kind = .broken) (hf : h₁.fid = h₂.fid)
    {vs : List Val} (v₁ : h₁.value = .list vs) (v₂ : h₂.value = .list vs) (ha : Pairs Q h₁.aux.notes h₂.aux.notes)
    (k₁ : ∀ x ∈ (h₁.evaluate c₁ add).2.notes, ∀ s ∈ x.subnotes, s.subject = x.subject)
    (k₂ : ∀ x ∈ (h₂.evaluate c₂ add).2.notes, ∀ s ∈ x.subnotes, s.subject = x.subject) :
    (h₁.evaluate c₁ add).2.notes.map unnumbered = (h₂.evaluate c₂ add).2.notes.map unnumbered := by
  unfold Handler.evaluate at *
  rw [← hf] at k₂ ⊢
  rcases kind_broken hk with e | e <;> rw [e] at k₁ k₂ ⊢ <;> dsimp only at k₁ k₂ ⊢
  · obtain ⟨front, hfr⟩ := set_cookie_front add h₁ vs v₁
    change ∀ x ∈ (set_cookie.evaluate add h₁).notes, _ at k₁
    change ∀ x ∈ (set_cookie.evaluate add h₂).notes, _ at k₂
    show (set_cookie.evaluate add h₁).notes.map _ = (set_cookie.evaluate add h₂).notes.map _
    rw [hfr _ v₁] at k₁ ⊢
    rw [hfr _ v₂] at k₂ ⊢
    rw [List.map_append, List.map_append, ha.unnumbered (fun x hx => k₁ x (List.mem_append_right _ hx)) (fun x hx => k₂ x (List.mem_append_right _ hx))]

theorem finishBroken_unnumbered {env related t m} {c₁ c₂ : Ctx} (d₁ : During env related t m c₁) (d₂ : During env related t m c₂) (add : AddNote) {h₁ h₂ : Handler}
    (hi : SameId h₁ h₂) (hk : h₁.fid.info.kind = .broken) (hr : h₁.raw.map (·.1) = h₂.raw.map (·.1)) (a₁ : h₁.aux = {}) (a₂ : h₂.aux = {})
    (k₁ : ∀ x ∈ (h₁.finish c₁ add).2.notes, ∀ s ∈ x.subnotes, s.subject = x.subject)
    (k₂ : ∀ x ∈ (h₂.finish c₂ add).2.notes, ∀ s ∈ x.subnotes, s.subject = x.subject) :
    (h₁.finish c₁ add).2.notes.map unnumbered = (h₂.finish c₂ add).2.notes.map unnumbered := by
  have f₁ : h₁.finish c₁ add = h₁.finishBroken c₁ add := by unfold Handler.finish; rw [hk]
  have f₂ : h₂.finish c₂ add = h₂.finishBroken c₂ add := by unfold Handler.finish; rw [← hi.fid, hk]
  rw [f₁] at k₁ ⊢
  rw [f₂] at k₂ ⊢
  unfold Handler.finishBroken at *
  obtain ⟨l1, l2, l3⟩ := brokenLoop_pairs (Q := fun _ _ => True) d₁ d₂ h₁.raw h₂.raw h₁ h₂ [] hr (fun _ _ => trivial) hk hi (by rw [a₁, a₂]; exact .nil)
  have i₁ := brokenLoop_id c₁ h₁.raw h₁ []
  have i₂ := brokenLoop_id c₂ h₂.raw h₂ []
  generalize h₁.brokenLoop c₁ h₁.raw [] = p₁ at *
  generalize h₂.brokenLoop c₂ h₂.raw [] = p₂ at *
  obtain ⟨g₁, w₁⟩ := p₁
  obtain ⟨g₂, w₂⟩ := p₂
  dsimp only at *
  rw [← l1] at k₂ ⊢
  revert k₁ k₂
  cases w₁.res with
  | error e => intro k₁ k₂; exact l2.unnumbered k₁ k₂
  | ok vs =>
    dsimp only
    unfold Handler.evalAfter
    rw [if_neg (by exact fun h => nomatch h), if_neg (by exact fun h => nomatch h)]
    intro k₁ k₂
    change ∀ x ∈ _ ++ _, _ at k₁
    change ∀ x ∈ _ ++ _, _ at k₂
    show List.map _ (_ ++ _) = List.map _ (_ ++ _)
    rw [List.map_append, List.map_append, l2.unnumbered (fun x hx => k₁ x (List.mem_append_left _ hx)) (fun x hx => k₂ x (List.mem_append_left _ hx))]
    congr 1
    exact evaluate_unnumbered c₁ c₂ add (by show g₁.fid.info.kind = _; rw [i₁.fid]; exact hk)
      (by show g₁.fid = g₂.fid; rw [i₁.fid, i₂.fid, hi.fid]) rfl rfl l3 (fun x hx => k₁ x (List.mem_append_right _ hx)) (fun x hx => k₂ x (List.mem_append_right _ hx))

theorem finish_kids {env related t} {ls : List Line} {m : Msg} {mt : Val} {ctx : Str → Ctx} {k : Str} (hm : m.defaults = mtDefaults mt) (hu : Unpadded ls)
    (hk : k ∈ namesOf ls) (hd : During env related t m (ctx k)) : ∀ x ∈ finishSaid env related t m ls ctx k, ∀ s ∈ x.subnotes, s.subject = x.subject := by
  intro x hx
  unfold finishSaid at hx
  have hcm : (ctx k).msg.defaults = mtDefaults mt := (ext_defaults hd.ext).trans hm
  have hio := readHandler_of (c := ⟨env, m, related⟩) hu hk
  have hfid := readHandler_fid (c := ⟨env, m, related⟩) hk
  have hbr := fun hb => (readHandler_broken (c := ⟨env, m, related⟩) hk hb).1
  have hkept := readHandler_kept (env := env) (related := related) (ls := ls) (k := k) hm
  unfold finishIn at hx
  generalize readHandler ⟨env, m, related⟩ ls k = hd1 at *
  have hsorted : Sorted hd1 := by obtain ⟨s, _, _, e⟩ := hio; unfold Sorted; rw [e.fid, e.cat]; exact (mkHandler_shown _).2.2
  have hfin := finish_about (ctx k) hcm hd1 (fieldAdder_fits hm t hd1) hsorted hkept (fun h => hbr (hfid ▸ h)) x hx
  unfold FinishAbout at hfin
  rcases hfin with hfin | ⟨hb, q, _, hfin⟩
  · exact fun s hs => (hfin.kids s hs).1
  · exact fun s hs => (hfin.kids s hs).1

section
variable {env : Env} {related : Option Msg} {t : Bool} {ls₁ ls₂ : List Line} {m m₁ m₂ : Msg}

/-- finishing a field says the same, but for the numbers of lines -/
theorem finishSaid_unnumbered {mt : Val} (hm : m.defaults = mtDefaults mt) {k : Str} (h : ls₁.filter (matters k) = ls₂.filter (matters k))
    (hu₁ : Unpadded ls₁) (hu₂ : Unpadded ls₂) (k₁ : k ∈ namesOf ls₁) (k₂ : k ∈ namesOf ls₂) {ctx₁ ctx₂ : Str → Ctx} (d₁ : During env related t m (ctx₁ k)) (d₂ : During env related t m (ctx₂ k))
    (ss : SeesSame (classOf k) (ctx₁ k) (ctx₂ k)) :
    (finishSaid env related t m ls₁ ctx₁ k).map unnumbered = (finishSaid env related t m ls₂ ctx₂ k).map unnumbered := by
  rw [matters_key] at h
  have hs := shownLike_self k
  have hkey : mattersKey k k = true := by unfold mattersKey; rw [hs]; rfl
  have hsp : spelling ls₁ k = spelling ls₂ k := by rw [← spelling_filter hkey ls₁, h, spelling_filter hkey ls₂]
  have hv : (sent m.kind k ls₁).map (·.2) = (sent m.kind k ls₂).map (·.2) := by
    rw [sent_snd, sent_snd, ← valuesOf_filter hkey ls₁, h, valuesOf_filter hkey ls₂]
  have f₁ := readHandler_fid (c := ⟨env, m, related⟩) k₁
  have f₂ := readHandler_fid (c := ⟨env, m, related⟩) k₂
  have q₁ := finish_kids hm hu₁ k₁ d₁
  have q₂ := finish_kids hm hu₂ k₂ d₂
  unfold finishSaid finishIn at *
  by_cases hb : (classOf k).info.kind = .broken
  · have hi : SameId (readHandler ⟨env, m, related⟩ ls₁ k) (readHandler ⟨env, m, related⟩ ls₂ k) := by
      unfold readHandler handlerFor
      rw [hsp]
      split
      · have a := fed_id ⟨env, m, related⟩ (spelling ls₂ k) (sent m.kind k ls₁)
        have b := fed_id ⟨env, m, related⟩ (spelling ls₂ k) (sent m.kind k ls₂)
        exact ⟨a.fid.trans b.fid.symm, a.wire.trans b.wire.symm, a.norm.trans b.norm.symm, a.canon.trans b.canon.symm, a.cat.trans b.cat.symm, a.ref.trans b.ref.symm⟩
      · exact .refl _
    obtain ⟨a₁, r₁⟩ := readHandler_broken (c := ⟨env, m, related⟩) k₁ hb
    obtain ⟨a₂, r₂⟩ := readHandler_broken (c := ⟨env, m, related⟩) k₂ hb
    dsimp only at r₁ r₂
    have hadd : m.fieldAdder t (readHandler ⟨env, m, related⟩ ls₁ k) = m.fieldAdder t (readHandler ⟨env, m, related⟩ ls₂ k) := by
      unfold Msg.fieldAdder; rw [hi.canon]
    rw [hadd] at q₁ ⊢
    refine finishBroken_unnumbered d₁ d₂ _ hi (by rw [f₁]; exact hb) ?_ a₁ a₂ q₁ q₂
    rw [r₁, r₂]
    split
    · rw [List.map_map, List.map_map]; exact hv
    · rfl
  · have hh : readHandler ⟨env, m, related⟩ ls₁ k = readHandler ⟨env, m, related⟩ ls₂ k := by
      unfold readHandler handlerFor
      rw [hsp]
      split
      · exact fedLines_moved _ (by rw [classOf_spelling k₂]; exact hb) hv
      · rfl
    rw [hh, finish_alike d₁ d₂ _ (by rw [f₂]; exact ss) (by rw [f₂]; exact hb)]

theorem matters_self (l : Line) : matters (lineKey l.1) l = true := by unfold matters; rw [beq_self_eq_true]; rfl

/-- the lines are the same, in another order -/
theorem lines_perm (h : ∀ n, ls₁.filter (matters n) = ls₂.filter (matters n)) : ls₁.Perm ls₂ := by
  rw [List.perm_iff_count]
  intro l
  rw [← List.count_filter (matters_self l), h, List.count_filter (matters_self l)]

/-- **C127**: in two sections that a message could have, with the same lines in orders that agree on the lines that matter to each
field, the same is recorded for each name, and the same notes are added but for their order and the numbers of the lines -/
theorem C127_order (P₁ : Processed env related t ls₁ m m₁) (P₂ : Processed env related t ls₂ m m₂) (hu₁ : Unpadded ls₁)
    (h : ∀ n, ls₁.filter (matters n) = ls₂.filter (matters n)) :
    (∀ n, dget (m₁.section t).parsed n = dget (m₂.section t).parsed n) ∧ ((addedTo m m₁).map unnumbered).Perm ((addedTo m m₂).map unnumbered) := by
  have hperm := lines_perm h
  have hu₂ : Unpadded ls₂ := fun l hl => hu₁ l (hperm.mem_iff.2 hl)
  have hmem : ∀ x, x ∈ namesOf ls₁ ↔ x ∈ namesOf ls₂ := by
    intro x
    rw [mem_namesOf, mem_namesOf]
    constructor
    · rintro ⟨l, hl, e⟩; exact ⟨l, hperm.mem_iff.1 hl, e⟩
    · rintro ⟨l, hl, e⟩; exact ⟨l, hperm.mem_iff.2 hl, e⟩
  have hnd₁ : (namesOf ls₁).Nodup := dedup_nodup _
  have hnd₂ : (namesOf ls₂).Nodup := dedup_nodup _
  have hnames : (namesOf ls₁).Perm (namesOf ls₂) := (List.perm_ext_iff_of_nodup hnd₁ hnd₂).2 hmem
  have hself : ∀ n, mattersKey n n = true := fun n => by unfold mattersKey; rw [shownLike_self]; rfl
  have hval : ∀ n, valuesOf ls₁ n = valuesOf ls₂ n := by
    intro n
    have := h n
    rw [matters_key] at this
    rw [← valuesOf_filter (hself n) ls₁, this, valuesOf_filter (hself n) ls₂]
  constructor
  · intro n
    rw [section_values P₁.linting P₁.new hu₁ P₁.ok n, section_values P₂.linting P₂.new hu₂ P₂.ok n, hval n]
    by_cases hm : n ∈ namesOf ls₁
    · rw [if_pos hm, if_pos ((hmem n).1 hm)]
    · rw [if_neg hm, if_neg (fun hh => hm ((hmem n).2 hh))]
  · have hr := P₁.linting.ready t
    have hm : m.defaults = mtDefaults _ := P₁.linting.defaults
    have lines : ∀ {ls m'}, Processed env related t ls m m' → processLines env related t ls 0 m = ((processLines env related t ls 0 m).1, .ok ()) := by
      intro ls m' P
      have := P.ok
      unfold processSection at this
      split at this
      · simp at this
      · rename_i hh; rw [hh]
    have spoke : ∀ {ls m'} (P : Processed env related t ls m m') {lineNotes}, (processLines env related t ls 0 m).1.notes = m.notes ++ lineNotes →
        lineNotes = spokenAll ⟨env, m, related⟩ (fun _ => none) (numbered m.kind 0 ls) := fun P _ h1 =>
      List.append_cancel_left (h1.symm.trans (lines_spoken hr (.refl t m) (H := fun _ => none) (fun k => by rw [P.new]; rfl) (lines P)))
    obtain ⟨a₁, b₁, ctx₁, h1, _, h3, h4, h5, _, h7⟩ := section_outcome_full hr P₁.new P₁.ok
    obtain ⟨a₂, b₂, ctx₂, g1, _, g3, g4, g5, _, g7⟩ := section_outcome_full hr P₂.new P₂.ok
    have hnone : HandlersOk (fun _ => none) := by intro k h e; simp at e
    have mem : ∀ ls, ∀ p ∈ numbered m.kind 0 ls, p.2 ∈ ls := by
      intro ls p hp
      have := List.mem_map_of_mem (f := (·.2)) hp
      rwa [numbered_snd] at this
    have sa : (a₁.map unnumbered).Perm (a₂.map unnumbered) := by
      rw [spoke P₁ h1, spoke P₂ g1]
      have p₁ := spokenAll_perm ⟨env, m, related⟩ (namesOf ls₁) hnd₁ (numbered m.kind 0 ls₁) (fun _ => none) (fun p hp => mem_namesOf.2 ⟨p.2, mem _ p hp, rfl⟩)
      have p₂ := spokenAll_perm ⟨env, m, related⟩ (namesOf ls₂) hnd₂ (numbered m.kind 0 ls₂) (fun _ => none) (fun p hp => mem_namesOf.2 ⟨p.2, mem _ p hp, rfl⟩)
      refine (p₁.map unnumbered).trans (List.Perm.trans ?_ (p₂.map unnumbered).symm)
      rw [List.map_flatMap, List.map_flatMap]
      have each : ∀ k ∈ namesOf ls₁, (spokenAll ⟨env, m, related⟩ (fun _ => none) (linesNamed k (numbered m.kind 0 ls₁))).map unnumbered =
          (spokenAll ⟨env, m, related⟩ (fun _ => none) (linesNamed k (numbered m.kind 0 ls₂))).map unnumbered := by
        intro k _
        refine spokenAll_unnumbered _ hm _ _ _ _ ?_ ?_ hnone hnone (fun _ => trivial)
        · have snd : ∀ ls, (linesNamed k (numbered m.kind 0 ls)).map (·.2) = ls.filter fun l => lineKey l.1 == k := by
            intro ls
            have := congrArg (List.filter fun l : Line => lineKey l.1 == k) (numbered_snd m.kind ls 0)
            rw [List.filter_map] at this
            exact this
          rw [snd, snd]
          have key : ∀ ls : List Line, (ls.filter fun l => lineKey l.1 == k) = (ls.filter (matters k)).filter fun l => lineKey l.1 == k := by
            intro ls
            rw [List.filter_filter]
            apply List.filter_congr
            intro l _
            by_cases hl : lineKey l.1 = k
            · subst hl; rw [matters_self]; simp
            · simp [hl]
          rw [key ls₁, h k, ← key ls₂]
        · intro p hp
          exact hu₁ p.2 (mem _ p (List.mem_filter.1 hp).1)
      rw [flatMap_congr_mem each]
      exact hnames.flatMap_right _
    have sb : b₁ = b₂ := by
      rw [h3, g3]
      have size : ∀ ls, processLines env related t ls 0 m = ((processLines env related t ls 0 m).1, .ok ()) →
          ((processLines env related t ls 0 m).1.section t).size = (m.section t).size + totalSize ls := by
        intro ls ho
        obtain ⟨k, _, hk, _, hs⟩ := processLines_text env related t ls 0 m
        rw [hk (by rw [ho]), List.take_length] at hs
        exact hs
      have total : totalSize ls₁ = totalSize ls₂ := (hperm.map _).sum_nat
      have add : ∀ ls S b, (processLines env related t ls 0 m).1.adder S b = m.adder S b := by
        intro ls S b
        unfold Msg.adder
        rw [ext_defaults (processLines_ext env related t ls 0 m)]
      unfold sectionSizeNotes
      rw [size _ (lines P₁), size _ (lines P₂), total, add, add]
    have sf : (((namesOf ls₁).flatMap fun k => finishSaid env related t m ls₁ ctx₁ k).map unnumbered).Perm
        (((namesOf ls₂).flatMap fun k => finishSaid env related t m ls₂ ctx₂ k).map unnumbered) := by
      rw [List.map_flatMap, List.map_flatMap]
      have each : ∀ k ∈ namesOf ls₁, (finishSaid env related t m ls₁ ctx₁ k).map unnumbered = (finishSaid env related t m ls₂ ctx₂ k).map unnumbered := by
        intro k k₁
        have k₂ := (hmem k).1 k₁
        obtain ⟨x₁, y₁, e₁⟩ := List.append_of_mem k₁
        obtain ⟨x₂, y₂, e₂⟩ := List.append_of_mem k₂
        exact finishSaid_unnumbered hm (h k) hu₁ hu₂ k₁ k₂ (h4 k k₁).1 (g4 k k₂).1
          (sees_same (h k) P₁ P₂ hu₁ hu₂ (shownLike_self k) e₁ e₂ (h4 k k₁).1 (g4 k k₂).1 (h4 k k₁).2.2 (g4 k k₂).2.2
            (seen_of P₁.linting P₁.ok h4 e₁ (h7 _ _ _ e₁)) (seen_of P₂.linting P₂.ok g4 e₂ (g7 _ _ _ e₂)))
      rw [flatMap_congr_mem each]
      exact hnames.flatMap_right _
    unfold addedTo
    rw [h5, g5, List.drop_left, List.drop_left, List.map_append, List.map_append, List.map_append, List.map_append, sb]
    exact (sa.append (.refl _)).append sf

/-- two lines that are apart, one after the other, may be swapped -/
theorem apart_filter {x y : Line} (hxy : Apart x y) (a b : List Line) (n : Str) :
    (a ++ x :: y :: b).filter (matters n) = (a ++ y :: x :: b).filter (matters n) := by
  have key : ¬ (matters n x = true ∧ matters n y = true) := by
    rintro ⟨hx, hy⟩
    obtain ⟨h1, h2, h3⟩ := hxy
    unfold matters at hx hy
    simp only [Bool.or_eq_true, beq_iff_eq, List.contains_iff_mem] at hx hy
    rcases hx with hx | hx <;> rcases hy with hy | hy
    · exact h1 (hx.trans hy.symm)
    · rw [← hx] at hy; exact h2 hy
    · rw [← hy] at hx; exact h3 hx
    · have one : ∀ s, checksLookAt s = [] ∨ ∃ z, checksLookAt s = [z] := by
        intro s
        unfold checksLookAt
        repeat' split
        all_goals first | exact .inr ⟨_, rfl⟩ | exact .inl rfl
      rcases one (lower (shownName n)) with e | ⟨z, e⟩
      · rw [e] at hx; exact nomatch hx
      · rw [e, List.mem_singleton] at hx hy
        exact h1 (by rw [hx, hy])
  rw [List.filter_append, List.filter_append]
  congr 1
  by_cases hx : matters n x = true
  · have hy : ¬ matters n y = true := fun hy => key ⟨hx, hy⟩
    rw [List.filter_cons_of_pos hx, List.filter_cons_of_neg hy, List.filter_cons_of_neg hy, List.filter_cons_of_pos hx]
  · rw [List.filter_cons_of_neg hx]
    by_cases hy : matters n y = true
    · rw [List.filter_cons_of_pos hy, List.filter_cons_of_pos hy, List.filter_cons_of_neg hx]
    · rw [List.filter_cons_of_neg hy, List.filter_cons_of_neg hy, List.filter_cons_of_neg hx]

/-- **C127**, of two neighbouring lines: when they are of fields with different names (neither of which the checks of the other look
at) it makes no difference which comes first -/
theorem C127_swap {a b : List Line} {x y : Line} (hxy : Apart x y) (P₁ : Processed env related t (a ++ x :: y :: b) m m₁)
    (P₂ : Processed env related t (a ++ y :: x :: b) m m₂) (hu : Unpadded (a ++ x :: y :: b)) :
    (∀ n, dget (m₁.section t).parsed n = dget (m₂.section t).parsed n) ∧ ((addedTo m m₁).map unnumbered).Perm ((addedTo m m₂).map unnumbered) :=
  C127_order P₁ P₂ hu (apart_filter hxy a b)

end

/-! ### examples -/

def linesOrdered : List Line := [(str "ETag", str "x"), (str "Vary", str "a b"), (str "Set-Cookie", str "c=d; Max-Age=z"), (str "ETAG", str "\"y\"")]
def linesMoved : List Line := [(str "ETag", str "x"), (str "Set-Cookie", str "c=d; Max-Age=z"), (str "Vary", str "a b"), (str "ETAG", str "\"y\"")]

/-- the classes and subjects of what is added when a response has these headers -/
def addedWhen (ls : List Line) : List (NoteId × Str) :=
  let m := fresh toyEnv .response none false false
  (addedTo m (processSection toyEnv none false ls m).1).map fun x => (x.cls, x.subject)

/-- two sections meet the hypotheses: `Vary` and `Set-Cookie` are swapped -/
example : Processed toyEnv none false linesOrdered (fresh toyEnv .response none false false) (processSection toyEnv none false linesOrdered (fresh toyEnv .response none false false)).1 ∧
    Processed toyEnv none false linesMoved (fresh toyEnv .response none false false) (processSection toyEnv none false linesMoved (fresh toyEnv .response none false false)).1 ∧
    Unpadded linesOrdered ∧ Apart (str "Vary", str "a b") (str "Set-Cookie", str "c=d; Max-Age=z") ∧
    linesOrdered = [(str "ETag", str "x")] ++ (str "Vary", str "a b") :: (str "Set-Cookie", str "c=d; Max-Age=z") :: [(str "ETAG", str "\"y\"")] ∧
    linesMoved = [(str "ETag", str "x")] ++ (str "Set-Cookie", str "c=d; Max-Age=z") :: (str "Vary", str "a b") :: [(str "ETAG", str "\"y\"")] :=
  ⟨fresh_processed (by kernel_rfl), fresh_processed (by kernel_rfl), by unfold Unpadded; decide +kernel, by unfold Apart; decide +kernel, rfl, rfl⟩

example : addedWhen linesOrdered = [(.BAD_SYNTAX_DETAILED, str "offset-1"), (.SINGLE_HEADER_REPEAT, str "field-etag"), (.BAD_SYNTAX, str "field-etag"),
    (.SET_COOKIE_NON_DIGIT_MAX_AGE, str "offset-2")] := by kernel_rfl
example : addedWhen linesMoved = [(.BAD_SYNTAX_DETAILED, str "offset-2"), (.SINGLE_HEADER_REPEAT, str "field-etag"), (.BAD_SYNTAX, str "field-etag"),
    (.SET_COOKIE_NON_DIGIT_MAX_AGE, str "offset-1")] := by kernel_rfl

/-- lines that are not apart may make a difference to each other -/
example : ¬ Apart (str "Transfer-Encoding", str "chunked") (str "Content-Length", str "10") ∧
    addedWhen [(str "Transfer-Encoding", str "chunked"), (str "Content-Length", str "10")] = [(.CL_AND_TE_PRESENT, str "field-content-length")] ∧
    addedWhen [(str "Content-Length", str "10"), (str "Transfer-Encoding", str "chunked")] = [] := by
  refine ⟨by unfold Apart; decide +kernel, ?_, ?_⟩ <;> decide +kernel

end HL.Props
