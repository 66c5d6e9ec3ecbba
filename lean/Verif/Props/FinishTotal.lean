import Verif.Props.SectionTotal

/-!
# C07: finishing a section returns
-/

namespace HL.Props

/-- a handler after its `finish` -/
structure Done (h : Handler) : Prop where
  calm : ¬Perilous h.fid
  ready : h.value = .none ∨ ∀ t, h.fid.info.kind = .sf t → h.fid ≠ .accept_query_ → SfShape t h.value

/-- the handlers are filed under distinct names, one for each name sent -/
structure Filed (s : Section) : Prop where
  unique : UniqueKeys s.handlers
  all : ∀ q ∈ s.text, dhas s.handlers (lower q.1) = true

section
variable {env : Env} {kind : MsgKind}

theorem typed_of_inv {m : Msg} (hi : (typeInv env m.kind).Holds m.headers) (hs : TidyNames m.headers) : TypedHeaders env m := by
  intro n v hd hv
  obtain ⟨q, hq, ⟨name, e, en⟩, ht⟩ := hi.ps (n, v) (dget_mem hd)
  dsimp only at en ht
  have hn : lower q.1 = n := by rw [en, ← strip_lower, e, strip_lower, hs q hq]
  rw [hn] at ht
  exact ht hv

theorem filed_line {env related t} {m : Msg} {o : Nat} {l : Line} (h : Filed (m.section t)) :
    Filed ((processLine env related t m o l).1.section t) := by
  have hu := keys_nodup_line (env := env) (related := related) (o := o) (l := l) h.unique
  refine ⟨hu, ?_⟩
  clear hu
  obtain ⟨name, value⟩ := l
  have key : ∀ hd, ∀ q ∈ (recorded (m.section t) name value hd).text, dhas (recorded (m.section t) name value hd).handlers (lower q.1) = true := by
    intro hd q hq
    show dhas (dset _ _ _) _ = true
    rw [dhas_dset]
    rcases List.mem_append.1 hq with hq | hq
    · rw [h.all q hq, Bool.or_true]
    · rw [List.mem_singleton.1 hq]
      exact Bool.or_eq_true_iff.2 (.inl (beq_self_eq_true _))
  rw [processLine_eq]
  split
  · unfold lineMid; simp only [section_addNotes, section_setSection]; exact key _
  · dsimp only
    split <;> (simp only [section_addNotes, section_setSection]; exact key _)

theorem filed_lines {env related t} {ls : List Line} {m : Msg} {o : Nat} (h : Filed (m.section t)) :
    Filed ((processLines env related t ls o m).1.section t) := by
  induction ls generalizing m o with
  | nil => exact h
  | cons l ls ih =>
    unfold processLines
    have h1 := filed_line (env := env) (related := related) (o := o) (l := l) h
    split <;> rename_i heq <;> rw [heq] at h1
    · exact h1
    · exact ih h1

theorem evalAfter_keeps (c add ns) (h : Handler) (h1 : h.fid ≠ .vary_) (h2 : h.fid ≠ .accept_query_) : (h.evalAfter c add ns).1.value = h.value := by
  unfold Handler.evalAfter
  split
  · rfl
  · exact evaluate_keeps c add h h1 h2

theorem finish_done {c : Ctx} (hC : Contract c.env) (add : AddNote) {h : Handler} (hs : Stocked c.env c.msg.kind h) : Done (h.finish c add).1 := by
  have hid := finish_id c add h
  refine ⟨by rw [hid.fid]; exact hs.calm, ?_⟩
  cases hv : h.fid.validIn c.msg.kind with
  | false =>
    by_cases hk : ∃ t, h.fid.info.kind = .sf t
    · obtain ⟨t, hk⟩ := hk
      left
      unfold Handler.finish
      rw [hk]
      dsimp only
      unfold Handler.finishSf
      rw [hs.none hv]
      exact hs.none hv
    · right
      intro t ht
      rw [hid.fid] at ht
      exact absurd ⟨t, ht⟩ hk
  | true =>
    by_cases hk : ∃ t, h.fid.info.kind = .sf t
    rotate_left
    · right
      intro t ht
      rw [hid.fid] at ht
      exact absurd ⟨t, ht⟩ hk
    obtain ⟨t, hk⟩ := hk
    have hvary : h.fid ≠ .vary_ := by intro e; rw [e] at hk; exact nomatch hk
    by_cases hq : h.fid = .accept_query_
    · right
      intro t ht hn
      rw [hid.fid] at hn
      exact absurd hq hn
    obtain ⟨ss, e⟩ := hs.sf hv t hk
    obtain ⟨j, hj⟩ := joinValue_strs ss
    have hne := hs.full hv t hk
    unfold Handler.finish
    rw [hk]
    dsimp only
    unfold Handler.finishSf
    have htr : h.value.truthy = true := by
      rw [e] at hne ⊢
      cases ss with
      | nil => exact absurd rfl hne
      | cons s ss => rfl
    rw [htr, hs.unparsed t hk, e, hj]
    rw [if_neg (by simp), if_neg (by simp)]
    dsimp only
    split
    · rename_i v dups hp
      right
      have hkeep := evalAfter_keeps c add (dupKeyNotes add dups) { h with value := v, sfParsed := true } hvary hq
      have hfid := (evalAfter_id c add (dupKeyNotes add dups) { h with value := v, sfParsed := true }).fid
      dsimp only at hkeep hfid
      rw [hkeep, hfid]
      intro t' ht' _
      rw [hk] at ht'
      cases ht'
      exact hC.sfParse _ _ _ _ hp
    · exact .inl rfl
    · exact .inl rfl

theorem finishHandlers_return (hC : Contract env) (related : Option Msg) (t : Bool) (hrel : ∀ r, related = some r → TypedHeaders env r ∧ (kind = .response → r.kind = .request)) :
    ∀ (ks : List Str) (m : Msg), m.kind = kind → ks.Nodup → (typeInv env kind).Msg m → TidyNames m.headers → Filed (m.section t) →
      (∀ k h, dget (m.section t).handlers k = some h → (k ∈ ks → Stocked env kind h) ∧ (k ∉ ks → Done h)) →
      ∃ m', finishHandlers env related t ks m = (m', .ok ()) ∧ Filed (m'.section t) ∧ (m'.section t).text = (m.section t).text ∧
        ∀ k h, dget (m'.section t).handlers k = some h → Done h
  | [], m, _, _, _, _, hf, hd => ⟨m, rfl, hf, rfl, fun k h e => (hd k h e).2 (by simp)⟩
  | k :: ks, m, hk, hn, hi, ht, hf, hd => by
    have hn' := List.nodup_cons.1 hn
    unfold finishHandlers
    have hinv := Inv.finishOne (i := typeInv env kind) related t m k (hi t)
    have hext := finishHandler_ext env related t m k
    have key : ∃ m1, finishHandler env related t m k = (m1, .ok ()) ∧ Filed (m1.section t) ∧ (m1.section t).text = (m.section t).text ∧
        ∀ k' h, dget (m1.section t).handlers k' = some h → (k' ∈ ks → Stocked env kind h) ∧ (k' ∉ ks → Done h) := by
      unfold finishHandler
      split
      · rename_i hnone
        refine ⟨m, rfl, hf, rfl, fun k' h e => ⟨fun h' => (hd k' h e).1 (List.mem_cons_of_mem _ h'), fun h' => (hd k' h e).2 ?_⟩⟩
        intro hm
        rcases List.mem_cons.1 hm with rfl | hm
        · rw [hnone] at e; cases e
        · exact h' hm
      · rename_i h hh
        have hst : Stocked env m.kind h := by rw [hk]; exact (hd k h hh).1 List.mem_cons_self
        have hT : TypedHeaders env m := typed_of_inv (by rw [hk]; exact hi false) ht
        obtain ⟨u, hu⟩ := finish_returns (c := ⟨env, m, related⟩) hC hT (by rw [show (⟨env, m, related⟩ : Ctx).msg.kind = kind from hk]; exact hrel) (m.fieldAdder t h) hst
        have hdone := finish_done (c := ⟨env, m, related⟩) hC (m.fieldAdder t h) hst
        generalize h.finish ⟨env, m, related⟩ (m.fieldAdder t h) = r at *
        obtain ⟨h', w⟩ := r
        dsimp only at *
        rw [hu]
        dsimp only
        refine ⟨_, rfl, ?_, ?_, ?_⟩ <;> simp only [section_addNotes, section_setSection]
        · exact ⟨hf.unique.dset _ _, fun q hq => by rw [dhas_dset, hf.all q hq, Bool.or_true]⟩
        · intro k' h1 e
          rw [dget_dset] at e
          split at e
          · rename_i ek
            cases e
            subst ek
            exact ⟨fun h => absurd h hn'.1, fun _ => hdone⟩
          · rename_i ek
            refine ⟨fun h => (hd k' h1 e).1 (List.mem_cons_of_mem _ h), fun h => (hd k' h1 e).2 ?_⟩
            intro hm
            rcases List.mem_cons.1 hm with rfl | hm
            · exact ek rfl
            · exact h hm
    obtain ⟨m1, e, hf1, ht1, hd1⟩ := key
    rw [e] at hinv hext ⊢
    dsimp only at hinv hext ⊢
    have hi1 : (typeInv env kind).Msg m1 := by
      intro t'
      by_cases htt : t' = t
      · rw [htt]; exact hinv
      · have : t' = !t := by cases t <;> cases t' <;> simp_all
        subst this
        rw [ext_other hext]
        exact hi _
    have hh1 : TidyNames m1.headers := by
      cases t with
      | false => intro p hp; exact ht p (by rw [show m.headers.text = _ from ht1.symm]; exact hp)
      | true => rw [show m1.headers = m.headers from ext_other hext]; exact ht
    obtain ⟨m', e', h2, h3, h4⟩ := finishHandlers_return hC related t hrel ks m1 (by rw [hext.kind]; exact hk) hn'.2 hi1 hh1 hf1 hd1
    exact ⟨m', e', h2, by rw [h3, ht1], h4⟩

/-- a section as it is before any line of it has been given -/
def Untouched (s : Section) : Prop := s.text = [] ∧ s.handlers = [] ∧ s.parsed = []

/-- a section that has been processed -/
structure Settled (env : Env) (kind : MsgKind) (s : Section) : Prop where
  typed : (typeInv env kind).Holds s
  tidy : TidyNames s
  filed : Filed s
  done : ∀ p ∈ s.handlers, Done p.2
  calm : ∀ q ∈ s.text, ¬Perilous (classOf q.1)

theorem untouched_holds {s : Section} (h : Untouched s) : (typeInv env kind).Holds s := by
  obtain ⟨h1, h2, h3⟩ := h
  exact ⟨by rw [h2]; simp, by rw [h2]; simp, by rw [h3]; simp⟩

theorem Untouched.settled {s : Section} (h : Untouched s) : Settled env kind s := by
  obtain ⟨h1, h2, h3⟩ := h
  exact ⟨untouched_holds ⟨h1, h2, h3⟩, by intro p hp; rw [h1] at hp; simp at hp, ⟨by rw [h2]; exact UniqueKeys.nil, by rw [h1]; simp⟩, by rw [h2]; simp, by rw [h1]; simp⟩

theorem nodup_dget {β} : ∀ {d : Dict β}, UniqueKeys d → ∀ {p}, p ∈ d → dget d p.1 = some p.2
  | [], _, _, h => by simp at h
  | q :: d, hu, p, h => by
    have hu' : q.1 ∉ d.map (·.1) ∧ UniqueKeys d := by simpa [UniqueKeys] using hu
    unfold dget
    rcases List.mem_cons.1 h with rfl | h
    · simp
    · have : q.1 ≠ p.1 := by intro e; exact hu'.1 (by rw [e]; exact List.mem_map_of_mem h)
      rw [List.find?_cons_of_neg (by simpa using this)]
      exact nodup_dget hu'.2 h

/-- processing the lines of a section that has not been used, none of a perilous field, returns -/
theorem section_returns (hC : Contract env) (related : Option Msg) (t : Bool) (ls : List (Str × Str)) (m : Msg) (hk : m.kind = kind)
    (hrel : ∀ r, related = some r → TypedHeaders env r ∧ (kind = .response → r.kind = .request)) (hn : Untouched (m.section t))
    (hother : Settled env kind (m.section !t)) (hl : CalmLines ls) :
    ∃ m', processSection env related t ls m = (m', .ok ()) ∧ Settled env kind (m'.section t) ∧ Ext t m m' := by
  have hi : (typeInv env kind).Msg m := by
    intro t'
    by_cases htt : t' = t
    · rw [htt]; exact untouched_holds hn
    · have : t' = !t := by cases t <;> cases t' <;> simp_all
      subst this
      exact hother.typed
  have hsect := Inv.sectMsg (i := typeInv env kind) related t ls m hk hi
  have hext := processSection_ext env related t ls m
  have hE := processLines_ext env related t ls 0 m
  have hI := Inv.lines (i := typeInv env kind) related t ls 0 m hk (hi t)
  have hF := filed_lines (env := env) (related := related) (ls := ls) (o := 0) (m := m) (t := t) ⟨by rw [hn.2.1]; exact UniqueKeys.nil, by rw [hn.1]; simp⟩
  obtain ⟨m1, e, hs, htx⟩ := lines_return env related t hC.library (fun r h => (hrel r h).1) ls 0 m hl (by intro p hp; rw [hn.2.1] at hp; simp at hp)
  rw [hn.1, List.nil_append] at htx
  have htidy1 : TidyNames (m1.section t) := by
    intro p hp
    rw [htx] at hp
    obtain ⟨l, hl', rfl⟩ := List.mem_map.1 hp
    exact (hl l hl').1
  unfold processSection at hsect hext ⊢
  rw [e] at hE hI hF hsect hext ⊢
  dsimp only at hE hI hF hsect hext ⊢
  have hk1 : m1.kind = kind := by rw [hE.kind]; exact hk
  obtain ⟨m', e', h1, h2, h3⟩ := finishHandlers_return hC related t hrel
    (((m1.addNotes (sectionSizeNotes t m1)).section t).handlers.map (·.1)) (m1.addNotes (sectionSizeNotes t m1)) hk1 (by rw [section_addNotes]; exact hF.unique)
    (by
      intro t'
      rw [section_addNotes]
      by_cases htt : t' = t
      · rw [htt]; exact hI
      · have : t' = !t := by cases t <;> cases t' <;> simp_all
        subst this
        rw [ext_other hE]
        exact hi _)
    (by
      cases t with
      | false => exact htidy1
      | true => rw [show (m1.addNotes _).headers = m.headers from ext_other hE]; exact hother.tidy)
    (by rw [section_addNotes]; exact hF)
    (by
      intro k h hd
      rw [section_addNotes] at hd ⊢
      exact ⟨fun _ => by rw [← hk1]; exact hs _ (dget_mem hd), fun hnk => absurd (List.mem_map_of_mem (dget_mem hd)) hnk⟩)
  rw [e'] at hsect hext ⊢
  rw [section_addNotes, htx] at h2
  refine ⟨m', rfl, ⟨hsect t, ?_, h1, fun p hp => h3 _ _ (nodup_dget h1.unique hp), ?_⟩, hext⟩
  · intro p hp
    rw [h2] at hp
    obtain ⟨l, hl', rfl⟩ := List.mem_map.1 hp
    exact (hl l hl').1
  · intro q hq
    rw [h2] at hq
    obtain ⟨l, hl', rfl⟩ := List.mem_map.1 hq
    exact (hl l hl').2

end

end HL.Props
