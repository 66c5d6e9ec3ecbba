import Verif.Props.FinishFrame

/-!
# Parsed values and syntax notes of a section (C13–C15, C17–C22)
-/

namespace HL.Props

/-! ### specification -/

/-- the values of the lines with a name (in lower case), in order -/
def valuesOf (ls : List Line) (n : Str) : List Str := (ls.filter fun l => lineKey l.1 == n).map (·.2)

/-- what is recorded for the field `n` when `xs` are its lines' values -/
def fieldValue (c : Ctx) (n : Str) (xs : List Str) : Val :=
  if okName c.msg.kind n then afterCheck (classOf n) (lineValue c (classOf n) xs)
  else if (classOf n).validIn c.msg.kind || (classOf n).info.kind == .broken then .list [] else .none

/-- the names have no white space around them -/
def Unpadded (ls : List Line) : Prop := ∀ l ∈ ls, strip (decodeName l.1) = decodeName l.1

/-- the subject of notes about the field `n` as a whole -/
def fieldSubject (n : Str) : Str := str "field-" ++ lower (mkHandler (classOf n) n).canonicalName

/-! ### the lines that are read raise nothing -/

theorem processLine_clean {env related t} {m0 m m' : Msg} {o o' : Nat} {l : Line} (hr : Ready env t m) (he : Ext t m0 m)
    (h : processLine env related t m o l = (m', .ok o')) (ha : accepted m.kind l = true) (hk : (classOf (decodeName l.1)).info.kind = .list) :
    CleanElems ⟨env, m0, related⟩ (classOf (decodeName l.1)) (splitListField l.2) := by
  obtain ⟨name, value⟩ := l
  have hid := hr.ids.handler (decodeName name)
  have hp := preCheck_shape (lineHandler t m name) m.kind (m.adder (offsetSubject o) [(str "field_name", .str (lineHandler t m name).canonicalName)])
  have hfid : (lineHandler t m name).fid = classOf (decodeName name) := hid.1
  have htok : isToken (lineHandler t m name).wireName = isToken (strip (decodeName name)) := hid.2.1
  change (lineCheck t m o name).2.1 = _ ∧ ((lineCheck t m o name).2.2.filter isLine).map tag = _ at hp
  rw [hfid, htok] at hp
  have hacc : (lineCheck t m o name).2.1 = accepted m.kind (name, value) := hp.1
  rw [processLine_eq, hacc, ha, if_neg (by simp)] at h
  have hf2 : (lineCheck t m o name).1.fid = classOf (decodeName name) := by
    rw [← hfid]; exact (preCheck_id _ _ _).fid
  have hmid : Ext t m0 (lineMid t m o name value) := he.trans ⟨_, _, rfl⟩
  have hin : lineInput env related t m o name value = (lineCheck t m o name).1.listLoop ⟨env, m0, related⟩
      ((lineCheck t m o name).1.offsetAdd m0.defaults o) (splitListField value) := by
    unfold lineInput
    rw [handleInput_ext hmid]
    unfold Handler.handleInput
    rw [hf2, hk]
  rw [hin] at h
  have := listLoop_clean ⟨env, m0, related⟩ ((lineCheck t m o name).1.offsetAdd m0.defaults o) (splitListField value) (lineCheck t m o name).1
  rw [hf2] at this
  apply this
  dsimp only at h
  split at h
  · simp at h
  · rename_i hres; exact hres

theorem processLines_clean {env related t} {ls : List Line} {m0 m m' : Msg} {o : Nat} (hr : Ready env t m) (he : Ext t m0 m)
    (h : processLines env related t ls o m = (m', .ok ())) :
    ∀ l ∈ ls, accepted m0.kind l = true → (classOf (decodeName l.1)).info.kind = .list →
      CleanElems ⟨env, m0, related⟩ (classOf (decodeName l.1)) (splitListField l.2) := by
  induction ls generalizing o m with
  | nil => intro l hl; simp at hl
  | cons l0 ls ih =>
    unfold processLines at h
    split at h
    · simp at h
    · rename_i m1 o1 heq
      have hr' : Ready env t m1 := by have := hr.line (related := related) o l0; rwa [heq] at this
      have he' : Ext t m m1 := by have := processLine_ext env related t m o l0; rwa [heq] at this
      intro l hl ha hk
      rcases List.mem_cons.1 hl with rfl | hl
      · exact processLine_clean hr he heq (by rw [ext_kind he]; exact ha) hk
      · exact ih hr' (he.trans he') h l hl ha hk

/-! ### lines and names -/

theorem numbered_snd (kind : MsgKind) (ls : List Line) (o : Nat) : (numbered kind o ls).map (·.2) = ls := by
  induction ls generalizing o with
  | nil => rfl
  | cons l ls ih => unfold numbered; rw [List.map_cons, ih]

theorem sent_snd (kind : MsgKind) (n : Str) (ls : List Line) : (sent kind n ls).map (·.2) = valuesOf ls n := by
  unfold sent linesOf valuesOf
  rw [List.map_map]
  have : ∀ o, ((numbered kind o ls).filter fun p => lineKey p.2.1 == n).map (fun p => p.2.2) = (ls.filter fun l => lineKey l.1 == n).map (·.2) := by
    intro o
    induction ls generalizing o with
    | nil => rfl
    | cons l ls ih =>
      unfold numbered
      by_cases h : (lineKey l.1 == n) = true
      · rw [List.filter_cons_of_pos (by exact h), List.filter_cons_of_pos (by exact h), List.map_cons, List.map_cons, ih]
      · rw [List.filter_cons_of_neg (by exact h), List.filter_cons_of_neg (by exact h), ih]
  exact this 0

theorem mem_namesOf {ls : List Line} {n : Str} : n ∈ namesOf ls ↔ ∃ l ∈ ls, lineKey l.1 = n := by
  unfold namesOf; rw [mem_dedup, List.mem_map]

theorem spelling_mem {ls : List Line} {n : Str} (h : n ∈ namesOf ls) : ∃ l ∈ ls, spelling ls n = decodeName l.1 ∧ lineKey l.1 = n := by
  obtain ⟨l, hl, hn⟩ := mem_namesOf.1 h
  unfold spelling
  cases hf : ls.find? fun l => lineKey l.1 == n with
  | none =>
    rw [List.find?_eq_none] at hf
    exact absurd (by simpa using hn) (hf l hl)
  | some l' => exact ⟨l', List.mem_of_find?_eq_some hf, rfl, by simpa using List.find?_some hf⟩

theorem lower_spelling {ls : List Line} {n : Str} (h : n ∈ namesOf ls) : lower (spelling ls n) = n := by
  obtain ⟨l, _, e, hk⟩ := spelling_mem h
  rw [e, ← hk]; rfl

theorem lower_name {ls : List Line} {n : Str} (h : n ∈ namesOf ls) : lower n = n := by
  rw [← lower_spelling h, lower_lower]

theorem sent_ne_nil {kind} {ls : List Line} {n : Str} (h : n ∈ namesOf ls) : sent kind n ls ≠ [] := by
  intro he
  have := sent_snd kind n ls
  rw [he] at this
  obtain ⟨l, hl, hn⟩ := mem_namesOf.1 h
  have : l.2 ∈ valuesOf ls n := by
    unfold valuesOf; exact List.mem_map_of_mem (List.mem_filter.2 ⟨hl, by simpa using hn⟩)
  simp_all

theorem classOf_spelling {ls : List Line} {n : Str} (h : n ∈ namesOf ls) : classOf (spelling ls n) = classOf n :=
  classOf_lower (by rw [lower_spelling h, lower_name h])

theorem okName_spelling {kind} {ls : List Line} {n : Str} (h : n ∈ namesOf ls) : okName kind (spelling ls n) = okName kind n :=
  okName_lower (by rw [lower_spelling h, lower_name h])

theorem mkHandler_canon {f a b} (h : lower a = lower b) : lower (mkHandler f a).canonicalName = lower (mkHandler f b).canonicalName := by
  have h2 : lower (strip a) = lower (strip b) := by rw [← strip_lower, ← strip_lower, h]
  unfold mkHandler
  dsimp only
  rw [h2]
  have key : ∀ o : Option Str, lower (o.getD (strip a)) = lower (o.getD (strip b)) := by
    intro o; cases o with
    | none => exact h2
    | some x => rfl
  generalize deprecatedTable.find? (fun p => p.1 == lower (strip b)) = o
  split
  · rfl
  · exact key _

/-! ### values -/

theorem dget_foldl_dset {β} (f : Str → Str) (g : Str → β) (ks : List Str) (hn : ks.Nodup) (hf : ∀ k ∈ ks, f k = k) (d : Dict β) (n : Str) :
    dget (ks.foldl (fun d k => dset d (f k) (g k)) d) n = if n ∈ ks then some (g n) else dget d n := by
  induction ks generalizing d with
  | nil => rfl
  | cons k ks ih =>
    obtain ⟨hk, hn'⟩ := List.nodup_cons.1 hn
    rw [List.foldl_cons, ih hn' (fun k hk => hf k (by simp [hk])), hf k (by simp), dget_dset]
    by_cases h : n ∈ ks
    · rw [if_pos h, if_pos (by simp [h])]
    · rw [if_neg h]
      by_cases hnk : k = n
      · subst hnk; rw [if_pos rfl, if_pos (by simp)]
      · rw [if_neg hnk, if_neg (by simp [h, Ne.symm hnk])]

theorem dget_foldl_other {β} (f : Str → Str) (g : Str → β) (ks : List Str) (d : Dict β) (n : Str) (h : ∀ k ∈ ks, f k ≠ n) :
    dget (ks.foldl (fun d k => dset d (f k) (g k)) d) n = dget d n := by
  induction ks generalizing d with
  | nil => rfl
  | cons k ks ih =>
    rw [List.foldl_cons, ih _ (fun k hk => h k (by simp [hk])), dget_dset, if_neg (h k (by simp))]

theorem readHandler_value {env related t} {m : Msg} {ls : List Line} {n : Str} {ctx : Ctx} (hn : n ∈ namesOf ls)
    (hc : ∀ l ∈ ls, accepted m.kind l = true → (classOf (decodeName l.1)).info.kind = .list →
      CleanElems ⟨env, m, related⟩ (classOf (decodeName l.1)) (splitListField l.2))
    (hd : During env related t m ctx) (hr : (finishIn m t (readHandler ⟨env, m, related⟩ ls n) ctx).2.res = .ok ()) :
    (finishIn m t (readHandler ⟨env, m, related⟩ ls n) ctx).1.value = fieldValue ⟨env, m, related⟩ n (valuesOf ls n) := by
  unfold finishIn readHandler handlerFor fieldValue at *
  rw [okName_spelling hn] at hr ⊢
  by_cases hok : okName m.kind n = true
  · rw [if_pos hok] at hr ⊢
    rw [if_pos hok]
    have hpt : ∀ f v, parseText ⟨env, m, related⟩ f v = parseText ctx f v := fun f v => (parseText_during hd f v).symm
    rw [finish_fed (sent_ne_nil hn) hd.env.symm hpt ?_ hr, classOf_spelling hn, sent_snd]
    · congr 1
      unfold lineValue
      rw [hd.env]
      simp only [hpt]
    · intro hk p hp v hv e he
      rw [classOf_spelling hn] at hk he
      unfold sent linesOf at hp
      obtain ⟨q, hq, rfl⟩ := List.mem_map.1 hp
      obtain ⟨hq, hqn⟩ := List.mem_filter.1 hq
      have hq' : q.2 ∈ ls := by rw [← numbered_snd m.kind ls 0]; exact List.mem_map_of_mem hq
      have hqn' : lower (decodeName q.2.1) = lower n := by
        rw [lower_name hn]; simpa [lineKey] using hqn
      refine hc q.2 hq' ?_ ?_ v hv e ?_
      · have : okName m.kind (decodeName q.2.1) = okName m.kind n := okName_lower hqn'
        unfold accepted; unfold okName at this hok; rw [this]; exact hok
      · rw [classOf_lower hqn']; exact hk
      · rw [classOf_lower hqn', hpt]; exact he
  · rw [if_neg hok] at hr ⊢
    rw [if_neg hok]
    rw [finish_unread (by rw [okName_spelling hn]; simpa using hok) hr, classOf_spelling hn]

theorem flatMap_congr_mem {α β} {l : List α} {f g : α → List β} (h : ∀ a ∈ l, f a = g a) : l.flatMap f = l.flatMap g := by
  induction l with
  | nil => rfl
  | cons a l ih => rw [List.flatMap_cons, List.flatMap_cons, h a (by simp), ih fun b hb => h b (by simp [hb])]

/-- **the values recorded by a section** -/
theorem section_values {env related t} {ls : List Line} {m m' : Msg} (hm : Linting env m) (hnew : (m.section t).handlers = [])
    (hu : Unpadded ls) (h : processSection env related t ls m = (m', .ok ())) (n : Str) :
    dget (m'.section t).parsed n =
      if n ∈ namesOf ls then some (fieldValue ⟨env, m, related⟩ n (valuesOf ls n)) else dget (m.section t).parsed n := by
  obtain ⟨_, _, ctx, _, _, _, hd, _, hp, _⟩ := section_outcome (hm.ready t) hnew h
  have hcl : ∀ l ∈ ls, accepted m.kind l = true → (classOf (decodeName l.1)).info.kind = .list →
      CleanElems ⟨env, m, related⟩ (classOf (decodeName l.1)) (splitListField l.2) := by
    unfold processSection at h
    split at h
    · simp at h
    · rename_i m1 heq; exact processLines_clean (hm.ready t) (Ext.refl t m) heq
  have hf : ∀ k ∈ namesOf ls, lower (strip (spelling ls k)) = k := by
    intro k hk
    obtain ⟨l, hl, e, _⟩ := spelling_mem hk
    rw [e, hu l hl, ← e, lower_spelling hk]
  rw [hp, dget_foldl_dset (fun k => lower (strip (spelling ls k))) (fun n => (finishIn m t (readHandler ⟨env, m, related⟩ ls n) (ctx n)).1.value) _
    (show (namesOf ls).Nodup from dedup_nodup _) hf]
  split
  · rename_i hn
    rw [readHandler_value hn hcl (hd n hn).1 (hd n hn).2.1]
  · rfl

/-- what the examination of a field can see of the section it is in, when the fields `a` have been examined before it -/
structure Seen (env : Env) (related : Option Msg) (t : Bool) (ls : List Line) (m : Msg) (a : List Str) (c : Ctx) : Prop where
  keys : (c.msg.section t).handlers.map (·.1) = namesOf ls
  parsed : Unpadded ls → ∀ k, dget (c.msg.section t).parsed k =
    if k ∈ a then some (fieldValue ⟨env, m, related⟩ k (valuesOf ls k)) else dget (m.section t).parsed k

theorem seen_of {env related t} {ls : List Line} {m m' : Msg} {ctx : Str → Ctx} (hm : Linting env m)
    (h : processSection env related t ls m = (m', .ok ()))
    (hd : ∀ n ∈ namesOf ls, During env related t m (ctx n) ∧ (finishIn m t (readHandler ⟨env, m, related⟩ ls n) (ctx n)).2.res = .ok () ∧
        (ctx n).msg.notes <+: m'.notes) {a n b} (e : namesOf ls = a ++ n :: b)
    (hs : ((ctx n).msg.section t).handlers.map (·.1) = namesOf ls ∧ ((ctx n).msg.section t).parsed = a.foldl (fun d n =>
          dset d (lower (strip (spelling ls n))) (finishIn m t (readHandler ⟨env, m, related⟩ ls n) (ctx n)).1.value) (m.section t).parsed) :
    Seen env related t ls m a (ctx n) := by
  refine ⟨hs.1, fun hu k => ?_⟩
  have hcl : ∀ l ∈ ls, accepted m.kind l = true → (classOf (decodeName l.1)).info.kind = .list →
      CleanElems ⟨env, m, related⟩ (classOf (decodeName l.1)) (splitListField l.2) := by
    unfold processSection at h
    split at h
    · simp at h
    · rename_i m1 heq; exact processLines_clean (hm.ready t) (Ext.refl t m) heq
  have hsub : ∀ k ∈ a, k ∈ namesOf ls := fun k hk => by rw [e]; simp [hk]
  have hf : ∀ k ∈ a, lower (strip (spelling ls k)) = k := by
    intro k hk
    obtain ⟨l, hl, e, _⟩ := spelling_mem (hsub k hk)
    rw [e, hu l hl, ← e, lower_spelling (hsub k hk)]
  have hnd : a.Nodup := by
    have : (namesOf ls).Nodup := dedup_nodup _
    rw [e] at this
    exact (List.nodup_append.1 this).1
  rw [hs.2, dget_foldl_dset (fun k => lower (strip (spelling ls k))) (fun n => (finishIn m t (readHandler ⟨env, m, related⟩ ls n) (ctx n)).1.value) _ hnd hf]
  split
  · rename_i hn
    rw [readHandler_value (hsub k hn) hcl (hd k (hsub k hn)).1 (hd k (hsub k hn)).2.1]
  · rfl

/-- **the syntax notes added by a section** -/
theorem section_frame {env related t} {ls : List Line} {m m' : Msg} (hm : Linting env m) (hnew : (m.section t).handlers = [])
    (h : processSection env related t ls m = (m', .ok ())) :
    ∃ added, m'.notes = m.notes ++ added ∧ (added.filter isFrame).map tag =
      ((numbered m.kind 0 ls).flatMap fun p => (lineFrame m.kind p.2).map (·, offsetSubject p.1)) ++
      (namesOf ls).flatMap fun n => if okName m.kind n then finishFrame env (classOf n) (fieldSubject n) (sent m.kind n ls) else [] := by
  have hrdy := hm.ready t
  obtain ⟨a, b, ctx, _, ha, hb, hd, hp, _⟩ := section_outcome hrdy hnew h
  refine ⟨_, hp, ?_⟩
  have hb' : b.filter isFrame = [] := by
    rw [List.filter_eq_nil_iff]
    intro x hx
    unfold isFrame; rw [hb x hx]; decide
  rw [List.filter_append, List.filter_append, hb', List.append_nil, List.map_append, ha]
  congr 1
  rw [List.filter_flatMap, List.map_flatMap]
  apply flatMap_congr_mem
  intro n hn
  obtain ⟨hdn, hrn, _⟩ := hd n hn
  have hmt : HasMT (ctx n).msg.defaults := by rw [ext_defaults hdn.ext]; exact hrdy.mt
  have hg := fieldAdder_good hrdy.mt t (readHandler ⟨env, m, related⟩ ls n)
  have hsub : (m.fieldAdder t (readHandler ⟨env, m, related⟩ ls n)).subject = fieldSubject n := by
    have : (readHandler ⟨env, m, related⟩ ls n).canonicalName = (mkHandler (classOf n) (spelling ls n)).canonicalName := by
      unfold readHandler handlerFor
      split
      · rw [(fed_id _ _ _).canon, classOf_spelling hn]
      · rw [(checked_id _ _).canon, classOf_spelling hn]
    show str "field-" ++ lower (readHandler ⟨env, m, related⟩ ls n).canonicalName = _
    rw [this, mkHandler_canon (b := n) (by rw [lower_spelling hn, lower_name hn])]
    rfl
  unfold finishIn at *
  revert hrn hg hsub
  unfold readHandler handlerFor
  rw [okName_spelling hn]
  intro hrn hg hsub
  by_cases hok : okName m.kind n = true
  · rw [if_pos hok] at hrn hg hsub ⊢
    rw [if_pos hok]
    rw [finish_frame (sent_ne_nil hn) hg hrdy.mt hmt hrn, hsub, classOf_spelling hn, hdn.env]
  · rw [if_neg hok] at hrn hg hsub ⊢
    rw [if_neg hok, finish_frame_unread (by rw [okName_spelling hn]; simpa using hok) hg hmt]
    rfl

end HL.Props
