import Verif.Props.FrameNotes

/-!
# What `FieldSection.process` makes of a section: values and frame notes
-/

namespace HL.Props

/-! ### names, in the order they first occur -/

/-- the names in a list of lines (lower-cased), each once, in order of first occurrence -/
def namesOf (ls : List Line) : List Str := dedup (ls.map fun l => lineKey l.1)

theorem dset_keys {β} (d : Dict β) (k : Str) (v : β) :
    (dset d k v).map (·.1) = if (d.map (·.1)).contains k then d.map (·.1) else d.map (·.1) ++ [k] := by
  induction d with
  | nil => rfl
  | cons p d ih =>
    unfold dset
    split
    · rename_i h
      simp [h]
    · rename_i h
      rw [List.map_cons, ih]
      simp only [List.map_cons, List.contains_cons]
      have : (k == p.1) = false := by simpa using fun he => h he.symm
      rw [this, Bool.false_or]
      split <;> rfl

theorem processLine_keys {env related t} {m : Msg} {o : Nat} {l : Line} :
    ((processLine env related t m o l).1.section t).handlers.map (·.1) =
      if ((m.section t).handlers.map (·.1)).contains (lineKey l.1) then (m.section t).handlers.map (·.1)
      else (m.section t).handlers.map (·.1) ++ [lineKey l.1] := by
  obtain ⟨name, value⟩ := l
  rw [processLine_eq]
  split
  · unfold lineMid; simp only [section_addNotes, section_setSection]; exact dset_keys _ _ _
  · dsimp only
    split <;> (simp only [section_addNotes, section_setSection]; exact dset_keys _ _ _)

theorem processLines_keys {env related t} {ls : List Line} {m m' : Msg} {o : Nat}
    (h : processLines env related t ls o m = (m', .ok ())) :
    (m'.section t).handlers.map (·.1) = (ls.map fun l => lineKey l.1).foldl (fun acc x => if acc.contains x then acc else acc ++ [x])
      ((m.section t).handlers.map (·.1)) := by
  induction ls generalizing o m with
  | nil =>
    simp only [processLines, Prod.mk.injEq] at h
    rw [h.1]; rfl
  | cons l ls ih =>
    unfold processLines at h
    split at h
    · simp at h
    · rename_i m1 o1 heq
      rw [ih h, List.map_cons, List.foldl_cons]
      congr 1
      have := processLine_keys (env := env) (related := related) (t := t) (m := m) (o := o) (l := l)
      rw [heq] at this
      exact this

theorem processLine_parsed (env related t) (m : Msg) (o : Nat) (l : Line) :
    ((processLine env related t m o l).1.section t).parsed = (m.section t).parsed := by
  obtain ⟨name, value⟩ := l
  rw [processLine_eq]
  split
  · unfold lineMid; simp only [section_addNotes, section_setSection]; rfl
  · dsimp only
    split <;> (simp only [section_addNotes, section_setSection]; rfl)

theorem processLines_parsed {env related t} {ls : List Line} {m m' : Msg} {o : Nat}
    (h : processLines env related t ls o m = (m', .ok ())) : (m'.section t).parsed = (m.section t).parsed := by
  induction ls generalizing o m with
  | nil =>
    simp only [processLines, Prod.mk.injEq] at h
    rw [h.1]
  | cons l ls ih =>
    unfold processLines at h
    split at h
    · simp at h
    · rename_i m1 o1 heq
      rw [ih h]
      have := processLine_parsed env related t m o l
      rw [heq] at this
      exact this

theorem mem_dedup {l : List Str} {x : Str} : x ∈ dedup l ↔ x ∈ l := by
  unfold dedup
  have key : ∀ (l acc : List Str), x ∈ l.foldl (fun acc x => if acc.contains x then acc else acc ++ [x]) acc ↔ x ∈ acc ∨ x ∈ l := by
    intro l
    induction l with
    | nil => intro acc; simp
    | cons a l ih =>
      intro acc
      rw [List.foldl_cons, ih]
      split
      · rename_i hc
        simp only [List.contains_iff_mem] at hc
        constructor
        · rintro (h | h)
          · exact .inl h
          · exact .inr (by simp [h])
        · rintro (h | h)
          · exact .inl h
          · rcases List.mem_cons.1 h with rfl | h
            · exact .inl hc
            · exact .inr h
      · simp [or_assoc]
  simpa using key l []

theorem dedup_nodup (l : List Str) : (dedup l).Nodup := by
  unfold dedup
  have key : ∀ (l acc : List Str), acc.Nodup → (l.foldl (fun acc x => if acc.contains x then acc else acc ++ [x]) acc).Nodup := by
    intro l
    induction l with
    | nil => intro acc h; exact h
    | cons a l ih =>
      intro acc h
      rw [List.foldl_cons]
      apply ih
      split
      · exact h
      · rename_i hc
        simp only [List.contains_iff_mem] at hc
        rw [List.nodup_append]
        exact ⟨h, by simp, by rintro x hx y hy rfl; simp at hy; subst hy; exact hc hx⟩
  exact key l [] List.nodup_nil

/-! ### the whole section -/

/-- the lines of a name, with their numbers: their values -/
def sent (kind : MsgKind) (n : Str) (ls : List Line) : List (Nat × Str) :=
  (linesOf kind n 0 ls).map fun p => (p.1, p.2.2)

/-- how a name is spelt first -/
def spelling (ls : List Line) (n : Str) : Str :=
  ((ls.find? fun l => lineKey l.1 == n).map fun l => decodeName l.1).getD n

/-- the handler of a name once all lines are read -/
def readHandler (c : Ctx) (ls : List Line) (n : Str) : Handler := handlerFor c (spelling ls n) (sent c.msg.kind n ls)

theorem numbered_find (kind : MsgKind) (p : Line → Bool) (ls : List Line) (o : Nat) :
    (((numbered kind o ls).filter fun q => p q.2).head?).map (·.2) = ls.find? p := by
  induction ls generalizing o with
  | nil => rfl
  | cons l ls ih =>
    unfold numbered
    rw [List.find?_cons]
    by_cases h : p l = true
    · rw [List.filter_cons_of_pos (by exact h), h]; rfl
    · rw [List.filter_cons_of_neg (by exact h), ih]
      rw [Bool.not_eq_true] at h
      rw [h]

theorem linesOf_foldl (c : Ctx) (ls : List Line) (n : Str) (hn : n ∈ namesOf ls) :
    (linesOf c.msg.kind n 0 ls).foldl (stepLine c) none = some (readHandler c ls n) := by
  have hf := numbered_find c.msg.kind (fun l => lineKey l.1 == n) ls 0
  unfold namesOf at hn
  rw [mem_dedup, List.mem_map] at hn
  obtain ⟨l, hl, hln⟩ := hn
  have hfs : (ls.find? fun l => lineKey l.1 == n).isSome = true := by
    rw [List.find?_isSome]
    exact ⟨l, hl, by simpa using hln⟩
  unfold readHandler sent spelling
  unfold linesOf
  generalize (numbered c.msg.kind 0 ls).filter (fun q => lineKey q.2.1 == n) = qs at *
  cases qs with
  | nil =>
    simp only [List.head?_nil, Option.map_none] at hf
    rw [← hf] at hfs
    simp at hfs
  | cons q qs =>
    rw [stepLines_some]
    simp only [List.head?_cons, Option.map_some] at hf
    rw [← hf]
    rfl

/-- **the outcome of a section** that starts empty and is processed without raising: each name's handler, fed its
lines, is finished once, in the order the names first occur; what it adds and its value are recorded -/
theorem section_outcome_full {env related t} {ls : List Line} {m m' : Msg} (hr : Ready env t m) (hnew : (m.section t).handlers = [])
    (h : processSection env related t ls m = (m', .ok ())) :
    ∃ (lineNotes sizeNotes : List Note) (ctx : Str → Ctx),
      (processLines env related t ls 0 m).1.notes = m.notes ++ lineNotes ∧
      (lineNotes.filter isFrame).map tag = ((numbered m.kind 0 ls).flatMap fun p => (lineFrame m.kind p.2).map (·, offsetSubject p.1)) ∧
      sizeNotes = sectionSizeNotes t (processLines env related t ls 0 m).1 ∧
      (∀ n ∈ namesOf ls, During env related t m (ctx n) ∧ (finishIn m t (readHandler ⟨env, m, related⟩ ls n) (ctx n)).2.res = .ok () ∧
        (ctx n).msg.notes <+: m'.notes) ∧
      m'.notes = m.notes ++ (lineNotes ++ sizeNotes ++ (namesOf ls).flatMap fun n => (finishIn m t (readHandler ⟨env, m, related⟩ ls n) (ctx n)).2.notes) ∧
      (m'.section t).parsed = (namesOf ls).foldl (fun d n =>
        dset d (lower (strip (spelling ls n))) (finishIn m t (readHandler ⟨env, m, related⟩ ls n) (ctx n)).1.value) (m.section t).parsed ∧
      (∀ a n b, namesOf ls = a ++ n :: b → ((ctx n).msg.section t).handlers.map (·.1) = namesOf ls ∧
        ((ctx n).msg.section t).parsed = a.foldl (fun d n =>
          dset d (lower (strip (spelling ls n))) (finishIn m t (readHandler ⟨env, m, related⟩ ls n) (ctx n)).1.value) (m.section t).parsed) := by
  unfold processSection at h
  split at h
  · simp at h
  · rename_i m1 heq
    dsimp only at h
    obtain ⟨a1, e1, t1⟩ := processLines_frame hr heq
    have hext : Ext t m m1 := by have := processLines_ext env related t ls 0 m; rwa [heq] at this
    have hkeys := processLines_keys heq
    rw [hnew] at hkeys
    change _ = namesOf ls at hkeys
    have hh := fun k => processLines_handler hr (Ext.refl t m) heq k
    have hext2 : Ext t m (m1.addNotes (sectionSizeNotes t m1)) := hext.trans (Ext.add t m1 _)
    have hsec : (m1.addNotes (sectionSizeNotes t m1)).section t = m1.section t := section_addNotes _ _ _
    rw [hsec, hkeys] at h
    have hget : ∀ n ∈ namesOf ls, dget (m1.section t).handlers n = some (readHandler ⟨env, m, related⟩ ls n) := by
      intro n hn
      rw [hh n, hnew]
      exact linesOf_foldl ⟨env, m, related⟩ ls n hn
    have hpar : (m1.section t).parsed = (m.section t).parsed := by
      exact processLines_parsed heq
    obtain ⟨cs, p1, p2, p3, p4, _, p6⟩ := finishHandlers_eq hext2 (dedup_nodup _) (by
      intro k hk
      rw [hsec, ← dget_isSome, hget k hk]; rfl) h
    have hcs : ∃ ctx : Str → Ctx, cs = (namesOf ls).map fun n => (readHandler ⟨env, m, related⟩ ls n, ctx n) := by
      rw [hsec] at p2
      change _ = (namesOf ls).map _ at p2
      have hnd := dedup_nodup (ls.map fun l => lineKey l.1)
      change (namesOf ls).Nodup at hnd
      clear p1 p3 p4 p6 h hh t1 e1 heq hkeys
      generalize namesOf ls = ks at *
      induction ks generalizing cs with
      | nil =>
        simp only [List.map_nil, List.map_eq_nil_iff] at p2
        exact ⟨fun _ => ⟨env, m, related⟩, by simpa using p2⟩
      | cons k ks ih =>
        cases cs with
        | nil => simp at p2
        | cons p cs =>
          simp only [List.map_cons, List.cons.injEq] at p2
          rw [hget k (by simp)] at p2
          obtain ⟨hk, hnd'⟩ := List.nodup_cons.1 hnd
          obtain ⟨ctx, e⟩ := ih cs (fun n hn => hget n (by simp [hn])) p2.2 hnd'
          refine ⟨fun n => if n = k then p.2 else ctx n, ?_⟩
          simp only [List.map_cons, if_true]
          have e0 : p = (readHandler ⟨env, m, related⟩ ls k, p.2) := by
            obtain ⟨a, b⟩ := p; simp only [Option.some.injEq] at p2; rw [p2.1]
          rw [← e0, e]
          congr 1
          apply List.map_congr_left
          intro n hn
          have : n ≠ k := fun hh => hk (hh ▸ hn)
          rw [if_neg this]
    obtain ⟨ctx, rfl⟩ := hcs
    have hnorm : ∀ n, (finishIn m t (readHandler ⟨env, m, related⟩ ls n) (ctx n)).1.normName = lower (strip (spelling ls n)) := by
      intro n
      unfold finishIn readHandler handlerFor
      rw [(finish_id _ _ _).norm]
      split
      · rw [(fed_id _ _ _).norm, mkHandler_norm]
      · rw [(checked_id _ _).norm, mkHandler_norm]
    refine ⟨a1, sectionSizeNotes t m1, ctx, by rw [heq]; exact e1, t1, by rw [heq], ?_, ?_, ?_, ?_⟩
    · intro n hn
      exact p1 (_, ctx n) (List.mem_map.2 ⟨n, hn, rfl⟩)
    · rw [p3]
      show (m1.notes ++ _) ++ _ = _
      rw [e1, List.flatMap_map]
      simp only [List.append_assoc]
    · rw [p4, List.foldl_map, hsec, hpar]
      simp only [hnorm]
    · intro a n b e
      obtain ⟨q1, q2⟩ := p6 (a.map fun n => (readHandler ⟨env, m, related⟩ ls n, ctx n)) (readHandler ⟨env, m, related⟩ ls n, ctx n)
        (b.map fun n => (readHandler ⟨env, m, related⟩ ls n, ctx n)) (by rw [e, List.map_append, List.map_cons])
      refine ⟨?_, ?_⟩
      · rw [q1, hsec, hkeys]
      · rw [q2, List.foldl_map, hsec, hpar]
        simp only [hnorm]

/-- **the outcome of a section** that starts empty and is processed without raising: each name's handler, fed its
lines, is finished once, in the order the names first occur; what it adds and its value are recorded -/
theorem section_outcome {env related t} {ls : List Line} {m m' : Msg} (hr : Ready env t m) (hnew : (m.section t).handlers = [])
    (h : processSection env related t ls m = (m', .ok ())) :
    ∃ (lineNotes sizeNotes : List Note) (ctx : Str → Ctx),
      (processLines env related t ls 0 m).1.notes = m.notes ++ lineNotes ∧
      (lineNotes.filter isFrame).map tag = ((numbered m.kind 0 ls).flatMap fun p => (lineFrame m.kind p.2).map (·, offsetSubject p.1)) ∧
      (∀ n ∈ sizeNotes, n.cls = .FIELD_SECTION_TOO_LARGE) ∧
      (∀ n ∈ namesOf ls, During env related t m (ctx n) ∧ (finishIn m t (readHandler ⟨env, m, related⟩ ls n) (ctx n)).2.res = .ok () ∧
        (ctx n).msg.notes <+: m'.notes) ∧
      m'.notes = m.notes ++ (lineNotes ++ sizeNotes ++ (namesOf ls).flatMap fun n => (finishIn m t (readHandler ⟨env, m, related⟩ ls n) (ctx n)).2.notes) ∧
      (m'.section t).parsed = (namesOf ls).foldl (fun d n =>
        dset d (lower (strip (spelling ls n))) (finishIn m t (readHandler ⟨env, m, related⟩ ls n) (ctx n)).1.value) (m.section t).parsed ∧
      (∀ a n b, namesOf ls = a ++ n :: b → ((ctx n).msg.section t).handlers.map (·.1) = namesOf ls ∧
        ((ctx n).msg.section t).parsed = a.foldl (fun d n =>
          dset d (lower (strip (spelling ls n))) (finishIn m t (readHandler ⟨env, m, related⟩ ls n) (ctx n)).1.value) (m.section t).parsed) := by
  obtain ⟨a, b, ctx, h1, h2, rfl, h4⟩ := section_outcome_full hr hnew h
  refine ⟨a, _, ctx, h1, h2, ?_, h4⟩
  intro n hn
  unfold sectionSizeNotes at hn
  dsimp only at hn
  split at hn
  · simp only [List.mem_singleton] at hn; subst hn; rfl
  · simp at hn

end HL.Props
