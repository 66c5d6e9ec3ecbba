import Verif.Props.LineNotes

/-!
# Whole field sections: text, size, and line-level notes
-/

namespace HL.Props

/-! ### text and size -/

theorem processLine_text (env related t) (m : Msg) (o : Nat) (l : Line) :
    ((processLine env related t m o l).1.section t).text = (m.section t).text ++ [(decodeName l.1, l.2)] ∧
    ((processLine env related t m o l).1.section t).size = (m.section t).size + (l.1.length + l.2.length) := by
  obtain ⟨name, value⟩ := l
  rw [processLine_eq]
  split
  · unfold lineMid; simp only [section_addNotes, section_setSection]; exact ⟨rfl, rfl⟩
  · dsimp only
    split <;> (simp only [section_addNotes, section_setSection]; exact ⟨rfl, rfl⟩)

/-- the total number of octets in the names and values -/
def totalSize (ls : List Line) : Nat := (ls.map fun l => l.1.length + l.2.length).sum

theorem processLines_text (env related t) (ls : List Line) (o : Nat) (m : Msg) :
    ∃ k, k ≤ ls.length ∧ ((processLines env related t ls o m).2 = .ok () → k = ls.length) ∧
      ((processLines env related t ls o m).1.section t).text = (m.section t).text ++ (ls.take k).map (fun l => (decodeName l.1, l.2)) ∧
      ((processLines env related t ls o m).1.section t).size = (m.section t).size + totalSize (ls.take k) := by
  induction ls generalizing o m with
  | nil => exact ⟨0, by simp, by simp, by simp [processLines], by simp [processLines, totalSize]⟩
  | cons l ls ih =>
    unfold processLines
    have h := processLine_text env related t m o l
    split <;> rename_i heq <;> rw [heq] at h
    · refine ⟨1, by simp, by simp, ?_, ?_⟩
      · simpa using h.1
      · simpa [totalSize] using h.2
    · rename_i m1 o1
      obtain ⟨k, hk, hok, ht, hs⟩ := ih o1 m1
      refine ⟨k + 1, by simpa using hk, fun hr => by simpa using hok hr, ?_, ?_⟩
      · rw [ht, h.1]; simp
      · rw [hs, h.2]; simp [totalSize, Nat.add_assoc]

theorem finishHandler_text (env related t) (m : Msg) (k : Str) :
    ((finishHandler env related t m k).1.section t).text = (m.section t).text ∧
    ((finishHandler env related t m k).1.section t).size = (m.section t).size := by
  unfold finishHandler
  split
  · exact ⟨rfl, rfl⟩
  · dsimp only
    split <;> (simp only [section_addNotes, section_setSection]; exact ⟨trivial, trivial⟩)

theorem finishHandlers_text (env related t) (ks : List Str) (m : Msg) :
    ((finishHandlers env related t ks m).1.section t).text = (m.section t).text ∧
    ((finishHandlers env related t ks m).1.section t).size = (m.section t).size := by
  induction ks generalizing m with
  | nil => exact ⟨rfl, rfl⟩
  | cons k ks ih =>
    unfold finishHandlers
    have h := finishHandler_text env related t m k
    split <;> rename_i heq <;> rw [heq] at h
    · exact h
    · rename_i _ m1
      exact ⟨(ih m1).1.trans h.1, (ih m1).2.trans h.2⟩

theorem processSection_text (env related t) (ls : List Line) (m : Msg) :
    ∃ k, k ≤ ls.length ∧ ((processSection env related t ls m).2 = .ok () → k = ls.length) ∧
      ((processSection env related t ls m).1.section t).text = (m.section t).text ++ (ls.take k).map (fun l => (decodeName l.1, l.2)) ∧
      ((processSection env related t ls m).1.section t).size = (m.section t).size + totalSize (ls.take k) := by
  unfold processSection
  obtain ⟨k, hk, hok, ht, hs⟩ := processLines_text env related t ls 0 m
  split <;> rename_i m1 heq <;> rw [heq] at hok ht hs
  · exact ⟨k, hk, by simp, ht, hs⟩
  · dsimp only
    have h2 := finishHandlers_text env related t (((m1.addNotes (sectionSizeNotes t m1)).section t).handlers.map (·.1)) (m1.addNotes (sectionSizeNotes t m1))
    rw [section_addNotes] at h2
    refine ⟨k, hk, fun _ => hok rfl, ?_, ?_⟩
    · rw [section_addNotes]; exact h2.1.trans ht
    · rw [section_addNotes]; exact h2.2.trans hs

/-! ### line-level notes -/

theorem finishHandler_par (env related t) (m : Msg) (hm : HasMT m.defaults) (hs : SecOK (m.section t)) (k : Str) :
    ∃ ns, (finishHandler env related t m k).1.notes = m.notes ++ ns ∧ ∀ n ∈ ns, ParNote n := by
  unfold finishHandler
  split
  · exact ⟨[], by simp, mem_none⟩
  · rename_i h hk
    have hf := finish_ok (fieldAdder_good hm t h) ⟨env, m, related⟩ hm h (secOK_dget hs hk)
    generalize Handler.finish _ _ _ = hw at *
    obtain ⟨h', w⟩ := hw
    dsimp only at *
    split <;> exact ⟨w.notes, by cases t <;> rfl, hf.2⟩

theorem finishHandlers_par (env related t) (ks : List Str) (m : Msg) (hm : HasMT m.defaults) (hs : SecOK (m.section t)) :
    ∃ ns, (finishHandlers env related t ks m).1.notes = m.notes ++ ns ∧ ∀ n ∈ ns, ParNote n := by
  induction ks generalizing m with
  | nil => exact ⟨[], by simp [finishHandlers], mem_none⟩
  | cons k ks ih =>
    unfold finishHandlers
    obtain ⟨n1, e1, p1⟩ := finishHandler_par env related t m hm hs k
    have h := finishHandler_run env related t m hm hs k
    split <;> rename_i heq <;> rw [heq] at h e1
    · exact ⟨n1, e1, p1⟩
    · rename_i _ m1
      obtain ⟨n2, e2, p2⟩ := ih m1 (by rw [h.defaults]; exact hm) h.ok
      exact ⟨n1 ++ n2, by rw [e2, e1, List.append_assoc], mem_append_of p1 p2⟩

/-- a section that is processed without raising: its line-level notes -/
theorem processSection_notes {env related t} {ls : List Line} {m m' : Msg} (hr : Ready env t m)
    (h : processSection env related t ls m = (m', .ok ())) :
    ∃ added, m'.notes = m.notes ++ added ∧
      (added.filter isLine).map tag =
        ((numbered m.kind 0 ls).flatMap fun p => (lineClasses m.kind p.2).map (·, offsetSubject p.1)) ++
        (if (m'.section t).size > 32768 then [(.FIELD_SECTION_TOO_LARGE, str "field-block")] else []) := by
  have htx : (m'.section t).size = (m.section t).size + totalSize ls := by
    obtain ⟨k, _, hk, _, hs⟩ := processSection_text env related t ls m
    rw [h] at hk hs
    have := hk rfl
    subst this
    simpa using hs
  unfold processSection at h
  have hrun := processLines_run env related t ls 0 m hr.mt hr.sec
  have hsz := processLines_text env related t ls 0 m
  split at h
  · simp at h
  · rename_i m1 heq
    rw [heq] at hrun hsz
    dsimp only at h
    obtain ⟨a1, e1, t1⟩ := processLines_notes hr heq
    have h2 : HasMT (m1.addNotes (sectionSizeNotes t m1)).defaults := by
      show HasMT m1.defaults; rw [hrun.defaults]; exact hr.mt
    have h3 : SecOK ((m1.addNotes (sectionSizeNotes t m1)).section t) := by rw [section_addNotes]; exact hrun.ok
    obtain ⟨a3, e3, p3⟩ := finishHandlers_par env related t (((m1.addNotes (sectionSizeNotes t m1)).section t).handlers.map (·.1)) _ h2 h3
    rw [h] at e3
    refine ⟨a1 ++ sectionSizeNotes t m1 ++ a3, ?_, ?_⟩
    · rw [e3]; show (m1.notes ++ _) ++ _ = _; rw [e1]; simp
    · obtain ⟨k, _, hk, _, hs⟩ := hsz
      have := hk rfl
      subst this
      have hs' : (m1.section t).size = (m'.section t).size := by rw [htx]; simpa using hs
      rw [List.filter_append, List.filter_append, List.map_append, List.map_append, t1,
        filter_notLine fun n hn => parNote_notLine (p3 n hn), List.map_nil, List.append_nil]
      congr 1
      unfold sectionSizeNotes maxTotalSize
      dsimp only
      rw [hs']
      split <;> rfl

/-! ### one class at a time -/

theorem numbered_map (kind) (o) (ls : List Line) : (numbered kind o ls).map (·.2) = ls := by
  induction ls generalizing o with
  | nil => rfl
  | cons l ls ih => simp [numbered, ih]

theorem lineClasses_nodup (kind l) : (lineClasses kind l).Nodup := by
  unfold lineClasses
  cases kind <;> (repeat' split) <;> decide

theorem filter_eq_of_nodup {α} [DecidableEq α] {l : List α} (h : l.Nodup) (x : α) :
    l.filter (· == x) = if x ∈ l then [x] else [] := by
  induction l with
  | nil => rfl
  | cons a l ih =>
    obtain ⟨h1, h2⟩ := List.nodup_cons.1 h
    by_cases hx : a = x
    · subst hx
      rw [List.filter_cons_of_pos (by simp), ih h2, if_neg h1, if_pos (by simp)]
    · rw [List.filter_cons_of_neg (by simpa using hx), ih h2]
      simp only [List.mem_cons, Ne.symm hx, false_or]

/-- the notes of one line-level class -/
theorem line_class {added : List Note} {kind} {ls : List Line} {tail : List (NoteId × Str)} (x : NoteId) (hx : x.origin = .line)
    (ht : ∀ p ∈ tail, p.1 ≠ x)
    (h : (added.filter isLine).map tag = ((numbered kind 0 ls).flatMap fun p => (lineClasses kind p.2).map (·, offsetSubject p.1)) ++ tail) :
    (added.filter (·.cls == x)).map (·.subject) =
      ((numbered kind 0 ls).filter fun p => decide (x ∈ lineClasses kind p.2)).map fun p => offsetSubject p.1 := by
  have e1 : added.filter (·.cls == x) = (added.filter isLine).filter (·.cls == x) := by
    rw [List.filter_filter]
    congr 1
    funext n
    by_cases hn : n.cls = x
    · simp [hn, isLine, hx]
    · simp [hn]
  have e2 : (added.filter (·.cls == x)).map (·.subject) = (((added.filter isLine).map tag).filter (·.1 == x)).map (·.2) := by
    rw [e1]
    generalize added.filter isLine = l
    induction l with
    | nil => rfl
    | cons n l ih =>
      by_cases hn : n.cls = x
      · rw [List.filter_cons_of_pos (by simpa using hn), List.map_cons, List.map_cons, List.filter_cons_of_pos (by simpa [tag] using hn), List.map_cons, ih]; rfl
      · rw [List.filter_cons_of_neg (by simpa using hn), List.map_cons, List.filter_cons_of_neg (by simpa [tag] using hn), ih]
  rw [e2, h, List.filter_append, List.map_append]
  have e3 : tail.filter (·.1 == x) = [] := by
    rw [List.filter_eq_nil_iff]
    intro p hp
    simpa using ht p hp
  rw [e3, List.map_nil, List.append_nil]
  generalize numbered kind 0 ls = l
  induction l with
  | nil => rfl
  | cons p l ih =>
    rw [List.flatMap_cons, List.filter_append, List.map_append, ih]
    have : (((lineClasses kind p.2).map (·, offsetSubject p.1)).filter (·.1 == x)).map (·.2) =
        if x ∈ lineClasses kind p.2 then [offsetSubject p.1] else [] := by
      rw [List.filter_map, List.map_map]
      show ((lineClasses kind p.2).filter (· == x)).map _ = _
      rw [filter_eq_of_nodup (lineClasses_nodup _ _)]
      split <;> rfl
    rw [this]
    by_cases hx : x ∈ lineClasses kind p.2
    · rw [if_pos hx, List.filter_cons_of_pos (by simpa using hx)]; rfl
    · rw [if_neg hx, List.filter_cons_of_neg (by simpa using hx)]; rfl

end HL.Props
