import Verif.Props.SectionThm

/-!
# How the handler of a field gets its value

The handler kept for a name is the result of feeding it the lines of that name, in order; what `FieldSection.process`
then records is the outcome of its `finish`.
-/

namespace HL.Props

/-! ### checks see the same message while a section is processed -/

theorem parse_ext {env t m m' related} (he : Ext t m m') (h : Handler) (add : AddNote) (v : Str) :
    h.parse ⟨env, m', related⟩ add v = h.parse ⟨env, m, related⟩ add v := by
  obtain ⟨ns, s, rfl⟩ := he
  unfold Handler.parse
  cases t <;> (split <;> rfl)

theorem listLoop_ext {env t m m' related} (he : Ext t m m') (add : AddNote) (vs : List Str) :
    ∀ h : Handler, h.listLoop ⟨env, m', related⟩ add vs = h.listLoop ⟨env, m, related⟩ add vs := by
  induction vs with
  | nil => intro h; rfl
  | cons v vs ih =>
    intro h
    unfold Handler.listLoop
    dsimp only
    rw [parse_ext he]
    split
    · rfl
    · split
      · split
        · rw [ih]
        · rfl
      · split
        · rfl
        · rw [ih]

theorem ext_defaults {t m m'} (he : Ext t m m') : m'.defaults = m.defaults := by
  obtain ⟨ns, s, rfl⟩ := he; cases t <;> rfl
theorem ext_kind {t m m'} (he : Ext t m m') : m'.kind = m.kind := by
  obtain ⟨ns, s, rfl⟩ := he; cases t <;> rfl
theorem ext_adder {t m m'} (he : Ext t m m') (s b) : m'.adder s b = m.adder s b := by
  unfold Msg.adder; rw [ext_defaults he]
theorem ext_fieldAdder {t t' m m'} (he : Ext t m m') (h) : m'.fieldAdder t' h = m.fieldAdder t' h := by
  unfold Msg.fieldAdder; rw [ext_adder he]

theorem handleInput_ext {env t m m' related} (he : Ext t m m') (h : Handler) (v : Str) (o : Nat) :
    h.handleInput ⟨env, m', related⟩ v o = h.handleInput ⟨env, m, related⟩ v o := by
  unfold Handler.handleInput
  dsimp only
  rw [ext_defaults he, listLoop_ext he]

/-! ### feeding lines -/

/-- a handler that has been told the line is unacceptable in this kind of message has no value -/
def checked (kind : MsgKind) (h : Handler) : Handler := if h.fid.validIn kind then h else { h with value := .none }

theorem preCheck_handler (h : Handler) (kind add) : (h.preCheck kind add).1 = checked kind h := by
  unfold Handler.preCheck checked
  by_cases hv : h.fid.validIn kind = true
  · simp only [hv, Bool.not_true, Bool.false_eq_true, if_false, if_true]
    split
    · rfl
    · split <;> rfl
  · simp only [Bool.not_eq_true] at hv
    simp only [hv, Bool.not_false, if_true, Bool.false_eq_true, if_false]

/-- give a handler one of its lines -/
def feedLine (c : Ctx) (h : Handler) (o : Nat) (v : Str) : Handler :=
  if h.fid.validIn c.msg.kind && isToken h.wireName then (h.handleInput c v o).1 else checked c.msg.kind h

/-- a line, for the handler there may already be -/
def stepLine (c : Ctx) (h : Option Handler) (p : Nat × Line) : Option Handler :=
  some (feedLine c (h.getD (mkHandler (classOf (decodeName p.2.1)) (decodeName p.2.1))) p.1 p.2.2)

theorem dget_recorded (s : Section) (name value h k) :
    dget (recorded s name value h).handlers k = if lineKey name = k then some h else dget s.handlers k := by
  unfold recorded
  dsimp only
  rw [dget_dset]

theorem processLine_handler {env related t} {m0 m m' : Msg} {o o' : Nat} {l : Line} (he : Ext t m0 m)
    (h : processLine env related t m o l = (m', .ok o')) (k : Str) :
    dget (m'.section t).handlers k =
      if lineKey l.1 = k then stepLine ⟨env, m0, related⟩ (dget (m.section t).handlers k) (o, l) else dget (m.section t).handlers k := by
  obtain ⟨name, value⟩ := l
  have hl : lineHandler t m name = (dget (m.section t).handlers (lineKey name)).getD (mkHandler (classOf (decodeName name)) (decodeName name)) := by
    unfold lineHandler findHandler lineKey
    split <;> rename_i hd <;> rw [hd] <;> rfl
  have hc : (lineCheck t m o name).1 = checked m0.kind (lineHandler t m name) := by
    unfold lineCheck; rw [preCheck_handler, ext_kind he]
  have hok : (lineCheck t m o name).2.1 = ((lineHandler t m name).fid.validIn m0.kind && isToken (lineHandler t m name).wireName) := by
    unfold lineCheck; rw [(preCheck_shape _ _ _).1, ext_kind he]
  have hmid : Ext t m (lineMid t m o name value) := ⟨_, _, rfl⟩
  rw [processLine_eq] at h
  by_cases hk : lineKey name = k
  · subst hk
    rw [if_pos rfl]
    unfold stepLine feedLine
    dsimp only
    rw [← hl]
    by_cases hf : (lineCheck t m o name).2.1 = false
    · rw [if_pos hf] at h
      simp only [Prod.mk.injEq] at h
      rw [← h.1, hok] at *
      rw [hf]
      unfold lineMid
      simp only [section_addNotes, section_setSection]
      rw [dget_recorded, if_pos rfl, hc]
      rfl
    · rw [if_neg hf] at h
      have ht := eq_true_of_ne_false hf
      have hch : checked m0.kind (lineHandler t m name) = lineHandler t m name := by
        unfold checked
        rw [hok] at ht
        rw [if_pos (by simp only [Bool.and_eq_true] at ht; exact ht.1)]
      rw [hok] at ht
      rw [ht, if_pos rfl]
      have hin : lineInput env related t m o name value = (lineHandler t m name).handleInput ⟨env, m0, related⟩ value o := by
        unfold lineInput
        rw [hc, hch, handleInput_ext (he.trans hmid)]
      rw [hin] at h
      dsimp only at h
      split at h
      · simp at h
      · simp only [Prod.mk.injEq] at h
        rw [← h.1]
        simp only [section_addNotes, section_setSection]
        rw [dget_recorded, if_pos rfl]
  · rw [if_neg hk]
    split at h
    · simp only [Prod.mk.injEq] at h
      rw [← h.1]
      unfold lineMid
      simp only [section_addNotes, section_setSection]
      rw [dget_recorded, if_neg hk]
    · dsimp only at h
      split at h
      · simp at h
      · simp only [Prod.mk.injEq] at h
        rw [← h.1]
        simp only [section_addNotes, section_setSection]
        rw [dget_recorded, if_neg hk]

/-- the lines of a name (in lower case), with their numbers -/
def linesOf (kind : MsgKind) (k : Str) (o : Nat) (ls : List Line) : List (Nat × Line) :=
  (numbered kind o ls).filter fun p => lineKey p.2.1 == k

/-- the handler of a name is what its lines have made of it -/
theorem processLines_handler {env related t} {ls : List Line} {m0 m m' : Msg} {o : Nat} (hr : Ready env t m) (he : Ext t m0 m)
    (h : processLines env related t ls o m = (m', .ok ())) (k : Str) :
    dget (m'.section t).handlers k =
      (linesOf m0.kind k o ls).foldl (stepLine ⟨env, m0, related⟩) (dget (m.section t).handlers k) := by
  induction ls generalizing o m with
  | nil =>
    simp only [processLines, Prod.mk.injEq] at h
    rw [← h.1]; rfl
  | cons l ls ih =>
    unfold processLines at h
    split at h
    · simp at h
    · rename_i m1 o1 heq
      have hr1 : Ready env t m1 := by have := hr.line (related := related) o l; rwa [heq] at this
      have he1 : Ext t m0 m1 := by have := processLine_ext env related t m o l; rw [heq] at this; exact he.trans this
      have ho := (processLine_notes hr heq).1
      rw [ext_kind he] at ho
      rw [ih hr1 he1 h, processLine_handler he heq, ho]
      unfold linesOf
      conv => rhs; rw [numbered]
      by_cases hk : lineKey l.1 = k
      · rw [if_pos hk, List.filter_cons_of_pos (by simpa using hk), List.foldl_cons]
      · rw [if_neg hk, List.filter_cons_of_neg (by simpa using hk)]

/-! ### keys -/

theorem keys_nodup_line {env related t} {m : Msg} {o : Nat} {l : Line} (h : UniqueKeys (m.section t).handlers) :
    UniqueKeys ((processLine env related t m o l).1.section t).handlers := by
  obtain ⟨name, value⟩ := l
  rw [processLine_eq]
  split
  · unfold lineMid; simp only [section_addNotes, section_setSection]; exact h.dset _ _
  · dsimp only
    split <;> (simp only [section_addNotes, section_setSection]; exact h.dset _ _)

theorem keys_nodup_lines {env related t} {ls : List Line} {m : Msg} {o : Nat} (h : UniqueKeys (m.section t).handlers) :
    UniqueKeys ((processLines env related t ls o m).1.section t).handlers := by
  induction ls generalizing m o with
  | nil => exact h
  | cons l ls ih =>
    unfold processLines
    have h1 := keys_nodup_line (env := env) (related := related) (o := o) (l := l) h
    split <;> rename_i heq <;> rw [heq] at h1
    · exact h1
    · exact ih h1

/-! ### finishing -/

/-- a context while a section that began as `m` is processed -/
structure During (env : Env) (related : Option Msg) (t : Bool) (m : Msg) (c : Ctx) : Prop where
  env : c.env = env
  related : c.related = related
  ext : Ext t m c.msg

/-- the outcome of finishing a handler in context `c` -/
def finishIn (m : Msg) (t : Bool) (h : Handler) (c : Ctx) : Handler × W Unit := h.finish c (m.fieldAdder t h)

theorem finishHandler_eq {env related t} {m0 m m' : Msg} {k : Str} (he : Ext t m0 m)
    (h : finishHandler env related t m k = (m', .ok ())) {hd : Handler} (hk : dget (m.section t).handlers k = some hd) :
    m'.notes = m.notes ++ (finishIn m0 t hd ⟨env, m, related⟩).2.notes ∧
    (m'.section t).handlers = dset (m.section t).handlers k (finishIn m0 t hd ⟨env, m, related⟩).1 ∧
    (m'.section t).parsed = dset (m.section t).parsed (finishIn m0 t hd ⟨env, m, related⟩).1.normName (finishIn m0 t hd ⟨env, m, related⟩).1.value ∧
    (finishIn m0 t hd ⟨env, m, related⟩).2.res = .ok () := by
  unfold finishHandler at h
  rw [hk] at h
  dsimp only at h
  rw [ext_fieldAdder he] at h
  unfold finishIn
  generalize hd.finish ⟨env, m, related⟩ (m0.fieldAdder t hd) = hw at *
  obtain ⟨h', w⟩ := hw
  dsimp only at *
  split at h
  · simp at h
  · rename_i hres
    simp only [Prod.mk.injEq] at h
    rw [← h.1]
    simp only [section_setSection, section_addNotes]
    refine ⟨?_, trivial, trivial, hres⟩
    cases t <;> rfl

/-- finishing the handlers one after the other, each in some context -/
theorem finishHandlers_eq {env related t} {ks : List Str} {m0 m m' : Msg} (he : Ext t m0 m) (hn : ks.Nodup)
    (hks : ∀ k ∈ ks, dhas (m.section t).handlers k = true)
    (h : finishHandlers env related t ks m = (m', .ok ())) :
    ∃ cs : List (Handler × Ctx), (∀ p ∈ cs, During env related t m0 p.2 ∧ (finishIn m0 t p.1 p.2).2.res = .ok () ∧ p.2.msg.notes <+: m'.notes) ∧
      cs.map (some ·.1) = ks.map (dget (m.section t).handlers) ∧
      m'.notes = m.notes ++ cs.flatMap (fun p => (finishIn m0 t p.1 p.2).2.notes) ∧
      (m'.section t).parsed = cs.foldl (fun d p => dset d (finishIn m0 t p.1 p.2).1.normName (finishIn m0 t p.1 p.2).1.value) (m.section t).parsed ∧
      (∀ k, k ∉ ks → dget (m'.section t).handlers k = dget (m.section t).handlers k) ∧
      (∀ a p b, cs = a ++ p :: b → (p.2.msg.section t).handlers.map (·.1) = (m.section t).handlers.map (·.1) ∧
        (p.2.msg.section t).parsed = a.foldl (fun d p => dset d (finishIn m0 t p.1 p.2).1.normName (finishIn m0 t p.1 p.2).1.value) (m.section t).parsed) := by
  induction ks generalizing m with
  | nil =>
    simp only [finishHandlers, Prod.mk.injEq] at h
    exact ⟨[], by simp, rfl, by simp [h.1], by simp [h.1], fun k _ => by rw [h.1], fun a p b e => by simp at e⟩
  | cons k ks ih =>
    unfold finishHandlers at h
    split at h
    · simp at h
    · rename_i _ m1 heq
      obtain ⟨hd, hk⟩ : ∃ hd, dget (m.section t).handlers k = some hd := by
        have := hks k (by simp)
        rw [← dget_isSome] at this
        exact Option.isSome_iff_exists.1 this
      obtain ⟨e1, e2, e3, e4⟩ := finishHandler_eq he heq hk
      have he1 : Ext t m0 m1 := by
        have := finishHandler_ext env related t m k
        rw [heq] at this
        exact he.trans this
      obtain ⟨hkn, hn'⟩ := List.nodup_cons.1 hn
      have hget : ∀ x, x ≠ k → dget (m1.section t).handlers x = dget (m.section t).handlers x := by
        intro x hx
        rw [e2, dget_dset, if_neg (Ne.symm hx)]
      have hne : ∀ x ∈ ks, x ≠ k := fun x hx hxk => hkn (hxk ▸ hx)
      obtain ⟨cs, p1, p2, p3, p4, p5, p6⟩ := ih he1 hn' (by
        intro x hx
        rw [← dget_isSome, hget x (hne x hx), dget_isSome]
        exact hks x (by simp [hx])) h
      refine ⟨(hd, ⟨env, m, related⟩) :: cs, ?_, ?_, ?_, ?_, ?_, ?_⟩
      · intro p hp
        rcases List.mem_cons.1 hp with rfl | hp
        · exact ⟨⟨rfl, rfl, he⟩, e4, by rw [p3, e1, List.append_assoc]; exact List.prefix_append ..⟩
        · exact p1 p hp
      · rw [List.map_cons, List.map_cons, hk, p2]
        congr 1
        apply List.map_congr_left
        intro x hx
        exact hget x (hne x hx)
      · rw [p3, e1, List.flatMap_cons, List.append_assoc]
      · rw [p4, e3, List.foldl_cons]
      · intro x hx
        simp only [List.mem_cons, not_or] at hx
        rw [p5 x hx.2, hget x hx.1]
      · intro a p b e
        cases a with
        | nil =>
          simp only [List.nil_append, List.cons.injEq] at e
          rw [← e.1]
          exact ⟨rfl, rfl⟩
        | cons x a =>
          simp only [List.cons_append, List.cons.injEq] at e
          obtain ⟨q1, q2⟩ := p6 a p b e.2
          refine ⟨?_, ?_⟩
          · rw [q1, e2, keys_dset, if_pos (hks k (by simp))]
          · rw [q2, e3, List.foldl_cons, ← e.1]

end HL.Props
