import Verif.Props.Lines
import Verif.Props.SectionEmits

/-!
# Invariants of the handlers and of the parsed values of a section
-/

namespace HL.Props

theorem dget_mem {β} {d : Dict β} {k : Str} {v : β} (h : dget d k = some v) : (k, v) ∈ d := by
  unfold dget at h
  obtain ⟨p, hp, rfl⟩ := Option.map_eq_some_iff.1 h
  have h1 := List.find?_some hp
  have h2 := List.mem_of_find?_eq_some hp
  simp at h1
  rw [← h1]
  exact h2

theorem Ext.kind {t : Bool} {m m' : Msg} (h : Ext t m m') : m'.kind = m.kind := by
  obtain ⟨ns, s, rfl⟩ := h
  cases t <;> rfl

/-- a property of handlers (with the key they are kept under) and one of finished values (by field name) -/
structure Inv (env : Env) where
  /-- the kinds of messages it is about -/
  K : MsgKind → Prop
  /-- of every handler -/
  I : Str → Handler → Prop
  /-- of those that have been kept -/
  J : Str → Handler → Prop
  /-- key, name, value -/
  V : Str → Str → Val → Prop
  new : ∀ name, I (lower name) (mkHandler ((findHandlerClass name).getD .unknownField) name)
  pre : ∀ k h kind add, K kind → I k h → I k (h.preCheck kind add).1
  refused : ∀ k h kind add, K kind → I k h → (h.preCheck kind add).2.1 = false → J k (h.preCheck kind add).1
  inp : ∀ k h kind add (c : Ctx) v o, K kind → c.env = env → I k h → c.msg.kind = kind →
    (h.preCheck kind add).2.1 = true → I k ((h.preCheck kind add).1.handleInput c v o).1 ∧ J k ((h.preCheck kind add).1.handleInput c v o).1
  fin : ∀ k h (c : Ctx) add, c.env = env → I k h → J k h → (I k (h.finish c add).1 ∧ J k (h.finish c add).1) ∧
    ((h.finish c add).2.res = .ok () → V k (h.finish c add).1.normName (h.finish c add).1.value)

/-- the invariant holds of a section -/
structure Inv.Holds {env} (i : Inv env) (s : Section) : Prop where
  hs : ∀ p ∈ s.handlers, i.I p.1 p.2 ∧ i.J p.1 p.2
  keys : ∀ p ∈ s.handlers, ∃ q ∈ s.text, lower q.1 = p.1
  ps : ∀ p ∈ s.parsed, ∃ q ∈ s.text, i.V (lower q.1) p.1 p.2

theorem dset_inv {β} {P : Str → β → Prop} {d : Dict β} (h : ∀ p ∈ d, P p.1 p.2) {k : Str} {v : β} (hv : P k v) :
    ∀ p ∈ dset d k v, P p.1 p.2 := by
  intro p hp
  rcases mem_dset hp with rfl | hp
  · exact hv
  · exact h p hp

variable {env : Env} (i : Inv env)

theorem Inv.Holds.find {i : Inv env} {s : Section} (h : i.Holds s) (name : Str) :
    i.I (lower name) (findHandler s.handlers name) := by
  unfold findHandler
  split
  · exact (h.hs _ (dget_mem ‹_›)).1
  · exact i.new name

theorem Inv.line {i : Inv env} (related t) (m : Msg) (o : Nat) (l : Str × Str) (hK : i.K m.kind) (h : i.Holds (m.section t)) :
    i.Holds ((processLine env related t m o l).1.section t) := by
  obtain ⟨name, value⟩ := l
  rw [processLine_eq]
  have h0 := h.find (decodeName name)
  have h1 := i.pre _ _ m.kind (m.adder (offsetSubject o) [(str "field_name", .str (lineHandler t m name).canonicalName)]) hK h0
  have mk : ∀ hd, i.I (lineKey name) hd ∧ i.J (lineKey name) hd → i.Holds (recorded (m.section t) name value hd) :=
    fun hd hI => ⟨dset_inv (P := fun k v => i.I k v ∧ i.J k v) h.hs hI,
      dset_inv (P := fun k _ => ∃ q ∈ (recorded (m.section t) name value hd).text, lower q.1 = k)
        (fun p hp => let ⟨q, hq, e⟩ := h.keys p hp; ⟨q, List.mem_append_left _ hq, e⟩)
        ⟨(decodeName name, value), List.mem_append_right _ (List.mem_singleton.2 rfl), rfl⟩,
      fun p hp => let ⟨q, hq, e⟩ := h.ps p hp; ⟨q, List.mem_append_left _ hq, e⟩⟩
  by_cases hok : (lineCheck t m o name).2.1 = false
  · rw [if_pos hok]
    simp only [lineMid, section_addNotes, section_setSection]
    exact mk _ ⟨h1, i.refused _ _ m.kind (m.adder (offsetSubject o) [(str "field_name", .str (lineHandler t m name).canonicalName)]) hK h0 hok⟩
  · rw [if_neg hok]
    have h2 := i.inp _ _ m.kind (m.adder (offsetSubject o) [(str "field_name", .str (lineHandler t m name).canonicalName)])
      ⟨env, lineMid t m o name value, related⟩ value o hK rfl h0 (by unfold lineMid; exact setSection_kind ..) (by have h := eq_true_of_ne_false hok; exact h)
    dsimp only
    have h3 : i.I (lineKey name) (lineInput env related t m o name value).1 ∧ i.J (lineKey name) (lineInput env related t m o name value).1 := h2
    split
    · simp only [section_addNotes, section_setSection]; exact mk _ h3
    · simp only [section_addNotes, section_setSection]; exact mk _ h3

theorem Inv.lines {i : Inv env} (related t) (ls : List (Str × Str)) (o : Nat) (m : Msg) (hK : i.K m.kind) (h : i.Holds (m.section t)) :
    i.Holds ((processLines env related t ls o m).1.section t) := by
  induction ls generalizing o m with
  | nil => exact h
  | cons l ls ih =>
    unfold processLines
    have h1 := Inv.line related t m o l hK h
    have h2 := Ext.kind (processLine_ext env related t m o l)
    split <;> rename_i heq <;> rw [heq] at h1 h2
    · exact h1
    · exact ih _ _ (by rw [h2]; exact hK) h1

theorem Inv.finishOne {i : Inv env} (related t) (m : Msg) (k : Str) (h : i.Holds (m.section t)) :
    i.Holds ((finishHandler env related t m k).1.section t) := by
  unfold finishHandler
  split
  · exact h
  · rename_i hd hk
    have h1 := i.fin k hd ⟨env, m, related⟩ (m.fieldAdder t hd) rfl (h.hs _ (dget_mem hk)).1 (h.hs _ (dget_mem hk)).2
    generalize hd.finish ⟨env, m, related⟩ (m.fieldAdder t hd) = hw at *
    obtain ⟨h', w⟩ := hw
    dsimp only at *
    cases hr : w.res with
    | error e =>
      simp only [section_addNotes, section_setSection]
      exact ⟨dset_inv (P := fun k v => i.I k v ∧ i.J k v) h.hs h1.1, dset_inv (P := fun k _ => ∃ q ∈ (m.section t).text, lower q.1 = k) h.keys (h.keys _ (dget_mem hk)), h.ps⟩
    | ok u =>
      simp only [section_addNotes, section_setSection]
      refine ⟨dset_inv (P := fun k v => i.I k v ∧ i.J k v) h.hs h1.1, dset_inv (P := fun k _ => ∃ q ∈ (m.section t).text, lower q.1 = k) h.keys (h.keys _ (dget_mem hk)),
        dset_inv (P := fun n v => ∃ q ∈ (m.section t).text, i.V (lower q.1) n v) h.ps ?_⟩
      obtain ⟨q, hq, e⟩ := h.keys _ (dget_mem hk)
      exact ⟨q, hq, by rw [e]; exact h1.2 hr⟩

theorem Inv.finishAll {i : Inv env} (related t) (ks : List Str) (m : Msg) (h : i.Holds (m.section t)) :
    i.Holds ((finishHandlers env related t ks m).1.section t) := by
  induction ks generalizing m with
  | nil => exact h
  | cons k ks ih =>
    unfold finishHandlers
    have h1 := Inv.finishOne related t m k h
    split <;> rename_i heq <;> rw [heq] at h1
    · exact h1
    · exact ih _ h1

theorem Inv.sect {i : Inv env} (related t) (ls : List (Str × Str)) (m : Msg) (hK : i.K m.kind) (h : i.Holds (m.section t)) :
    i.Holds ((processSection env related t ls m).1.section t) := by
  unfold processSection
  have h1 := Inv.lines related t ls 0 m hK h
  split <;> rename_i heq <;> rw [heq] at h1
  · exact h1
  · exact Inv.finishAll _ _ _ _ (by simpa using h1)

theorem ext_other {t m m'} (h : Ext t m m') : m'.section (!t) = m.section (!t) := by
  obtain ⟨ns, s, rfl⟩ := h
  cases t <;> rfl

/-- it holds of both sections -/
def Inv.Msg {env} (i : Inv env) (m : Msg) : Prop := ∀ t, i.Holds (m.section t)

theorem Inv.sectMsg {i : Inv env} (related t) (ls : List (Str × Str)) (m : HL.Msg) (hK : i.K m.kind) (h : i.Msg m) :
    i.Msg (processSection env related t ls m).1 := by
  intro t'
  by_cases ht : t' = t
  · subst ht; exact Inv.sect _ _ _ _ hK (h _)
  · have : t' = !t := by cases t <;> cases t' <;> simp_all
    subst this
    rw [ext_other (processSection_ext ..)]
    exact h _

theorem Inv.same {i : Inv env} {m m' : HL.Msg} (h : i.Msg m) (h1 : m'.headers = m.headers) (h2 : m'.trailers = m.trailers) :
    i.Msg m' := by
  intro t
  have := h t
  cases t
  · show i.Holds m'.headers; rw [h1]; exact this
  · show i.Holds m'.trailers; rw [h2]; exact this

end HL.Props
