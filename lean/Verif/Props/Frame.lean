import Verif.Props.Basic

/-!
# What processing a field section can change: the notes (at the end) and that section
-/

namespace HL.Props

/-- `m'` is `m` with notes added at the end and one field section replaced -/
def Ext (trailer : Bool) (m m' : Msg) : Prop := ∃ ns s, m' = (m.setSection trailer s).addNotes ns

theorem setSection_self (t : Bool) (m : Msg) : m.setSection t (m.section t) = m := by
  cases t <;> rfl

theorem addNotes_nil (m : Msg) : m.addNotes [] = m := by simp [Msg.addNotes]

theorem addNotes_addNotes (m : Msg) (a b : List Note) : (m.addNotes a).addNotes b = m.addNotes (a ++ b) := by
  simp [Msg.addNotes]

theorem setSection_addNotes (t : Bool) (m : Msg) (ns s) :
    (m.addNotes ns).setSection t s = (m.setSection t s).addNotes ns := by cases t <;> rfl

theorem setSection_setSection (t : Bool) (m : Msg) (s s') :
    (m.setSection t s).setSection t s' = m.setSection t s' := by cases t <;> rfl

@[simp] theorem section_addNotes (t : Bool) (m : Msg) (ns) : (m.addNotes ns).section t = m.section t := by
  cases t <;> rfl

@[simp] theorem section_setSection (t : Bool) (m : Msg) (s) : (m.setSection t s).section t = s := by
  cases t <;> rfl

theorem Ext.refl (t : Bool) (m : Msg) : Ext t m m :=
  ⟨[], m.section t, by rw [setSection_self, addNotes_nil]⟩

theorem Ext.trans {t : Bool} {a b c : Msg} (h1 : Ext t a b) (h2 : Ext t b c) : Ext t a c := by
  obtain ⟨n1, s1, rfl⟩ := h1
  obtain ⟨n2, s2, rfl⟩ := h2
  exact ⟨n1 ++ n2, s2, by rw [setSection_addNotes, setSection_setSection, addNotes_addNotes]⟩

theorem Ext.add (t : Bool) (m : Msg) (ns) : Ext t m (m.addNotes ns) :=
  ⟨ns, m.section t, by rw [setSection_self]⟩

theorem Ext.set (t : Bool) (m : Msg) (s) : Ext t m (m.setSection t s) := ⟨[], s, by rw [addNotes_nil]⟩

theorem processLine_ext (env related t) (m : Msg) (o : Nat) (l : Str × Str) :
    Ext t m (processLine env related t m o l).1 := by
  obtain ⟨name, value⟩ := l
  unfold processLine
  dsimp only
  generalize (findHandler (m.section t).handlers (decodeName name)) = h
  generalize hn : ((if nonAscii name = true then _ else _ : List Note) ++ _) = notes
  generalize hs : ({ isTrailer := _, text := _, parsed := _, size := _, handlers := dset _ _ h } : Section) = sec
  have e1 : Ext t m ((m.addNotes notes).setSection t sec) := (Ext.add t m _).trans (Ext.set t _ _)
  generalize (m.addNotes notes).setSection t sec = m1 at *
  generalize hp : Handler.preCheck _ _ h = p
  obtain ⟨h1, ok, ns⟩ := p
  dsimp only
  have e2 := e1.trans ((Ext.add t m1 ns).trans (Ext.set t _
    { (m1.addNotes ns).section t with handlers := dset ((m1.addNotes ns).section t).handlers (lower (decodeName name)) h1 }))
  generalize ((m1.addNotes ns).setSection t _) = m2 at *
  split
  · exact e2
  · generalize h1.handleInput ⟨env, m2, related⟩ value o = hw
    obtain ⟨h2, w⟩ := hw
    dsimp only
    have e3 := e2.trans ((Ext.add t m2 w.notes).trans (Ext.set t _
      { (m2.addNotes w.notes).section t with handlers := dset ((m2.addNotes w.notes).section t).handlers (lower (decodeName name)) h2 }))
    generalize ((m2.addNotes w.notes).setSection t _) = m3 at *
    split
    · exact e3
    · exact e3.trans (Ext.add t _ _)

theorem processLines_ext (env related t) (ls : List (Str × Str)) (o : Nat) (m : Msg) :
    Ext t m (processLines env related t ls o m).1 := by
  induction ls generalizing o m with
  | nil => exact Ext.refl t m
  | cons l ls ih =>
    unfold processLines
    have h := processLine_ext env related t m o l
    split <;> rename_i heq <;> rw [heq] at h
    · exact h
    · exact h.trans (ih _ _)

theorem finishHandler_ext (env related t) (m : Msg) (k : Str) :
    Ext t m (finishHandler env related t m k).1 := by
  unfold finishHandler
  split
  · exact Ext.refl t m
  · generalize Handler.finish _ _ _ = hw
    obtain ⟨h', w⟩ := hw
    dsimp only
    split
    · exact (Ext.add t m _).trans (Ext.set t _ _)
    · exact (Ext.add t m _).trans (Ext.set t _ _)

theorem finishHandlers_ext (env related t) (ks : List Str) (m : Msg) :
    Ext t m (finishHandlers env related t ks m).1 := by
  induction ks generalizing m with
  | nil => exact Ext.refl t m
  | cons l ls ih =>
    unfold finishHandlers
    have h := finishHandler_ext env related t m l
    split <;> rename_i heq <;> rw [heq] at h
    · exact h
    · exact h.trans (ih _)

theorem processSection_ext (env related t) (ls : List (Str × Str)) (m : Msg) :
    Ext t m (processSection env related t ls m).1 := by
  unfold processSection
  have h := processLines_ext env related t ls 0 m
  split <;> rename_i heq <;> rw [heq] at h
  · exact h
  · exact (h.trans (Ext.add t _ _)).trans (finishHandlers_ext env related t _ _)

end HL.Props
