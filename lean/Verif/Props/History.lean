import Verif.Props.Frame
import Verif.Props.Decoding
import Verif.Props.Toy

/-!
# Properties of whole histories of API calls: C01, C24, C25, C32
-/

namespace HL.Props

/-! ### C01: notes are only ever appended -/

/-- the same note, perhaps with more sub-notes at the end -/
def SameNote (n n' : Note) : Prop := ∃ ks, n' = { n with subnotes := n.subnotes ++ ks }

/-- `new` is `old` (up to added sub-notes, position by position) followed by more notes -/
inductive Grows : List Note → List Note → Prop
  | done (added : List Note) : Grows [] added
  | cons {n n' : Note} {old new : List Note} : SameNote n n' → Grows old new → Grows (n :: old) (n' :: new)

theorem SameNote.refl (n : Note) : SameNote n n := ⟨[], by simp⟩
theorem SameNote.trans {a b c : Note} : SameNote a b → SameNote b c → SameNote a c := by
  rintro ⟨k, rfl⟩ ⟨l, rfl⟩; exact ⟨k ++ l, by simp⟩

theorem Grows.append (l ns : List Note) : Grows l (l ++ ns) := by
  induction l with
  | nil => exact .done _
  | cons n l ih => exact .cons (.refl n) ih

theorem Grows.refl (l : List Note) : Grows l l := by simpa using Grows.append l []

theorem Grows.trans {a b c : List Note} (h1 : Grows a b) (h2 : Grows b c) : Grows a c := by
  induction h1 generalizing c with
  | done => exact .done _
  | cons hs _ ih =>
    cases h2 with
    | cons hs' h2 => exact .cons (hs.trans hs') (ih h2)

theorem addToFirstCsp_grows (k) (ns ns' : List Note) (h : F.addToFirstCsp k ns = some ns') : Grows ns ns' := by
  induction ns generalizing ns' with
  | nil => simp [F.addToFirstCsp] at h
  | cons n ns ih =>
    unfold F.addToFirstCsp at h
    split at h
    · simp only [Option.some.injEq] at h
      subst h
      exact .cons ⟨_, rfl⟩ (Grows.refl _)
    · cases hr : F.addToFirstCsp k ns with
      | none => simp [hr] at h
      | some r =>
        simp only [hr, Option.map_some, Option.some.injEq] at h
        subst h
        exact .cons (.refl n) (ih _ hr)

theorem cspPostCheck_grows (c add ro h) (ns : List Note) : Grows ns (F.csp.postCheck c add ro h ns).1 := by
  unfold F.csp.postCheck
  split
  · exact Grows.refl _
  · split
    · exact Grows.refl _
    · rename_i missing hm
      clear hm
      dsimp only
      induction missing generalizing ns with
      | nil => exact Grows.refl _
      | cons e es ih =>
        simp only [List.foldl_cons]
        refine Grows.trans ?_ (ih _)
        split
        · exact addToFirstCsp_grows _ _ _ ‹_›
        · exact Grows.append _ _

theorem postCheck_grows (c add) (h : Handler) (ns : List Note) : Grows ns (h.postCheck c add ns).1 := by
  unfold Handler.postCheck appendW
  split <;> first
    | exact Grows.append _ _
    | exact cspPostCheck_grows _ _ _ _ _
    | exact Grows.refl _

/-- only the notes and the caching verdict can differ -/
def OnlyNotes (m m' : Msg) : Prop := Grows m.notes m'.notes ∧ ∃ ns ca, m' = { m with notes := ns, caching := ca }

theorem OnlyNotes.refl (m : Msg) : OnlyNotes m m := ⟨Grows.refl _, m.notes, m.caching, rfl⟩
theorem OnlyNotes.trans {a b c : Msg} : OnlyNotes a b → OnlyNotes b c → OnlyNotes a c := by
  rintro ⟨g1, n1, c1, rfl⟩ ⟨g2, n2, c2, rfl⟩; exact ⟨g1.trans g2, n2, c2, rfl⟩
theorem OnlyNotes.add (m : Msg) (ns) : OnlyNotes m (m.addNotes ns) :=
  ⟨Grows.append _ _, _, m.caching, rfl⟩

theorem andThen_only {α β} {m : Msg} {r : Run α} {f : Msg → α → Run β} (h : OnlyNotes m r.1)
    (hf : ∀ m a, OnlyNotes m (f m a).1) : OnlyNotes m (Run.andThen r f).1 := by
  obtain ⟨m1, x⟩ := r
  cases x with
  | error e => exact h
  | ok a => exact h.trans (hf _ _)

theorem postCheckHandlers_only (env related t) (hs : List Handler) (m : Msg) :
    OnlyNotes m (postCheckHandlers env related t hs m).1 := by
  induction hs generalizing m with
  | nil => exact .refl m
  | cons h hs ih =>
    unfold postCheckHandlers
    split
    · exact ih m
    · have hg := postCheck_grows ⟨env, m, related⟩ (m.fieldAdder t h) h m.notes
      generalize h.postCheck _ _ _ = p at hg
      obtain ⟨notes, r⟩ := p
      dsimp only
      have h1 : OnlyNotes m { m with notes := notes } := ⟨hg, notes, m.caching, rfl⟩
      cases r with
      | error e => exact h1
      | ok u => exact h1.trans (ih _)

theorem postChecks_only (env related) (m : Msg) : OnlyNotes m (postChecks env related m).1.1 := by
  unfold postChecks
  split
  · exact .add _ _
  · unfold responsePostChecks
    have h0 := OnlyNotes.add m (F.checkPreflightResponse ⟨env, m, related⟩ (m.adder [])).notes
    unfold Msg.runW
    cases (F.checkPreflightResponse ⟨env, m, related⟩ (m.adder [])).res with
    | error e => exact h0
    | ok u =>
      dsimp only
      refine h0.trans ?_
      generalize m.addNotes _ = m1
      generalize cacheCheck _ = cc
      obtain ⟨ca, w, rn⟩ := cc
      dsimp only
      have h1 : OnlyNotes m1 (match ca with | some st => { m1 with caching := some st } | none => m1) := by
        cases ca with
        | none => exact .refl _
        | some st => exact ⟨Grows.refl _, _, _, rfl⟩
      refine h1.trans ?_
      generalize (match ca with | some st => { m1 with caching := some st } | none => m1 : Msg) = m2
      refine andThen_only (OnlyNotes.add _ _) fun m3 _ => ?_
      refine andThen_only (OnlyNotes.add _ _) fun m4 _ => ?_
      split
      · exact .refl _
      · exact andThen_only (OnlyNotes.add _ _) fun m5 _ => OnlyNotes.add _ _

theorem Ext.grows {t : Bool} {m m' : Msg} (h : Ext t m m') : Grows m.notes m'.notes := by
  obtain ⟨ns, s, rfl⟩ := h
  cases t <;> exact Grows.append _ _

/-! #### each call -/

theorem setUri_grows (env iri) (m : Msg) : Grows m.notes (m.setUri env iri).1.notes := by
  unfold Msg.setUri
  dsimp only
  split
  · split
    · exact Grows.append _ _
    · exact Grows.refl _
  · rename_i uri _
    exact (Grows.append m.notes _).trans (Grows.append _ _)

theorem requestTopline_grows (env me i v) (m : Msg) : Grows m.notes (m.requestTopline env me i v).1.notes := by
  unfold Msg.requestTopline
  split
  · exact Grows.refl _
  · have := setUri_grows env (utf8Replace i) { m with method := some (asciiReplace me) }
    generalize Msg.setUri _ _ _ = r at this
    obtain ⟨m1, x⟩ := r
    cases x <;> exact this

theorem responseTopline_grows (v s p) (m : Msg) : Grows m.notes (m.responseTopline v s p).1.notes := by
  unfold Msg.responseTopline
  split
  · exact Grows.refl _
  · dsimp only
    have h1 : Grows m.notes (match pyInt (asciiReplace s) with
        | some n => { m with version := asciiReplace v, statusCodeStr := some (asciiReplace s), statusCode := some n }
        | none => ({ m with version := asciiReplace v, statusCodeStr := some (asciiReplace s) } : Msg).addNotes
            [((({ m with version := asciiReplace v, statusCodeStr := some (asciiReplace s) } : Msg).adder
              (str "status"))).mk1 .STATUS_CODE_NON_NUMERIC] : Msg).notes := by
      split
      · exact Grows.refl _
      · exact Grows.append _ _
    split
    · exact h1
    · split
      · exact h1
      · exact h1.trans (Grows.append _ _)

theorem setCharset_notes (env) (m : Msg) : ((m.setCharset env).1).notes = m.notes := by
  unfold Msg.setCharset
  repeat' (first | rfl | split)

theorem processHeaders_grows (env related ls) (m : Msg) : Grows m.notes (m.processHeaders env related ls).1.notes := by
  unfold Msg.processHeaders
  have h := (processSection_ext env related false ls m).grows
  generalize processSection _ _ _ _ _ = r at h
  obtain ⟨m1, x⟩ := r
  cases x with
  | error e => exact h
  | ok u => unfold Run.andThen; dsimp only; rw [setCharset_notes]; exact h

theorem sinks_notes (out : List Str) (m : Msg) : (out.foldl Msg.sink m).notes = m.notes := by
  induction out generalizing m with
  | nil => rfl
  | cons c out ih => rw [List.foldl_cons, ih]; rfl

theorem feedContent_grows (env chunk) (m : Msg) : Grows m.notes (m.feedContent env chunk).1.notes := by
  unfold Msg.feedContent
  dsimp only
  split
  · exact Grows.refl _
  · unfold Msg.decodeFeed
    dsimp only
    split
    · exact Grows.refl _
    · split
      · exact Grows.refl _
      · dsimp only; rw [sinks_notes]; exact Grows.append _ _

theorem finishContent_grows (env related c ts) (m : Msg) :
    Grows m.notes (m.finishContent env related c ts).1.1.notes := by
  unfold Msg.finishContent
  dsimp only
  generalize hm : ({ m with complete := c, contentHash := some (env.md5 m.hashed) } : Msg) = m0
  have h0 : m0.notes = m.notes := by rw [← hm]
  have h1 : Grows m.notes (if ts.isEmpty then (m0, .ok ()) else processSection env related true ts m0 : Run Unit).1.notes := by
    split
    · exact h0 ▸ Grows.refl _
    · rw [← h0]; exact (processSection_ext env related true ts m0).grows
  generalize (if ts.isEmpty then (m0, .ok ()) else processSection env related true ts m0 : Run Unit) = r at h1
  obtain ⟨m1, x⟩ := r
  cases x with
  | error e => exact h1
  | ok u =>
    refine h1.trans ?_
    dsimp only
    generalize hm2 : ({ m1 with decoded := { m1.decoded with hash := some (env.md5 m1.decoded.hashed) } } : Msg) = m2
    have h2 : m2.notes = m1.notes := by rw [← hm2]
    rw [← h2]
    refine (Grows.append m2.notes (lengthNotes m2)).trans ?_
    have h3 := postChecks_only env related (m2.addNotes (lengthNotes m2))
    generalize postChecks _ _ _ = pc at h3
    obtain ⟨r, rn⟩ := pc
    dsimp only
    refine (andThen_only h3 fun m4 _ => ?_).1
    refine andThen_only (postCheckHandlers_only _ _ _ _ _) fun m5 _ => postCheckHandlers_only _ _ _ _ _

/-- **C01**, one call: whatever the call and whether or not it raises, the notes that were there are still there,
in the same positions, perhaps with more sub-notes; new notes follow them.  The related message's notes only grow
at the end. -/
theorem C01_call_appends (env : Env) (op : Op) (w : World) :
    Grows w.msg.notes (op.run env w).1.msg.notes ∧
    ∀ r, w.related = some r → ∃ ns r', (op.run env w).1.related = some r' ∧ r'.notes = r.notes ++ ns := by
  cases op with
  | requestTopline me i v => exact ⟨requestTopline_grows _ _ _ _ _, fun r hr => ⟨[], r, hr, by simp⟩⟩
  | responseTopline v s p => exact ⟨responseTopline_grows _ _ _ _, fun r hr => ⟨[], r, hr, by simp⟩⟩
  | headers ls => exact ⟨processHeaders_grows _ _ _ _, fun r hr => ⟨[], r, hr, by simp⟩⟩
  | feed c => exact ⟨feedContent_grows _ _ _, fun r hr => ⟨[], r, hr, by simp⟩⟩
  | finish c ts =>
    refine ⟨finishContent_grows _ _ _ _ _, fun r hr => ?_⟩
    simp only [Op.run, hr, Option.map_some]
    exact ⟨_, _, rfl, rfl⟩

/-- **C01**: over any sequence of calls, notes are never lost, reordered or overwritten. -/
theorem C01_notes_only_grow (env : Env) (ops : List Op) (w : World) :
    Grows w.msg.notes (Op.runAll env ops w).msg.notes := by
  induction ops generalizing w with
  | nil => exact Grows.refl _
  | cons op ops ih => exact (C01_call_appends env op w).1.trans (ih _)

/-- what `Grows` gives a user: every earlier position still holds the same note -/
theorem Grows.get {old new : List Note} (h : Grows old new) {i : Nat} {n : Note} (hi : old[i]? = some n) :
    ∃ n', new[i]? = some n' ∧ n'.cls = n.cls ∧ n'.subject = n.subject ∧ n'.category = n.category ∧
      n'.vars = n.vars ∧ n.subnotes <+: n'.subnotes := by
  induction h generalizing i with
  | done => simp at hi
  | cons hs _ ih =>
    cases i with
    | zero =>
      obtain ⟨ks, rfl⟩ := hs
      simp at hi; subst hi
      exact ⟨_, rfl, rfl, rfl, rfl, rfl, List.prefix_append _ _⟩
    | succ i => exact ih (by simpa using hi)

/-- **C01**, as seen through `linter.notes[i]`: at every later time, position `i` holds a note with the same class,
subject, category and variables, and at least the sub-notes it had. -/
theorem C01_positions_kept (env : Env) (ops : List Op) (w : World) (i : Nat) (n : Note)
    (hi : w.msg.notes[i]? = some n) :
    ∃ n', (Op.runAll env ops w).msg.notes[i]? = some n' ∧ n'.cls = n.cls ∧ n'.subject = n.subject ∧
      n'.category = n.category ∧ n'.vars = n.vars ∧ n.subnotes <+: n'.subnotes :=
  (C01_notes_only_grow env ops w).get hi

end HL.Props
