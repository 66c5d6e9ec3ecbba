import Verif.Props.Handlers
import Verif.Props.Reach
import Verif.Props.History

/-!
# Only `process_headers` and (with trailers) `finish_content` change the field sections
-/

namespace HL.Props

/-- the same field sections, and kind -/
def SameSections (m m' : Msg) : Prop := m'.headers = m.headers ∧ m'.trailers = m.trailers ∧ m'.kind = m.kind

theorem SameSections.refl (m) : SameSections m m := ⟨rfl, rfl, rfl⟩
theorem SameSections.trans {a b c} (h1 : SameSections a b) (h2 : SameSections b c) : SameSections a c :=
  ⟨h2.1.trans h1.1, h2.2.1.trans h1.2.1, h2.2.2.trans h1.2.2⟩
theorem OnlyNotes.sections {m m'} (h : OnlyNotes m m') : SameSections m m' := by
  obtain ⟨_, _, _, rfl⟩ := h; exact ⟨rfl, rfl, rfl⟩

theorem setUri_sections (env iri) (m : Msg) : SameSections m (m.setUri env iri).1 := by
  unfold Msg.setUri
  dsimp only
  split
  · split <;> exact ⟨rfl, rfl, rfl⟩
  · exact ⟨rfl, rfl, rfl⟩

theorem requestTopline_sections (env me i v) (m : Msg) : SameSections m (m.requestTopline env me i v).1 := by
  unfold Msg.requestTopline
  split
  · exact .refl _
  · have := setUri_sections env (utf8Replace i) { m with method := some (asciiReplace me) }
    generalize Msg.setUri _ _ _ = r at this
    obtain ⟨m1, x⟩ := r
    cases x <;> exact this

theorem responseTopline_sections (v s p) (m : Msg) : SameSections m (m.responseTopline v s p).1 := by
  unfold Msg.responseTopline
  split
  · exact .refl _
  · dsimp only
    split <;> split <;> first | exact ⟨rfl, rfl, rfl⟩ | (split <;> exact ⟨rfl, rfl, rfl⟩)

theorem sinks_sections (out : List Str) (m : Msg) : SameSections m (out.foldl Msg.sink m) := by
  induction out generalizing m with
  | nil => exact .refl m
  | cons c out ih => exact SameSections.trans ⟨rfl, rfl, rfl⟩ (ih _)

theorem feedContent_sections (env chunk) (m : Msg) : SameSections m (m.feedContent env chunk).1 := by
  unfold Msg.feedContent
  dsimp only
  split
  · exact ⟨rfl, rfl, rfl⟩
  · unfold Msg.decodeFeed
    dsimp only
    split
    · exact ⟨rfl, rfl, rfl⟩
    · split
      · exact ⟨rfl, rfl, rfl⟩
      · have key : ∀ ns (out : List Str) (p : DecState), SameSections m { (out.foldl Msg.sink (Msg.addNotes
              { m with contentLength := m.contentLength + chunk.length, hashed := m.hashed ++ chunk } ns)) with decoded := p } := by
          intro ns out p
          have h := sinks_sections out (Msg.addNotes
              { m with contentLength := m.contentLength + chunk.length, hashed := m.hashed ++ chunk } ns)
          exact ⟨h.1, h.2.1, h.2.2⟩
        exact key _ _ _

theorem processHeaders_sections (env related ls) (m : Msg) :
    SameSections (processSection env related false ls m).1 (m.processHeaders env related ls).1 := by
  unfold Msg.processHeaders
  generalize processSection _ _ _ _ _ = r
  obtain ⟨m1, x⟩ := r
  cases x with
  | error e => exact .refl _
  | ok u =>
    unfold Run.andThen
    dsimp only
    obtain ⟨ce, e⟩ := setCharset_same env m1
    rw [e]
    exact ⟨rfl, rfl, rfl⟩

/-- the message that `finish_content` processes the trailers of -/
def finishStart (env : Env) (co : Bool) (m : Msg) : Msg := { m with complete := co, contentHash := some (env.md5 m.hashed) }

theorem finishContent_sections (env related co ts) (m : Msg) :
    SameSections (if ts.isEmpty then (finishStart env co m, .ok ()) else processSection env related true ts (finishStart env co m) : Run Unit).1
      (m.finishContent env related co ts).1.1 := by
  unfold Msg.finishContent
  dsimp only
  unfold finishStart
  generalize ({ m with complete := co, contentHash := some (env.md5 m.hashed) } : Msg) = m0
  generalize (if ts.isEmpty then (m0, .ok ()) else processSection env related true ts m0 : Run Unit) = r
  obtain ⟨m1, x⟩ := r
  cases x with
  | error e => exact .refl _
  | ok u =>
    dsimp only
    generalize hm2 : ({ m1 with decoded := { m1.decoded with hash := some (env.md5 m1.decoded.hashed) } } : Msg) = m2
    have h2 : SameSections m1 m2 := by rw [← hm2]; exact ⟨rfl, rfl, rfl⟩
    refine h2.trans ?_
    refine SameSections.trans (b := m2.addNotes (lengthNotes m2)) ⟨rfl, rfl, rfl⟩ ?_
    have h3 := postChecks_only env related (m2.addNotes (lengthNotes m2))
    generalize postChecks _ _ _ = pc at h3
    obtain ⟨r, rn⟩ := pc
    dsimp only
    exact (andThen_only h3 fun m4 _ => andThen_only (postCheckHandlers_only _ _ _ _ _) fun m5 _ => postCheckHandlers_only _ _ _ _ _).sections

theorem Op.run_kind (env : Env) (op : Op) (w : World) : (op.run env w).1.msg.kind = w.msg.kind := by
  cases op with
  | requestTopline me i v => exact (requestTopline_sections ..).2.2
  | responseTopline v s p => exact (responseTopline_sections ..).2.2
  | headers ls => exact (processHeaders_sections ..).2.2.trans (processSection_ext ..).kind
  | feed c => exact (feedContent_sections ..).2.2
  | finish c ts =>
    refine (finishContent_sections env w.related c ts w.msg).2.2.trans ?_
    split
    · rfl
    · exact (processSection_ext ..).kind

theorem Op.runAll_kind (env : Env) (ops : List Op) (w : World) : (Op.runAll env ops w).msg.kind = w.msg.kind := by
  induction ops generalizing w with
  | nil => rfl
  | cons op ops ih => exact (ih _).trans (Op.run_kind env op w)

theorem Inv.op {env} (i : Inv env) (op : Op) (w : World) (hK : i.K w.msg.kind) (h : i.Msg w.msg) : i.Msg (op.run env w).1.msg := by
  have same : ∀ {m m'}, i.Msg m → SameSections m m' → i.Msg m' := fun h hs => Inv.same h hs.1 hs.2.1
  cases op with
  | requestTopline me i v => exact same h (requestTopline_sections ..)
  | responseTopline v s p => exact same h (responseTopline_sections ..)
  | headers ls => exact same (Inv.sectMsg _ _ _ _ hK h) (processHeaders_sections ..)
  | feed c => exact same h (feedContent_sections ..)
  | finish c ts =>
    refine same ?_ (finishContent_sections env w.related c ts w.msg)
    have h0 : i.Msg (finishStart env c w.msg) := same h ⟨rfl, rfl, rfl⟩
    split
    · exact h0
    · exact Inv.sectMsg _ _ _ _ hK h0

theorem Inv.runAll {env} (i : Inv env) (ops : List Op) (w : World) (hK : i.K w.msg.kind) (h : i.Msg w.msg) : i.Msg (Op.runAll env ops w).msg := by
  induction ops generalizing w with
  | nil => exact h
  | cons op ops ih => exact ih _ (by rw [Op.run_kind]; exact hK) (i.op op w hK h)

/-- an invariant holds of every linter of the right kind -/
theorem Inv.reachable {env} (i : Inv env) {m : HL.Msg} (h : Reachable env m) (hK : i.K m.kind) : i.Msg m := by
  obtain ⟨kind, start, nc, head, related, ops, rfl⟩ := h
  refine i.runAll _ _ (by rw [Op.runAll_kind] at hK; exact hK) fun t => ?_
  cases t <;> exact ⟨by intro p hp; simp [fresh, Msg.new, Msg.section] at hp, by intro p hp; simp [fresh, Msg.new, Msg.section] at hp, by intro p hp; simp [fresh, Msg.new, Msg.section] at hp⟩

end HL.Props
