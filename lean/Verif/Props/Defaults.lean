import Verif.Props.SectionThm
import Verif.Props.Values

/-!
# Every note of a linter tells the kind of message it is about

The defaults given to every note are fixed when the linter is made.
-/

namespace HL.Props

theorem setUri_defaults (env iri) (m : Msg) : (m.setUri env iri).1.defaults = m.defaults := by
  unfold Msg.setUri
  dsimp only
  split
  · split <;> rfl
  · rfl

theorem requestTopline_defaults (env me i v) (m : Msg) : (m.requestTopline env me i v).1.defaults = m.defaults := by
  unfold Msg.requestTopline
  split
  · rfl
  · have := setUri_defaults env (utf8Replace i) { m with method := some (asciiReplace me) }
    generalize Msg.setUri _ _ _ = r at this
    obtain ⟨m1, x⟩ := r
    cases x <;> exact this

theorem responseTopline_defaults (v s p) (m : Msg) : (m.responseTopline v s p).1.defaults = m.defaults := by
  unfold Msg.responseTopline
  split
  · rfl
  · dsimp only
    split <;> split <;> first | rfl | (split <;> rfl)

theorem sinks_defaults (out : List Str) (m : Msg) : (out.foldl Msg.sink m).defaults = m.defaults := by
  induction out generalizing m with
  | nil => rfl
  | cons c out ih => exact (ih _).trans rfl

theorem feedContent_defaults (env chunk) (m : Msg) : (m.feedContent env chunk).1.defaults = m.defaults := by
  unfold Msg.feedContent
  dsimp only
  split
  · rfl
  · unfold Msg.decodeFeed
    dsimp only
    split
    · rfl
    · split
      · rfl
      · exact sinks_defaults _ _

theorem OnlyNotes.defaults {m m'} (h : OnlyNotes m m') : m'.defaults = m.defaults := by
  obtain ⟨_, _, _, rfl⟩ := h; rfl

theorem processHeaders_defaults (env related ls) (m : Msg) : (m.processHeaders env related ls).1.defaults = m.defaults := by
  unfold Msg.processHeaders
  have h := ext_defaults (processSection_ext env related false ls m)
  generalize processSection _ _ _ _ _ = r at h
  obtain ⟨m1, x⟩ := r
  cases x with
  | error e => exact h
  | ok u =>
    unfold Run.andThen
    dsimp only
    obtain ⟨ce, e⟩ := setCharset_same env m1
    rw [e]
    exact h

theorem finishContent_defaults (env related co ts) (m : Msg) : (m.finishContent env related co ts).1.1.defaults = m.defaults := by
  unfold Msg.finishContent
  dsimp only
  have h : (if ts.isEmpty then (finishStart env co m, .ok ()) else processSection env related true ts (finishStart env co m) : Run Unit).1.defaults = m.defaults := by
    split
    · rfl
    · exact (ext_defaults (processSection_ext ..)).trans rfl
  change (match (if ts.isEmpty then (finishStart env co m, .ok ()) else processSection env related true ts (finishStart env co m) : Run Unit) with | (m, .error e) => _ | (m, .ok ()) => _ : Run Unit × List Note).1.1.defaults = _
  generalize (if ts.isEmpty then (finishStart env co m, .ok ()) else processSection env related true ts (finishStart env co m) : Run Unit) = r at *
  obtain ⟨m1, x⟩ := r
  cases x with
  | error e => exact h
  | ok u =>
    dsimp only at *
    generalize hm2 : ({ m1 with decoded := { m1.decoded with hash := some (env.md5 m1.decoded.hashed) } } : Msg) = m2
    have h2 : m2.defaults = m.defaults := by rw [← hm2]; exact h
    have h3 := postChecks_only env related (m2.addNotes (lengthNotes m2))
    generalize postChecks _ _ _ = pc at h3
    obtain ⟨r, rn⟩ := pc
    dsimp only
    exact (andThen_only h3 fun m4 _ => andThen_only (postCheckHandlers_only _ _ _ _ _) fun m5 _ => postCheckHandlers_only _ _ _ _ _).defaults.trans h2

theorem Op.run_defaults (env : Env) (op : Op) (w : World) : (op.run env w).1.msg.defaults = w.msg.defaults := by
  cases op with
  | requestTopline me i v => exact requestTopline_defaults ..
  | responseTopline v s p => exact responseTopline_defaults ..
  | headers ls => exact processHeaders_defaults ..
  | feed c => exact feedContent_defaults ..
  | finish c ts => exact finishContent_defaults ..

theorem Op.runAll_defaults (env : Env) (ops : List Op) (w : World) : (Op.runAll env ops w).msg.defaults = w.msg.defaults := by
  induction ops generalizing w with
  | nil => rfl
  | cons op ops ih => exact (ih _).trans (Op.run_defaults env op w)

theorem Reachable.defaults {env m} (h : Reachable env m) : m.defaults = [(str "message_type", .str (env.render.translate m.kind.name))] := by
  obtain ⟨kind, start, nc, head, related, ops, rfl⟩ := h
  rw [Op.runAll_defaults, Op.runAll_kind]
  rfl

theorem Linting.defaults {env m} (h : Linting env m) : m.defaults = [(str "message_type", .str (env.render.translate m.kind.name))] := by
  obtain ⟨r, hr, h⟩ := h
  rcases h with rfl | ⟨co, rfl⟩
  · exact hr.defaults
  · exact hr.defaults

end HL.Props
