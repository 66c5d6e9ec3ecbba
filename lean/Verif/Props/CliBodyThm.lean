import Verif.Props.CliThm

/-!
# Bodies, and whole runs of the command line (C72, C73)
-/

namespace HL.Props
open HL.Cli

/-- C72, requests: the framing parser is told to expect a body exactly when `Content-Length` says there is one, or `Transfer-Encoding` is there -/
theorem C72_request_body (env : Env) (startTime : Option Rat) (topLine : Str) (hdrs : List (Str × Str)) (codes : List Str) (cl : Option Int)
    (m : Msg) (allows final : Bool) (h : inputStart env (.enum .request) startTime topLine hdrs codes cl = .ok (m, allows, final)) :
    (allows = true ↔ (∃ n, cl = some n ∧ 0 < n) ∨ codes ≠ []) ∧ final = true := by
  unfold inputStart at h
  dsimp only at h
  cases h1 : requestTopline topLine with
  | error e => rw [h1] at h; exact nomatch h
  | ok p =>
    obtain ⟨me, i, v⟩ := p
    rw [h1] at h
    dsimp only [bind, Except.bind] at h
    generalize (Run.andThen (Msg.requestTopline env me i v (Msg.new env .request startTime)) fun m _ => m.processHeaders env none hdrs) = r at h
    obtain ⟨m1, x⟩ := r
    cases x with
    | error e => exact nomatch h
    | ok u =>
      have h' : (Except.ok (m1, _, _) : Except Exn _) = Except.ok (m, allows, final) := h
      simp only [Except.ok.injEq, Prod.mk.injEq] at h'
      obtain ⟨_, rfl, rfl⟩ := h'
      refine ⟨?_, rfl⟩
      cases cl <;> cases codes <;> simp

/-- C72, responses: one is expected unless the status is 1xx, 204 or 304; and another message follows a 1xx one -/
theorem C72_response_body (env : Env) (startTime : Option Rat) (topLine : Str) (hdrs : List (Str × Str)) (codes : List Str) (cl : Option Int)
    (version code phrase : Str) (hl : StatusLine topLine version code phrase)
    (m : Msg) (allows final : Bool) (h : inputStart env (.enum .response) startTime topLine hdrs codes cl = .ok (m, allows, final)) :
    (allows = true ↔ code.head? ≠ some 49 ∧ code ≠ str "204" ∧ code ≠ str "304") ∧ (final = true ↔ code.head? ≠ some 49) := by
  unfold inputStart at h
  dsimp only at h
  rw [(C67_response ..).2 hl] at h
  dsimp only [bind, Except.bind] at h
  generalize (Run.andThen (Msg.responseTopline version code (some phrase) (Msg.new env .response startTime)) fun m _ => m.processHeaders env none hdrs) = r at h
  obtain ⟨m1, x⟩ := r
  cases x with
  | error e => exact nomatch h
  | ok u =>
    have h' : (Except.ok (m1, _, _) : Except Exn _) = Except.ok (m, allows, final) := h
    simp only [Except.ok.injEq, Prod.mk.injEq] at h'
    obtain ⟨_, rfl, rfl⟩ := h'
    have e : startsWith (str "1") code = true ↔ code.head? = some 49 := by
      cases code with
      | nil => simp [startsWith]
      | cons a r => simp [startsWith, List.isPrefixOf]; exact eq_comm
    cases hs : startsWith (str "1") code with
    | true => simp [e.1 hs, noBodyStatus]
    | false =>
      have : code.head? ≠ some 49 := fun h => by rw [e.2 h] at hs; cases hs
      simp [this, noBodyStatus]

/-- the calls the library gets for a response -/
def responseCalls (version code phrase : Str) (hdrs : List (Str × Str)) (chunks : List Str) (trailers : List (Str × Str)) : List Op :=
  [.responseTopline version code (some phrase), .headers hdrs] ++ chunks.map .feed ++ [.finish true trailers]

/-- these calls, one after another, and none of them raises -/
def RunsTo (env : Env) : List Op → World → World → Prop
  | [], w, w' => w = w'
  | op :: ops, w, w' => ∃ w1, op.run env w = (w1, .ok ()) ∧ RunsTo env ops w1 w'

theorem RunsTo.append {env : Env} {a b : List Op} {w w' : World} : RunsTo env (a ++ b) w w' ↔ ∃ w1, RunsTo env a w w1 ∧ RunsTo env b w1 w' := by
  induction a generalizing w with
  | nil => exact ⟨fun h => ⟨w, rfl, h⟩, fun ⟨w1, e, h⟩ => by cases e; exact h⟩
  | cons op a ih =>
    constructor
    · rintro ⟨w1, e, h⟩
      obtain ⟨w2, h1, h2⟩ := ih.1 h
      exact ⟨w2, ⟨w1, e, h1⟩, h2⟩
    · rintro ⟨w2, ⟨w1, e, h1⟩, h2⟩
      exact ⟨w1, e, ih.2 ⟨w2, h1, h2⟩⟩

theorem inputBody_feeds (env : Env) (rel : Option Msg) (chunks : List Str) (m m' : Msg) :
    inputBody env chunks m = (m', .ok ()) ↔ RunsTo env (chunks.map .feed) ⟨m, rel⟩ ⟨m', rel⟩ := by
  induction chunks generalizing m with
  | nil =>
    show ((m, Except.ok ()) : Run Unit) = (m', .ok ()) ↔ (⟨m, rel⟩ : World) = ⟨m', rel⟩
    simp
  | cons c cs ih =>
    show Run.andThen (m.feedContent env c) (fun m _ => inputBody env cs m) = _ ↔ ∃ w1, Op.run env (.feed c) ⟨m, rel⟩ = (w1, .ok ()) ∧ _
    simp only [Op.run]
    generalize m.feedContent env c = r
    obtain ⟨m1, x⟩ := r
    cases x with
    | error e =>
      unfold Run.andThen
      constructor
      · intro h; cases h
      · rintro ⟨_, h, _⟩; cases h
    | ok u =>
      unfold Run.andThen
      dsimp only
      rw [ih]
      constructor
      · exact fun h => ⟨_, rfl, h⟩
      · rintro ⟨_, h, h2⟩
        cases h
        exact h2

theorem sorted_unique {α : Type} {R : α → α → Prop} (ha : ∀ a b, R a b → R b a → a = b) : ∀ {l l' : List α}, l.Nodup → l'.Nodup → l.Pairwise R → l'.Pairwise R →
    (∀ x, x ∈ l ↔ x ∈ l') → l = l'
  | [], l', _, _, _, _, h => by
    cases l' with
    | nil => rfl
    | cons b l' => exact absurd ((h b).2 (List.mem_cons_self ..)) (by simp)
  | a :: l, [], _, _, _, _, h => absurd ((h a).1 (List.mem_cons_self ..)) (by simp)
  | a :: l, b :: l', n, n', p, p', h => by
    obtain ⟨na, n⟩ := List.nodup_cons.1 n
    obtain ⟨nb, n2⟩ := List.nodup_cons.1 n'
    obtain ⟨pa, p⟩ := List.pairwise_cons.1 p
    obtain ⟨pb, p2⟩ := List.pairwise_cons.1 p'
    have e : a = b := by
      rcases List.mem_cons.1 ((h a).1 (List.mem_cons_self ..)) with e | ha'
      · exact e
      rcases List.mem_cons.1 ((h b).2 (List.mem_cons_self ..)) with e | hb'
      · exact e.symm
      exact ha a b (pa b hb') (pb a ha')
    subst e
    suffices key : ∀ x, x ∈ l ↔ x ∈ l' by rw [sorted_unique ha n n2 p p2 key]
    intro x
    have hx := h x
    simp only [List.mem_cons] at hx
    constructor
    · intro hm
      rcases hx.1 (.inr hm) with rfl | h'
      · exact absurd hm na
      · exact h'
    · intro hm
      rcases hx.2 (.inr hm) with rfl | h'
      · exact absurd hm nb
      · exact h'

theorem output_iff (notes : List Note) (lines : List Cli.Line) : lines = output notes ↔
    ∃ cats : List Cat, cats.Nodup ∧ (∀ c, c ∈ cats ↔ ∃ n ∈ notes, n.category = c) ∧
        cats.Pairwise (fun a b => strLe (catValue a) (catValue b) = true) ∧ lines = cats.flatMap (block notes) := by
  obtain ⟨cats, h1, h2, h3, h4⟩ := C66_output notes
  constructor
  · rintro rfl
    exact ⟨cats, h1, h2, h3, h4⟩
  · rintro ⟨cats', k1, k2, k3, rfl⟩
    have ha : ∀ a b : Cat, strLe (catValue a) (catValue b) = true → strLe (catValue b) (catValue a) = true → a = b := by
      intro a b
      cases a <;> cases b <;> decide
    rw [h4, sorted_unique ha h1 k1 h3 k3 fun x => (h2 x).trans (k2 x).symm]

theorem feeds_related {env : Env} {chunks : List Str} {w w' : World} (h : RunsTo env (chunks.map .feed) w w') : w'.related = w.related := by
  induction chunks generalizing w with
  | nil => cases h; rfl
  | cons c cs ih =>
    obtain ⟨w1, e, h⟩ := h
    rw [ih h]
    simp only [Op.run] at e
    exact (congrArg (fun x => x.1.related) e).symm

/-- C73: on a well-formed response (mode not given) the command line prints exactly the notes that the library finds in that response, grouped by
category, and raises if the library does -/
theorem C73_prints_findings (env : Env) (startTime : Option Rat) (topLine : Str) (hdrs : List (Str × Str)) (codes : List Str) (cl : Option Int)
    (chunks : List Str) (trailers : List (Str × Str)) (version code phrase : Str) (hl : StatusLine topLine version code phrase) (lines : List Cli.Line) :
    lintText env none startTime topLine hdrs codes cl chunks trailers = some (.ok lines) ↔
    ∃ w, RunsTo env (responseCalls version code phrase hdrs (if code.head? ≠ some 49 ∧ code ≠ str "204" ∧ code ≠ str "304" then chunks else []) trailers)
        ⟨Msg.new env .response startTime, none⟩ w ∧
      ∃ cats : List Cat, cats.Nodup ∧ (∀ c, c ∈ cats ↔ ∃ n ∈ w.msg.notes, n.category = c) ∧
        cats.Pairwise (fun a b => strLe (catValue a) (catValue b) = true) ∧ lines = cats.flatMap (block w.msg.notes) := by
  have hal := C72_response_body env startTime topLine hdrs codes cl version code phrase hl
  unfold lintText
  rw [show modeOf none = some (.enum .response) from rfl]
  simp only [Option.map_some, Option.some.injEq]
  unfold inputStart at hal ⊢
  dsimp only at hal ⊢
  rw [(C67_response ..).2 hl] at hal ⊢
  dsimp only [bind, Except.bind] at hal ⊢
  unfold responseCalls
  simp only [RunsTo.append]
  simp only [RunsTo, Op.run]
  generalize Msg.responseTopline version code (some phrase) (Msg.new env .response startTime) = r at hal ⊢
  obtain ⟨m1, x⟩ := r
  cases x with
  | error e =>
    constructor
    · intro h; cases h
    · rintro ⟨w, ⟨w1, ⟨w2, ⟨w3, h, _⟩, _⟩, _⟩, _⟩; cases h
  | ok u =>
  unfold Run.andThen at hal ⊢
  dsimp only at hal ⊢
  cases hph : m1.processHeaders env none hdrs with
  | mk m2 x =>
  rw [hph] at hal
  cases x with
  | error e =>
    constructor
    · intro h; cases h
    · rintro ⟨w, ⟨w1, ⟨w2, ⟨w3, h, w4, h2, _⟩, _⟩, _⟩, _⟩
      cases h
      dsimp only at h2
      rw [hph] at h2
      cases h2
  | ok u =>
  dsimp only at hal ⊢
  have hb := (hal m2 _ _ rfl).1
  have hif : (if (!startsWith (str "1") code && !noBodyStatus.contains code) = true then chunks else []) =
      if code.head? ≠ some 49 ∧ code ≠ str "204" ∧ code ≠ str "304" then chunks else [] := by
    by_cases hc : code.head? ≠ some 49 ∧ code ≠ str "204" ∧ code ≠ str "304"
    · rw [if_pos hc, if_pos (hb.2 hc)]
    · rw [if_neg hc, if_neg (fun h => hc (hb.1 h))]
  dsimp only [pure, Except.pure]
  rw [hif]
  generalize (if code.head? ≠ some 49 ∧ code ≠ str "204" ∧ code ≠ str "304" then chunks else []) = body
  constructor
  · intro h
    cases hi : inputBody env body m2 with
    | mk m3 x =>
    rw [hi] at h
    cases x with
    | error e => cases h
    | ok u =>
    dsimp only at h
    cases hf : m3.finishContent env none true trailers with
    | mk r ns =>
    obtain ⟨m4, x⟩ := r
    rw [hf] at h
    cases x with
    | error e => cases h
    | ok u =>
    cases h
    refine ⟨⟨m4, none⟩, ⟨⟨m3, none⟩, ⟨⟨m2, none⟩, ⟨⟨m1, none⟩, rfl, ⟨m2, none⟩, by rw [hph], rfl⟩, (inputBody_feeds ..).1 hi⟩, ⟨m4, none⟩, by dsimp only; rw [hf]; rfl, rfl⟩, ?_⟩
    exact (output_iff _ _).1 rfl
  · rintro ⟨w, ⟨w1, ⟨w2, ⟨w3, e1, w4, e2, e3⟩, e4⟩, w5, e5, e6⟩, h⟩
    cases e1
    dsimp only at e2
    rw [hph] at e2
    cases e2
    cases e3
    cases e6
    have hrel : w1.related = none := feeds_related e4
    obtain ⟨m3, rel⟩ := w1
    cases hrel
    rw [(inputBody_feeds env none body m2 m3).2 e4]
    dsimp only at e5 ⊢
    cases hf : m3.finishContent env none true trailers with
    | mk r ns =>
    obtain ⟨m4, x⟩ := r
    rw [hf] at e5
    cases x with
    | error e => cases e5
    | ok u =>
    cases e5
    rw [(output_iff _ _).2 h]

/-- such a run: a 304 response with a body that isn't read, and something is printed -/
example : (match lintText toyEnv none none (str "HTTP/1.1 304 Not Modified") [(str "Age", str "x")] [] none [str "hello"] [] with
    | some (.ok ls) => !ls.isEmpty | _ => false) = true := by decide +kernel

/-- and one of a request: two octets of body are announced -/
example : (match inputStart toyEnv (.enum .request) none (str "POST /a HTTP/1.1") [(str "Content-Length", str "2")] [] (some 2) with
    | .ok (_, a, f) => a && f | _ => false) = true := by decide +kernel

end HL.Props
