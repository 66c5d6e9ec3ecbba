import Verif.Props.Feeding
import Verif.Props.Values
import Verif.Props.CaseHistory

/-!
# C120: how the content is cut into chunks does not matter
-/

namespace HL.Props

/-! ### the decompressors are not looked at -/

/-- the message with other decompressor objects -/
def withPipe (p : Option (List Decoder)) (m : Msg) : Msg := { m with decoded := { m.decoded with pipeline := p } }

/-- ... in a run -/
def runPiped {α} (p : Option (List Decoder)) (r : Run α) : Run α := (withPipe p r.1, r.2)

theorem withPipe_self (m : Msg) : withPipe m.decoded.pipeline m = m := rfl
theorem withPipe_withPipe (p q) (m : Msg) : withPipe p (withPipe q m) = withPipe p m := rfl
theorem withPipe_addNotes (p) (m : Msg) (ns) : (withPipe p m).addNotes ns = withPipe p (m.addNotes ns) := rfl
theorem withPipe_section (p) (m : Msg) (t) : (withPipe p m).section t = m.section t := rfl
theorem withPipe_setSection (p) (m : Msg) (t s) : (withPipe p m).setSection t s = withPipe p (m.setSection t s) := by
  cases t <;> rfl
theorem withPipe_adder (p) (m : Msg) (s b) : (withPipe p m).adder s b = m.adder s b := rfl
theorem withPipe_fieldAdder (p) (m : Msg) (t h) : (withPipe p m).fieldAdder t h = m.fieldAdder t h := rfl

section
variable {env : Env} {related : Option Msg} (p : Option (List Decoder)) (m : Msg)

theorem parse_piped (h : Handler) (add : AddNote) (v : Str) :
    h.parse ⟨env, withPipe p m, related⟩ add v = h.parse ⟨env, m, related⟩ add v := by
  unfold Handler.parse; split <;> rfl

theorem linkTokens_piped (lv : Str) (ts : List Str) :
    F.link.tokens ⟨env, withPipe p m, related⟩ lv ts = F.link.tokens ⟨env, m, related⟩ lv ts := by
  induction ts with
  | nil => rfl
  | cons t ts ih => unfold F.link.tokens; rw [ih]; rfl

theorem linkHints_piped (xs : List Val) :
    F.link.hints ⟨env, withPipe p m, related⟩ xs = F.link.hints ⟨env, m, related⟩ xs := by
  induction xs with
  | nil => rfl
  | cons x xs ih => unfold F.link.hints; simp only [ih, linkTokens_piped]

theorem link_piped (add : AddNote) (h : Handler) :
    F.link.evaluate ⟨env, withPipe p m, related⟩ add h = F.link.evaluate ⟨env, m, related⟩ add h := by
  unfold F.link.evaluate; simp only [linkHints_piped]

theorem features_piped (xs : List (Val × Val)) :
    F.permissions_policy.features ⟨env, withPipe p m, related⟩ xs = F.permissions_policy.features ⟨env, m, related⟩ xs := by
  induction xs with
  | nil => rfl
  | cons x xs ih => unfold F.permissions_policy.features; rw [ih]; rfl

theorem policy_piped (add : AddNote) (h : Handler) :
    F.permissions_policy.evaluate ⟨env, withPipe p m, related⟩ add h = F.permissions_policy.evaluate ⟨env, m, related⟩ add h := by
  unfold F.permissions_policy.evaluate; simp only [features_piped]

theorem evaluate_piped (h : Handler) (add : AddNote) :
    h.evaluate ⟨env, withPipe p m, related⟩ add = h.evaluate ⟨env, m, related⟩ add := by
  unfold Handler.evaluate; split <;> first
    | rfl
    | (rw [link_piped])
    | (rw [policy_piped])

theorem acceptCh_piped (add : AddNote) (h : Handler) :
    F.accept_ch.postCheck ⟨env, withPipe p m, related⟩ add h = F.accept_ch.postCheck ⟨env, m, related⟩ add h := by
  unfold F.accept_ch.postCheck
  simp only [acceptChMissing_rel (c := ⟨env, m, related⟩) (c' := ⟨env, withPipe p m, related⟩) rfl]
  rfl

theorem postCheck_piped (h : Handler) (add : AddNote) (ns : List Note) :
    h.postCheck ⟨env, withPipe p m, related⟩ add ns = h.postCheck ⟨env, m, related⟩ add ns := by
  unfold Handler.postCheck; split <;> first | rfl | (rw [acceptCh_piped])

theorem listLoop_piped (add : AddNote) (vs : List Str) :
    ∀ h : Handler, h.listLoop ⟨env, withPipe p m, related⟩ add vs = h.listLoop ⟨env, m, related⟩ add vs := by
  induction vs with
  | nil => intro h; rfl
  | cons v vs ih =>
    intro h
    unfold Handler.listLoop
    dsimp only
    rw [parse_piped]
    split
    · rfl
    · split
      · split
        · rw [ih]
        · rfl
      · split
        · rfl
        · rw [ih]

theorem handleInput_piped (h : Handler) (v : Str) (o : Nat) :
    h.handleInput ⟨env, withPipe p m, related⟩ v o = h.handleInput ⟨env, m, related⟩ v o := by
  unfold Handler.handleInput
  dsimp only
  rw [listLoop_piped]
  rfl

theorem evalAfter_piped (add : AddNote) (ns : List Note) (h : Handler) :
    h.evalAfter ⟨env, withPipe p m, related⟩ add ns = h.evalAfter ⟨env, m, related⟩ add ns := by
  unfold Handler.evalAfter; rw [evaluate_piped]

theorem brokenLoop_piped (rs : List (Str × Nat)) : ∀ (h : Handler) (acc : List Val),
    h.brokenLoop ⟨env, withPipe p m, related⟩ rs acc = h.brokenLoop ⟨env, m, related⟩ rs acc := by
  induction rs with
  | nil => intro h acc; rfl
  | cons r rs ih =>
    intro h acc
    obtain ⟨raw, o⟩ := r
    unfold Handler.brokenLoop
    dsimp only
    simp only [parse_piped, ih]
    rfl

theorem finish_piped (add : AddNote) (h : Handler) :
    h.finish ⟨env, withPipe p m, related⟩ add = h.finish ⟨env, m, related⟩ add := by
  unfold Handler.finish Handler.finishSingleton Handler.finishBroken Handler.finishSf Handler.finishJson
  simp only [parse_piped, brokenLoop_piped, evalAfter_piped]

theorem processLine_piped (t : Bool) (o : Nat) (l : Str × Str) :
    processLine env related t (withPipe p m) o l = runPiped p (processLine env related t m o l) := by
  obtain ⟨name, value⟩ := l
  rw [processLine_eq, processLine_eq]
  have hc : lineCheck t (withPipe p m) o name = lineCheck t m o name := rfl
  have hm : lineMid t (withPipe p m) o name value = withPipe p (lineMid t m o name value) := by
    unfold lineMid; rw [hc, withPipe_section, withPipe_setSection]; rfl
  have hi : lineInput env related t (withPipe p m) o name value = lineInput env related t m o name value := by
    unfold lineInput; rw [hc, hm, handleInput_piped]
  rw [hc, hm, hi]
  split
  · rfl
  · dsimp only
    rw [withPipe_section, withPipe_setSection]
    split <;> rfl

theorem processLines_piped (t : Bool) (ls : List (Str × Str)) : ∀ (o : Nat) (m : Msg),
    processLines env related t ls o (withPipe p m) = runPiped p (processLines env related t ls o m) := by
  induction ls with
  | nil => intro o m; rfl
  | cons l ls ih =>
    intro o m
    unfold processLines
    rw [processLine_piped]
    generalize processLine env related t m o l = r
    obtain ⟨m1, x⟩ := r
    cases x with
    | error e => rfl
    | ok o' => exact ih _ _

theorem finishHandler_piped (t : Bool) (k : Str) :
    finishHandler env related t (withPipe p m) k = runPiped p (finishHandler env related t m k) := by
  unfold finishHandler
  rw [withPipe_section]
  split
  · rfl
  · dsimp only
    rw [finish_piped, withPipe_fieldAdder]
    simp only [withPipe_addNotes, withPipe_section, withPipe_setSection]
    split <;> rfl

theorem finishHandlers_piped (t : Bool) (ks : List Str) : ∀ m : Msg,
    finishHandlers env related t ks (withPipe p m) = runPiped p (finishHandlers env related t ks m) := by
  induction ks with
  | nil => intro m; rfl
  | cons k ks ih =>
    intro m
    unfold finishHandlers
    rw [finishHandler_piped]
    generalize finishHandler env related t m k = r
    obtain ⟨m1, x⟩ := r
    cases x with
    | error e => rfl
    | ok u => exact ih _

theorem processSection_piped (t : Bool) (ls : List (Str × Str)) :
    processSection env related t ls (withPipe p m) = runPiped p (processSection env related t ls m) := by
  unfold processSection
  rw [processLines_piped]
  generalize processLines env related t ls 0 m = r
  obtain ⟨m1, x⟩ := r
  cases x with
  | error e => rfl
  | ok u => exact finishHandlers_piped p t _ (m1.addNotes (sectionSizeNotes t m1))

theorem postCheckHandlers_piped (t : Bool) (hs : List Handler) : ∀ m : Msg,
    postCheckHandlers env related t hs (withPipe p m) = runPiped p (postCheckHandlers env related t hs m) := by
  induction hs with
  | nil => intro m; rfl
  | cons h hs ih =>
    intro m
    unfold postCheckHandlers
    split
    · exact ih m
    · dsimp only
      rw [postCheck_piped, withPipe_fieldAdder]
      have hn : (withPipe p m).notes = m.notes := rfl
      rw [hn]
      generalize h.postCheck ⟨env, m, related⟩ (m.fieldAdder t h) m.notes = r
      obtain ⟨ns, x⟩ := r
      cases x with
      | error e => rfl
      | ok u => exact ih { m with notes := ns }

theorem runW_piped {α} (w : W α) : (withPipe p m).runW w = runPiped p (m.runW w) := rfl

theorem andThen_piped {α β} (r : Run α) (f : Msg → α → Run β) (hf : ∀ m a, f (withPipe p m) a = runPiped p (f m a)) :
    Run.andThen (runPiped p r) f = runPiped p (Run.andThen r f) := by
  obtain ⟨m1, x⟩ := r
  cases x with
  | error e => rfl
  | ok a => exact hf m1 a

theorem status_piped : Status.check ⟨env, withPipe p m, related⟩ = Status.check ⟨env, m, related⟩ := rfl
theorem cacheCheck_piped : cacheCheck ⟨env, withPipe p m, related⟩ = cacheCheck ⟨env, m, related⟩ := rfl
theorem verifyContentType_piped : verifyContentType ⟨env, withPipe p m, related⟩ = verifyContentType ⟨env, m, related⟩ := rfl
theorem verifyCharset_piped : verifyCharset ⟨env, withPipe p m, related⟩ = verifyCharset ⟨env, m, related⟩ := rfl

theorem responsePostChecks_piped :
    responsePostChecks env related (withPipe p m) =
      (runPiped p (responsePostChecks env related m).1, (responsePostChecks env related m).2) := by
  unfold responsePostChecks
  have h0 : F.checkPreflightResponse ⟨env, withPipe p m, related⟩ ((withPipe p m).adder []) =
      F.checkPreflightResponse ⟨env, m, related⟩ (m.adder []) := rfl
  rw [h0, runW_piped]
  generalize m.runW _ = r
  obtain ⟨m1, x⟩ := r
  cases x with
  | error e => rfl
  | ok u =>
    unfold runPiped
    dsimp only
    rw [cacheCheck_piped]
    generalize cacheCheck ⟨env, m1, related⟩ = cc
    obtain ⟨ca, w, rn⟩ := cc
    dsimp only
    refine Prod.ext ?_ rfl
    dsimp only
    have key : ∀ m2 : Msg, (Run.andThen ((withPipe p m2).runW w) fun m _ =>
        Run.andThen (m.runW (Status.check ⟨env, m, related⟩)) fun m _ =>
          if m.noContent then (m, .ok ())
          else Run.andThen (m.runW (verifyContentType ⟨env, m, related⟩)) fun m _ =>
            m.runW (verifyCharset ⟨env, m, related⟩)) =
        runPiped p (Run.andThen (m2.runW w) fun m _ =>
        Run.andThen (m.runW (Status.check ⟨env, m, related⟩)) fun m _ =>
          if m.noContent then (m, .ok ())
          else Run.andThen (m.runW (verifyContentType ⟨env, m, related⟩)) fun m _ =>
            m.runW (verifyCharset ⟨env, m, related⟩)) := by
      intro m2
      rw [runW_piped]
      refine andThen_piped _ _ _ fun m3 _ => ?_
      rw [status_piped, runW_piped]
      refine andThen_piped _ _ _ fun m4 _ => ?_
      have hn : (withPipe p m4).noContent = m4.noContent := rfl
      rw [hn]
      split
      · rfl
      · rw [verifyContentType_piped, runW_piped]
        refine andThen_piped _ _ _ fun m5 _ => ?_
        rw [verifyCharset_piped, runW_piped]
    cases ca with
    | none => exact key m1
    | some st => exact key { m1 with caching := some st }

theorem postChecks_piped :
    postChecks env related (withPipe p m) = (runPiped p (postChecks env related m).1, (postChecks env related m).2) := by
  unfold postChecks
  have hk : (withPipe p m).kind = m.kind := rfl
  rw [hk]
  cases m.kind with
  | request =>
    have h0 : requestPostChecks env related (withPipe p m) = requestPostChecks env related m := rfl
    dsimp only
    rw [h0]; rfl
  | response => exact responsePostChecks_piped p m

/-- finishing does not look at the decompressors, and leaves them alone -/
theorem finishContent_piped (c : Bool) (ts : List (Str × Str)) :
    (withPipe p m).finishContent env related c ts =
      (runPiped p (m.finishContent env related c ts).1, (m.finishContent env related c ts).2) := by
  unfold Msg.finishContent
  dsimp only
  have h0 : ∀ m : Msg, (if ts.isEmpty then (withPipe p m, .ok ()) else processSection env related true ts (withPipe p m) : Run Unit) =
      runPiped p (if ts.isEmpty then (m, .ok ()) else processSection env related true ts m : Run Unit) := by
    intro m
    split
    · rfl
    · exact processSection_piped p m true ts
  have h1 := h0 { m with complete := c, contentHash := some (env.md5 m.hashed) }
  have hm : ({ withPipe p m with complete := c, contentHash := some (env.md5 (withPipe p m).hashed) } : Msg) =
    withPipe p { m with complete := c, contentHash := some (env.md5 m.hashed) } := rfl
  rw [hm, h1]
  generalize (if ts.isEmpty then _ else _ : Run Unit) = r
  obtain ⟨m1, x⟩ := r
  cases x with
  | error e => rfl
  | ok u =>
    unfold runPiped
    dsimp only
    have h2 := postChecks_piped (env := env) (related := related) p
      (Msg.addNotes { m1 with decoded := { m1.decoded with hash := some (env.md5 m1.decoded.hashed) } }
        (lengthNotes { m1 with decoded := { m1.decoded with hash := some (env.md5 m1.decoded.hashed) } }))
    have h3 : (Msg.addNotes { withPipe p m1 with decoded := { (withPipe p m1).decoded with hash := some (env.md5 (withPipe p m1).decoded.hashed) } }
        (lengthNotes { withPipe p m1 with decoded := { (withPipe p m1).decoded with hash := some (env.md5 (withPipe p m1).decoded.hashed) } })) =
      withPipe p (Msg.addNotes { m1 with decoded := { m1.decoded with hash := some (env.md5 m1.decoded.hashed) } }
        (lengthNotes { m1 with decoded := { m1.decoded with hash := some (env.md5 m1.decoded.hashed) } })) := rfl
    rw [h3, h2]
    generalize postChecks _ _ _ = pc
    obtain ⟨r, rn⟩ := pc
    dsimp only
    refine Prod.ext ?_ rfl
    dsimp only
    have := andThen_piped p r (fun m _ =>
      Run.andThen (postCheckHandlers env related false (m.headers.handlers.map (·.2)) m) fun m _ =>
        postCheckHandlers env related true (m.trailers.handlers.map (·.2)) m) ?_
    · exact this
    · intro m2 _
      have h4 := postCheckHandlers_piped (env := env) (related := related) p false (m2.headers.handlers.map (·.2)) m2
      show Run.andThen (postCheckHandlers env related false (m2.headers.handlers.map (·.2)) (withPipe p m2)) _ = _
      rw [h4]
      refine andThen_piped p _ _ fun m3 _ => ?_
      exact postCheckHandlers_piped p true _ m3
end

/-! ### what feeding does -/

theorem sink_nil (m : Msg) : m.sink [] = m := by
  unfold Msg.sink sampleAppend
  simp

theorem sink_sink (m : Msg) (a b : Str) : (m.sink a).sink b = m.sink (a ++ b) := by
  have h : ∀ s : Str, sampleAppend (sampleAppend s a) b = sampleAppend s (a ++ b) := by
    intro s
    unfold sampleAppend contentSampleSize
    by_cases h1 : s.length < 8192
    · rw [if_pos h1, if_pos h1]
      by_cases h2 : (s ++ a.take (8192 - s.length)).length < 8192
      · rw [if_pos h2]
        rw [List.length_append, List.length_take] at h2
        have h3 : a.take (8192 - s.length) = a := List.take_of_length_le (by omega)
        rw [h3, List.take_append, h3, List.append_assoc, List.length_append, Nat.sub_add_eq]
      · rw [if_neg h2]
        rw [List.length_append, List.length_take] at h2
        rw [List.take_append, show 8192 - s.length - a.length = 0 by omega]
        simp
    · rw [if_neg h1, if_neg h1, if_neg h1]
  unfold Msg.sink
  dsimp only
  rw [h]
  simp [Nat.add_assoc]

theorem sinks_flatten (out : List Str) : ∀ m : Msg, out.foldl Msg.sink m = m.sink out.flatten := by
  induction out with
  | nil => intro m; exact (sink_nil m).symm
  | cons c out ih => intro m; rw [List.foldl_cons, ih, sink_sink, List.flatten_cons]

/-- `n` more bytes have arrived, and those that are hashed -/
def arrived (n : Nat) (x : Str) (m : Msg) : Msg := { m with contentLength := m.contentLength + n, hashed := m.hashed ++ x }

/-- one feed -/
theorem feedContent_arrived (env : Env) (m : Msg) (c : Str) (ds : List Decoder) (hn : m.noContent = false)
    (hok : m.decoded.decodeOk = true) (hd : m.decoders = .ok ds) :
    let r := feedPipe ⟨env, m.defaults, m.contentLength + c.length⟩ ds.length ds c
    (m.feedContent env c).1 = withPipe (some r.decs) (((arrived c.length c m).addNotes r.notes).sink r.out.flatten) := by
  unfold Msg.feedContent Msg.decodeFeed
  dsimp only
  rw [if_neg (by simp [hn]), if_neg (by simp [hok])]
  have hd' : Msg.decoders { m with contentLength := m.contentLength + c.length, hashed := m.hashed ++ c } = .ok ds := hd
  rw [hd']
  dsimp only
  rw [sinks_flatten]
  rfl

/-- all feeds, for a message whose pipeline is built -/
theorem feedAll_piped (env : Env) (chunks : List Str) : ∀ (m : Msg) (ds : List Decoder), m.noContent = false →
    m.decoded.decodeOk = true → m.decoders = .ok ds →
    let r := runPipe env m.defaults ds (tagged m.contentLength chunks)
    ∃ p, feedAll env chunks m =
      withPipe p (((arrived chunks.flatten.length chunks.flatten m).addNotes r.notes).sink r.out.flatten) := by
  induction chunks with
  | nil =>
    intro m ds hn hok hd
    refine ⟨m.decoded.pipeline, ?_⟩
    simp only [tagged, runPipe, feedAll, List.foldl_nil, List.flatten_nil]
    rw [sink_nil]
    simp [arrived, Msg.addNotes, withPipe]
  | cons c cs ih =>
    intro m ds hn hok hd
    have h := feedContent_arrived env m c ds hn hok hd
    dsimp only at h ⊢
    simp only [tagged, runPipe]
    generalize feedPipe ⟨env, m.defaults, m.contentLength + c.length⟩ ds.length ds c = r at h ⊢
    have h2 := ih (m.feedContent env c).1 r.decs (by rw [h]; exact hn) (by rw [h]; exact hok) (by rw [h]; rfl)
    dsimp only at h2
    have e1 : (m.feedContent env c).1.defaults = m.defaults := by rw [h]; rfl
    have e2 : (m.feedContent env c).1.contentLength = m.contentLength + c.length := by rw [h]; rfl
    rw [e1, e2] at h2
    obtain ⟨p, h2⟩ := h2
    refine ⟨p, ?_⟩
    have h3 : feedAll env (c :: cs) m = feedAll env cs (m.feedContent env c).1 := rfl
    rw [h3, h2, h]
    generalize runPipe env m.defaults r.decs (tagged (m.contentLength + c.length) cs) = R
    have h4 : ∀ (x y : Msg) (q : Option (List Decoder)) (s : Str), (withPipe q x).sink s = withPipe q (x.sink s) := fun _ _ _ _ => rfl
    have h5 : ((arrived cs.flatten.length cs.flatten (withPipe (some r.decs)
        (((arrived c.length c m).addNotes r.notes).sink r.out.flatten))).addNotes R.notes) =
        withPipe (some r.decs) ((((arrived (c :: cs).flatten.length (c :: cs).flatten m).addNotes (r.notes ++ R.notes))).sink r.out.flatten) := by
      simp [arrived, Msg.addNotes, withPipe, Msg.sink, Nat.add_assoc]
    rw [h5, h4 _ m, withPipe_withPipe, sink_sink, List.flatten_append]

theorem feedContent_plain (env : Env) (m : Msg) (c : Str) (h : m.noContent = true ∨ m.decoded.decodeOk = false) :
    (m.feedContent env c).1 = arrived c.length (if m.noContent then [] else c) m := by
  unfold Msg.feedContent Msg.decodeFeed
  dsimp only
  by_cases hn : m.noContent = true
  · rw [if_pos hn, if_pos hn]; simp [arrived]
  · rw [if_neg hn, if_neg hn, if_pos (by rcases h with h | h; exact absurd h hn; simp [h])]; rfl

theorem feedAll_plain (env : Env) (chunks : List Str) : ∀ m : Msg, (m.noContent = true ∨ m.decoded.decodeOk = false) →
    feedAll env chunks m = arrived chunks.flatten.length (if m.noContent then [] else chunks.flatten) m := by
  induction chunks with
  | nil => intro m _; simp [feedAll, arrived]
  | cons c cs ih =>
    intro m h
    have h1 := feedContent_plain env m c h
    have h3 : feedAll env (c :: cs) m = feedAll env cs (m.feedContent env c).1 := rfl
    rw [h3, ih _ (by rw [h1]; exact h), h1]
    have h4 : (arrived c.length (if m.noContent then [] else c) m).noContent = m.noContent := rfl
    rw [h4]
    cases m.noContent <;> simp [arrived, Nat.add_assoc]

/-! ### the decompression libraries -/

/-- what a decompressor makes of its input: the bytes it can produce from the given ones (`full`), whether it accepts
them (`good`), and whether they contain a whole compressed stream (`whole`) -/
structure Stream where
  full : Str → Str
  good : Str → Prop
  whole : Str → Prop

/-- a history of calls of a decompressor, the input it has consumed and the output it has returned -/
inductive Calls (lib : List Str → Str → ZResult) : List Str → Str → Str → Prop where
  | new : Calls lib [] [] []
  | call {h i o pre out tail} (c : Calls lib h i o) (r : lib h (pre ++ tail) = .ok out tail) :
      Calls lib (h ++ [pre ++ tail]) (i ++ pre) (o ++ out)

/-- `zlib`'s contract, `decompress(x, 1048576)`: acceptable input is accepted however it is cut; what is returned is
a piece of the output of the input consumed; if less than the maximum is returned everything was consumed and
returned; and a whole stream that has been consumed has been returned. -/
structure Inflates (lib : List Str → Str → ZResult) (S : Stream) : Prop where
  nothing : S.full [] = []
  good {a b} : S.good (a ++ b) → S.good a
  grows {a b} : S.good (a ++ b) → S.full a <+: S.full (a ++ b)
  accepts {h i o x} : Calls lib h i o → S.good (i ++ x) →
    ∃ pre tail out, x = pre ++ tail ∧ lib h (pre ++ tail) = .ok out tail ∧ o ++ out <+: S.full (i ++ pre)
  drains {h i o x out tail} : Calls lib h i o → S.good (i ++ x) → lib h x = .ok out tail → out.length < 1048576 →
    tail = [] ∧ o ++ out = S.full (i ++ x)
  ends {h i o x out} : Calls lib h i o → S.good (i ++ x) → lib h x = .ok out [] → S.whole (i ++ x) → o ++ out = S.full (i ++ x)

/-- `brotli`'s contract, `process(x)`: everything is consumed, and everything it yields returned. -/
structure Unbrotlis (lib : List Str → Str → ZResult) (S : Stream) : Prop where
  nothing : S.full [] = []
  good {a b} : S.good (a ++ b) → S.good a
  grows {a b} : S.good (a ++ b) → S.full a <+: S.full (a ++ b)
  accepts {h i o x} : Calls lib h i o → S.good (i ++ x) → ∃ out, lib h x = .ok out [] ∧ o ++ out = S.full (i ++ x)

/-- nothing is kept back of a whole stream or a small one -/
def Drained (S : Stream) (i o : Str) : Prop := S.whole i ∨ (S.full i).length < 1048576 → o = S.full i

theorem inflateTail_run {env : Env} {Z : Stream} (hz : Inflates env.inflate Z) (h : List Str) (n : Nat) (tail : Str) :
    ∀ {i o : Str}, Calls env.inflate h i o → Z.good (i ++ tail) → n = o.length → o <+: Z.full i →
      (tail = [] → Drained Z i o) → (Z.full (i ++ tail)).length ≤ maxDecompressed →
      let r := inflateTail env h n tail
      r.fin = .done ∧ Calls env.inflate r.history (i ++ tail) (o ++ r.pieces.flatten) ∧
      r.count = (o ++ r.pieces.flatten).length ∧ o ++ r.pieces.flatten <+: Z.full (i ++ tail) ∧
      Drained Z (i ++ tail) (o ++ r.pieces.flatten) := by
  induction h, n, tail using inflateTail.induct (env := env) with
  | case1 h n tail he =>
    intro i o hc hg hn hp hd hl
    obtain rfl : tail = [] := by simpa using he
    unfold inflateTail; rw [if_pos he]
    simp only [List.append_nil, List.flatten_nil]
    exact ⟨trivial, hc, hn, hp, hd rfl⟩
  | case2 h n tail he msg hr =>
    intro i o hc hg hn hp hd hl
    obtain ⟨pre, t, out, rfl, h2, _⟩ := hz.accepts hc hg
    rw [h2] at hr; simp at hr
  | case3 h n tail he out tail' hr h0 =>
    intro i o hc hg hn hp hd hl
    obtain ⟨rfl, h2⟩ := hz.drains hc hg hr (by omega)
    unfold inflateTail; rw [if_neg he, hr]; simp only [h0, dite_true]
    obtain rfl : out = [] := List.eq_nil_of_length_eq_zero h0
    have hc' := Calls.call (pre := tail) (tail := []) hc (by rw [List.append_nil]; exact hr)
    rw [List.append_nil, List.append_nil] at hc'
    rw [List.append_nil] at h2
    simp only [List.append_nil, List.flatten_nil]
    exact ⟨trivial, hc', hn, h2 ▸ List.prefix_rfl, fun _ => h2⟩
  | case4 h n tail he out tail' hr h0 hb =>
    intro i o hc hg hn hp hd hl
    obtain ⟨pre, t, out', rfl, h2, h3⟩ := hz.accepts hc hg
    rw [h2] at hr
    simp only [ZResult.ok.injEq] at hr
    obtain ⟨rfl, rfl⟩ := hr
    rw [← List.append_assoc] at hg hl
    have h4 := (h3.trans (hz.grows hg)).length_le
    rw [List.length_append] at h4
    omega
  | case5 h n tail he out tail' hr h0 hb ih =>
    intro i o hc hg hn hp hd hl
    obtain ⟨pre, t, out', rfl, h2, h3⟩ := hz.accepts hc hg
    unfold inflateTail; rw [if_neg he, hr]; simp only [h0, dite_false, hb]
    rw [h2] at hr
    simp only [ZResult.ok.injEq] at hr
    obtain ⟨rfl, rfl⟩ := hr
    have hg' := hg
    rw [← List.append_assoc] at hg'
    have := ih (.call hc h2) hg' (by rw [List.length_append]; omega) h3 (by
      rintro rfl hw
      rw [List.append_nil] at h2 hg
      rcases hw with hw | hw
      · exact hz.ends hc hg h2 hw
      · have := h3.length_le
        rw [List.length_append] at this
        exact (hz.drains hc hg h2 (by omega)).2) (by rw [List.append_assoc]; exact hl)
    dsimp only at this
    simp only [InfOut.cons, List.flatten_cons]
    rw [List.append_assoc, List.append_assoc] at this
    exact this

theorem inflateChunk_run {env : Env} {Z : Stream} (hz : Inflates env.inflate Z) {h : List Str} {n : Nat} {x i o : Str}
    (hc : Calls env.inflate h i o) (hg : Z.good (i ++ x)) (hn : n = o.length) (hl : (Z.full (i ++ x)).length ≤ maxDecompressed) :
    let r := inflateChunk env h n x
    r.fin = .done ∧ Calls env.inflate r.history (i ++ x) (o ++ r.pieces.flatten) ∧
    r.count = (o ++ r.pieces.flatten).length ∧ Drained Z (i ++ x) (o ++ r.pieces.flatten) := by
  obtain ⟨pre, t, out, rfl, h2, h3⟩ := hz.accepts hc hg
  have hg' := hg
  rw [← List.append_assoc] at hg'
  have h4 := (h3.trans (hz.grows hg')).length_le
  rw [List.append_assoc, List.length_append] at h4
  have hd : t = [] → Drained Z (i ++ pre) (o ++ out) := by
    rintro rfl hw
    rw [List.append_nil] at h2 hg
    rcases hw with hw | hw
    · exact hz.ends hc hg h2 hw
    · have := h3.length_le
      rw [List.length_append] at this
      exact (hz.drains hc hg h2 (by omega)).2
  have hk := Calls.call hc h2
  have hl' : (Z.full (i ++ pre ++ t)).length ≤ maxDecompressed := by rw [List.append_assoc]; exact hl
  unfold inflateChunk
  rw [h2]
  dsimp only
  by_cases h0 : out.isEmpty = true
  · rw [if_pos h0]
    obtain rfl : out = [] := by simpa using h0
    have := inflateTail_run hz _ n t hk hg' (by simpa using hn) h3 hd hl'
    dsimp only at this
    simp only [List.append_assoc, List.append_nil, List.nil_append] at this ⊢
    exact ⟨this.1, this.2.1, this.2.2.1, this.2.2.2.2⟩
  · rw [if_neg h0, if_neg (by omega)]
    have := inflateTail_run hz _ (n + out.length) t hk hg' (by rw [List.length_append]; omega) h3 hd hl'
    dsimp only at this
    simp only [InfOut.cons, List.flatten_cons]
    simp only [List.append_assoc] at this ⊢
    exact ⟨this.1, this.2.1, this.2.2.1, this.2.2.2.2⟩

theorem flatten_map_snd (n : Nat) (ps : List Str) : bytesOf (ps.map fun p => (n, p)) = ps.flatten := by
  induction ps with
  | nil => rfl
  | cons p ps ih => simp [ih]

/-- a gzip decoder past its header -/
theorem gzip_run {env : Env} {df : Dict Val} {Z : Stream} (hz : Inflates env.inflate Z) (fs : List (Nat × Str)) :
    ∀ {d : Decoder} {i o : Str}, d.kind = .gzip → d.ok = true → d.inGzip = true → Calls env.inflate d.history i o →
      d.decompressed = o.length → Drained Z i o → Z.good (i ++ bytesOf fs) → (Z.full (i ++ bytesOf fs)).length ≤ maxDecompressed →
      (runDec env df d fs).notes = [] ∧ Drained Z (i ++ bytesOf fs) (o ++ bytesOf (runDec env df d fs).out) := by
  induction fs with
  | nil => intro d i o _ _ _ _ _ h6 _ _; simpa [runDec] using h6
  | cons f fs ih =>
    intro d i o h1 h2 h3 h4 h5 h6 hg hl
    obtain ⟨n, x⟩ := f
    simp only [bytesOf_cons] at hg hl ⊢
    rw [← List.append_assoc] at hg hl ⊢
    have hlx : (Z.full (i ++ x)).length ≤ maxDecompressed := Nat.le_trans (hz.grows hg).length_le hl
    have hr := inflateChunk_run hz h4 (hz.good hg) h5 hlx
    dsimp only at hr
    have hs : d.step ⟨env, df, n⟩ x = { dec := { d with history := (inflateChunk env d.history d.decompressed x).history, decompressed := (inflateChunk env d.history d.decompressed x).count }, pieces := (inflateChunk env d.history d.decompressed x).pieces } := by
      have hr1 := hr.1
      obtain ⟨k, ok, ig, hbuf, dn, hist⟩ := d
      simp only at h1 h2 h3
      subst h1 h2 h3
      simp only [Decoder.step, Decoder.gzipStep, Decoder.gzipPayload, Bool.not_true, Bool.false_eq_true, if_false, if_true]
      simp only at hr1
      rw [hr1]
    simp only [runDec]
    rw [hs]
    generalize inflateChunk env d.history d.decompressed x = r at hr
    obtain ⟨r1, r2, r3, r4⟩ := hr
    dsimp only
    have := ih (d := { d with history := r.history, decompressed := r.count }) h1 h2 h3 r2 r3 r4 hg hl
    rw [bytesOf_append, flatten_map_snd, ← List.append_assoc]
    exact this

/-- a brotli decoder -/
theorem brotli_run {env : Env} {df : Dict Val} {B : Stream} (hb : Unbrotlis env.brotli B) (fs : List (Nat × Str)) :
    ∀ {d : Decoder} {i o : Str}, d.kind = .br → d.ok = true → Calls env.brotli d.history i o →
      d.decompressed = o.length → o = B.full i → B.good (i ++ bytesOf fs) → (B.full (i ++ bytesOf fs)).length ≤ maxDecompressed →
      (runDec env df d fs).notes = [] ∧ o ++ bytesOf (runDec env df d fs).out = B.full (i ++ bytesOf fs) := by
  induction fs with
  | nil => intro d i o _ _ _ _ h6 _ _; simpa [runDec] using h6
  | cons f fs ih =>
    intro d i o h1 h2 h4 h5 h6 hg hl
    obtain ⟨n, x⟩ := f
    simp only [bytesOf_cons] at hg hl ⊢
    rw [← List.append_assoc] at hg hl ⊢
    have hlx : (B.full (i ++ x)).length ≤ maxDecompressed := Nat.le_trans (hb.grows hg).length_le hl
    obtain ⟨out, k1, k2⟩ := hb.accepts h4 (hb.good hg)
    have hc := Calls.call (pre := x) (tail := []) h4 (by rw [List.append_nil]; exact k1)
    rw [List.append_nil] at hc
    have hlen : o.length + out.length ≤ maxDecompressed := by rw [← List.length_append, k2]; exact hlx
    have hs : d.step ⟨env, df, n⟩ x = { dec := { d with history := d.history ++ [x], decompressed := d.decompressed + out.length }, pieces := if out.isEmpty then [] else [out] } := by
      obtain ⟨k, ok, ig, hbuf, dn, hist⟩ := d
      simp only at h1 h2 k1 h5
      subst h1 h2
      simp only [Decoder.step, Decoder.brotliStep, Bool.not_true, Bool.false_eq_true, if_false]
      rw [k1]
      dsimp only
      by_cases h0 : out.isEmpty = true
      · have : out = [] := by simpa using h0
        rw [if_pos h0, if_pos h0, this]; rfl
      · rw [if_neg h0, if_neg h0, if_neg (by omega)]
    simp only [runDec]
    rw [hs]
    dsimp only
    have := ih (d := { d with history := d.history ++ [x], decompressed := d.decompressed + out.length }) (i := i ++ x) (o := o ++ out)
      h1 h2 hc (by rw [List.length_append]; dsimp only; omega) k2 hg hl
    have hb' : bytesOf ((if out.isEmpty then [] else [out]).map fun p => (n, p)) = out := by
      cases out <;> simp [bytesOf]
    rw [bytesOf_append, hb', ← List.append_assoc]
    exact this

/-! ### decoding content -/

/-- the note about a bad gzip header -/
def badGzip (df : Dict Val) (msg : Str) : Note :=
  (AddNote.mk1 { defaults := df, subject := str "field-content-encoding" } .BAD_GZIP [(str "gzip_error", .str msg)])

/-- `Unpacks Z B df codings x y notes`: removing the codings (the last one applied first) from the content `x` gives `y` and
these notes.  Content a decompressor rejects, or that is too large when decompressed, is left out. -/
inductive Unpacks (Z B : Stream) (df : Dict Val) : List CodingKind → Str → Str → List Note → Prop where
  | plain (x) : Unpacks Z B df [] x x []
  | gzip {ks x rest y ns} (header : readGzipHeader x = .ok rest) (good : Z.good rest)
      (enough : Z.whole rest ∨ (Z.full rest).length < 1048576) (small : (Z.full rest).length ≤ 104857600)
      (then_ : Unpacks Z B df ks (Z.full rest) y ns) : Unpacks Z B df (.gzip :: ks) x y ns
  | short {ks x} (header : readGzipHeader x = .incomplete) : Unpacks Z B df (.gzip :: ks) x [] []
  | bad {ks x msg} (header : readGzipHeader x = .bad msg) : Unpacks Z B df (.gzip :: ks) x [] [badGzip df msg]
  | br {ks x y ns} (good : B.good x) (small : (B.full x).length ≤ 104857600)
      (then_ : Unpacks Z B df ks (B.full x) y ns) : Unpacks Z B df (.br :: ks) x y ns

/-- new decoders -/
def decodersFor (ks : List CodingKind) : List Decoder := ks.map fun k => { kind := k }

theorem runPipe_empty (env df ds) : runPipe env df ds [] = { decs := ds } := rfl

theorem Unpacks.notes_le {Z B : Stream} {df : Dict Val} {ks x y ns} (d : Unpacks Z B df ks x y ns) : ns = [] ∨ ∃ n, ns = [n] := by
  induction d with
  | plain x => exact .inl rfl
  | gzip _ _ _ _ _ ih => exact ih
  | short _ => exact .inl rfl
  | bad _ => exact .inr ⟨_, rfl⟩
  | br _ _ _ ih => exact ih

theorem pipe_decodes {env : Env} {Z B : Stream} (hz : Inflates env.inflate Z) (hb : Unbrotlis env.brotli B) {df : Dict Val}
    {ks : List CodingKind} {x y : Str} {ns : List Note} (d : Unpacks Z B df ks x y ns) :
    ∀ fs : List (Nat × Str), bytesOf fs = x →
      (runPipe env df (decodersFor ks) fs).out.flatten = y ∧ (runPipe env df (decodersFor ks) fs).notes = ns := by
  have perm : ∀ {ns l : List Note}, (ns = [] ∨ ∃ n, ns = [n]) → l.Perm ns → l = ns := by
    intro ns l hn hp
    rcases hn with rfl | ⟨n, rfl⟩
    · exact List.perm_nil.1 hp
    · exact List.perm_singleton.1 hp
  induction d with
  | plain x => intro fs h; unfold decodersFor; rw [List.map_nil, runPipe_nil]; exact ⟨h, rfl⟩
  | @gzip ks x rest y ns h1 h2 h3 h4 hd ih =>
    intro fs h
    have hr := gzip_header_run env df fs [] rfl
    rw [List.nil_append, h, h1] at hr
    obtain ⟨ps, p1, p2⟩ := hr
    have hs := C32_pipeline_stages env df { kind := .gzip } (decodersFor ks) fs
    dsimp only at hs
    have p3 : runDec env df { kind := .gzip } fs = runDec env df afterHeader ps := p2
    rw [p3] at hs
    have hrun := gzip_run (df := df) hz ps (d := afterHeader) (i := []) (o := []) rfl rfl rfl .new rfl
      (fun _ => hz.nothing.symm) (by rw [List.nil_append, p1]; exact h2) (by rw [List.nil_append, p1]; exact h4)
    rw [List.nil_append, List.nil_append, p1] at hrun
    obtain ⟨q1, q2⟩ := ih _ (hrun.2 h3)
    obtain ⟨s1, s2, s3⟩ := hs
    rw [hrun.1, List.append_nil, q2] at s3
    exact ⟨(congrArg List.flatten s1).trans q1, perm hd.notes_le s3⟩
  | @short ks x h1 =>
    intro fs h
    have hr := gzip_header_run env df fs [] rfl
    rw [List.nil_append, h, h1] at hr
    have hs := C32_pipeline_stages env df { kind := .gzip } (decodersFor ks) fs
    dsimp only at hs hr
    have p3 : runDec env df { kind := .gzip } fs = { dec := { kind := .gzip, headerBuf := x } } := hr
    rw [p3] at hs
    obtain ⟨s1, s2, s3⟩ := hs
    exact ⟨congrArg List.flatten s1, perm (.inl rfl) s3⟩
  | @bad ks x msg h1 =>
    intro fs h
    have hr := gzip_header_run env df fs [] rfl
    rw [List.nil_append, h, h1] at hr
    have hs := C32_pipeline_stages env df { kind := .gzip } (decodersFor ks) fs
    dsimp only at hs hr
    have p3 : (runDec env df { kind := .gzip } fs).out = [] ∧ (runDec env df { kind := .gzip } fs).notes = [badGzip df msg] :=
      ⟨hr.1, by obtain ⟨n, h⟩ := hr.2.2; exact h⟩
    rw [p3.1, p3.2] at hs
    obtain ⟨s1, s2, s3⟩ := hs
    exact ⟨congrArg List.flatten s1, perm (.inr ⟨_, rfl⟩) s3⟩
  | @br ks x y ns h2 h4 hd ih =>
    intro fs h
    have hs := C32_pipeline_stages env df { kind := .br } (decodersFor ks) fs
    dsimp only at hs
    have hrun := brotli_run (df := df) hb fs (d := { kind := .br }) (i := []) (o := []) rfl rfl .new rfl
      hb.nothing.symm (by rw [List.nil_append, h]; exact h2) (by rw [List.nil_append, h]; exact h4)
    rw [List.nil_append, List.nil_append, h] at hrun
    obtain ⟨q1, q2⟩ := ih _ hrun.2
    obtain ⟨s1, s2, s3⟩ := hs
    rw [hrun.1, List.append_nil, q2] at s3
    exact ⟨(congrArg List.flatten s1).trans q1, perm hd.notes_le s3⟩

theorem bytesOf_tagged (n : Nat) (cs : List Str) : bytesOf (tagged n cs) = cs.flatten := by
  induction cs generalizing n with
  | nil => rfl
  | cons c cs ih => simp [tagged, ih]

/-! ### C120 -/

/-- `Coded m ks`: the codings of the content that the linter removes, the last one applied first -/
def Coded (m : Msg) (ks : List CodingKind) : Prop :=
  (dget m.headers.parsed (str "content-encoding") = none ∧ ks = []) ∨
  ∃ v codings, dget m.headers.parsed (str "content-encoding") = some v ∧ v.iter = .ok codings ∧
    ks = codings.reverse.filterMap fun c => (codingDecoder c).map (·.kind)

theorem codingDecoder_new {v : Val} {d : Decoder} (h : codingDecoder v = some d) : d = { kind := d.kind } := by
  unfold codingDecoder at h
  repeat' split at h
  all_goals first | (cases h; rfl) | (cases h; done)

theorem buildPipeline_new (cs : List Val) :
    buildPipeline cs = decodersFor (cs.reverse.filterMap fun c => (codingDecoder c).map (·.kind)) := by
  unfold buildPipeline decodersFor
  rw [← List.filterMap_reverse]
  induction cs.reverse with
  | nil => rfl
  | cons c cs ih =>
    simp only [List.filterMap_cons]
    cases h : codingDecoder c with
    | none => simpa using ih
    | some d =>
      simp only [Option.map_some, List.map_cons]
      rw [ih, ← codingDecoder_new h]

theorem Coded.decoders {m : Msg} {ks} (h : Coded m ks) (hp : m.decoded.pipeline = none) : m.decoders = .ok (decodersFor ks) := by
  unfold Msg.decoders
  rw [hp]
  rcases h with ⟨h1, rfl⟩ | ⟨v, cs, h1, h2, rfl⟩
  · rw [h1]; rfl
  · rw [h1]; simp [h2, Except.map, buildPipeline_new]

/-- everything about the linters that can be seen: all attributes but the decompressor objects -/
def visible (w : World) : World := { w with msg := withPipe none w.msg }

/-- feed some chunks -/
def feeds (chunks : List Str) : List Op := chunks.map Op.feed

theorem runAll_feeds (env : Env) (chunks : List Str) : ∀ w : World,
    Op.runAll env (feeds chunks) w = { w with msg := feedAll env chunks w.msg } := by
  induction chunks with
  | nil => intro w; rfl
  | cons c cs ih => intro w; exact ih _

theorem feedAll_same {env : Env} {m : Msg} {ks : List CodingKind} {chunks chunks' : List Str} (coded : Coded m ks)
    (begun : m.decoded.pipeline = none) (same : chunks.flatten = chunks'.flatten)
    (out : ∃ y ns, ∀ fs : List (Nat × Str), bytesOf fs = chunks.flatten →
      (runPipe env m.defaults (decodersFor ks) fs).out.flatten = y ∧ (runPipe env m.defaults (decodersFor ks) fs).notes = ns) :
    ∃ p, feedAll env chunks' m = withPipe p (feedAll env chunks m) := by
  by_cases hp : m.noContent = true ∨ m.decoded.decodeOk = false
  · refine ⟨(feedAll env chunks m).decoded.pipeline, ?_⟩
    rw [withPipe_self, feedAll_plain env chunks m hp, feedAll_plain env chunks' m hp, same]
  · obtain ⟨y, ns, out⟩ := out
    simp only [not_or, Bool.not_eq_true, Bool.not_eq_false] at hp
    obtain ⟨p, h⟩ := feedAll_piped env chunks m _ hp.1 hp.2 (coded.decoders begun)
    obtain ⟨p', h'⟩ := feedAll_piped env chunks' m _ hp.1 hp.2 (coded.decoders begun)
    have o1 := out (tagged m.contentLength chunks) (bytesOf_tagged _ _)
    have o2 := out (tagged m.contentLength chunks') ((bytesOf_tagged _ _).trans same.symm)
    rw [o1.1, o1.2] at h
    rw [o2.1, o2.2] at h'
    exact ⟨p', by rw [h', h, same]; rfl⟩

theorem finish_same {env : Env} {w : World} {m m' : Msg} (h : ∃ p, m' = withPipe p m) (c : Bool) (ts : List (Str × Str)) :
    visible ((Op.finish c ts).run env { w with msg := m' }).1 = visible ((Op.finish c ts).run env { w with msg := m }).1 ∧
    ((Op.finish c ts).run env { w with msg := m' }).2 = ((Op.finish c ts).run env { w with msg := m }).2 := by
  obtain ⟨p, rfl⟩ := h
  unfold Op.run
  dsimp only
  rw [finishContent_piped]
  generalize m.finishContent env w.related c ts = r
  obtain ⟨⟨m1, x⟩, rn⟩ := r
  exact ⟨rfl, rfl⟩

/-- **C120**, content the linter need not decode: whatever the content, and however the libraries behave, two ways of
cutting it into chunks leave the same linters behind and the same outcome of the last call, before and after finishing. -/
theorem C120_uncoded {env : Env} {w : World} (coded : Coded w.msg []) (begun : w.msg.decoded.pipeline = none)
    {chunks chunks' : List Str} (same : chunks.flatten = chunks'.flatten) (c : Bool) (trailers : List (Str × Str)) :
    let fed := Op.runAll env (feeds chunks) w
    let fed' := Op.runAll env (feeds chunks') w
    visible fed = visible fed' ∧
    visible ((Op.finish c trailers).run env fed).1 = visible ((Op.finish c trailers).run env fed').1 ∧
    ((Op.finish c trailers).run env fed).2 = ((Op.finish c trailers).run env fed').2 := by
  dsimp only
  rw [runAll_feeds, runAll_feeds]
  have h := feedAll_same (env := env) coded begun same
    ⟨chunks.flatten, [], fun fs hf => by unfold decodersFor; rw [List.map_nil, runPipe_nil]; exact ⟨hf, rfl⟩⟩
  refine ⟨?_, ?_, ?_⟩
  · obtain ⟨p, h⟩ := h; rw [h]; rfl
  · exact (finish_same h c trailers).1.symm
  · exact (finish_same h c trailers).2.symm

/-- **C120**, encoded content: with decompressors that keep their contracts, when removing the codings from the content
gives `y` -- it is not corrupt, nor too large -- two ways of cutting it into chunks leave the same linters behind and the
same outcome of the last call, before and after finishing. -/
theorem C120_coded {env : Env} {Z B : Stream} (zlib : Inflates env.inflate Z) (brotli : Unbrotlis env.brotli B) {w : World}
    {ks : List CodingKind} (coded : Coded w.msg ks) (begun : w.msg.decoded.pipeline = none) {chunks chunks' : List Str}
    {x y : Str} {ns : List Note} (h1 : chunks.flatten = x) (h2 : chunks'.flatten = x)
    (decodes : Unpacks Z B w.msg.defaults ks x y ns) (c : Bool) (trailers : List (Str × Str)) :
    let fed := Op.runAll env (feeds chunks) w
    let fed' := Op.runAll env (feeds chunks') w
    visible fed = visible fed' ∧
    visible ((Op.finish c trailers).run env fed).1 = visible ((Op.finish c trailers).run env fed').1 ∧
    ((Op.finish c trailers).run env fed).2 = ((Op.finish c trailers).run env fed').2 := by
  dsimp only
  rw [runAll_feeds, runAll_feeds]
  have h := feedAll_same (env := env) coded begun (h1.trans h2.symm) ⟨y, ns, fun fs hf => pipe_decodes zlib brotli decodes fs (hf.trans h1)⟩
  refine ⟨?_, ?_, ?_⟩
  · obtain ⟨p, h⟩ := h; rw [h]; rfl
  · exact (finish_same h c trailers).1.symm
  · exact (finish_same h c trailers).2.symm

/-- **C120**, what is decoded: whatever the chunks, the content that is sampled, counted and hashed is `y`, and the notes added
while feeding are those of `Unpacks`. -/
theorem C120_decoded {env : Env} {Z B : Stream} (zlib : Inflates env.inflate Z) (brotli : Unbrotlis env.brotli B) {w : World}
    {ks : List CodingKind} (coded : Coded w.msg ks) (begun : w.msg.decoded.pipeline = none) (hn : w.msg.noContent = false)
    (hok : w.msg.decoded.decodeOk = true) {chunks : List Str} {y : Str} {ns : List Note}
    (decodes : Unpacks Z B w.msg.defaults ks chunks.flatten y ns) :
    let m := (Op.runAll env (feeds chunks) w).msg
    m.decoded.hashed = w.msg.decoded.hashed ++ y ∧ m.decoded.length = w.msg.decoded.length + y.length ∧
    m.notes = w.msg.notes ++ ns := by
  dsimp only
  rw [runAll_feeds]
  obtain ⟨p, h⟩ := feedAll_piped env chunks w.msg _ hn hok (coded.decoders begun)
  have o := pipe_decodes zlib brotli decodes (tagged w.msg.contentLength chunks) (bytesOf_tagged _ _)
  rw [o.1, o.2] at h
  dsimp only
  rw [h]
  exact ⟨rfl, rfl, rfl⟩

/-! ### examples -/

/-- the decompressors of the examples return their input -/
def toyStream : Stream := { full := id, good := fun s => 255 ∉ s, whole := fun _ => True }

theorem toy_calls {h i o} (c : Calls toyZ h i o) : o = i := by
  induction c with
  | new => rfl
  | @call h i o pre out tail c r ih =>
    unfold toyZ at r
    split at r
    · simp at r
    · simp only [ZResult.ok.injEq] at r
      obtain ⟨rfl, rfl⟩ := r
      rw [ih]; simp

theorem toy_accepts (h) {x} (g : 255 ∉ x) : toyZ h x = .ok x [] := by
  unfold toyZ; rw [if_neg (by simpa using g)]

example : Inflates toyEnv.inflate toyStream where
  nothing := rfl
  good g := fun h => g (List.mem_append_left _ h)
  grows _ := List.prefix_append _ _
  accepts {h i o x} c g := ⟨x, [], x, by simp, by
    rw [List.append_nil]; exact toy_accepts h fun hx => g (List.mem_append_right _ hx), by rw [toy_calls c]; exact List.prefix_rfl⟩
  drains {h i o x out tail} c g r _ := by
    have : toyEnv.inflate h x = .ok x [] := toy_accepts h fun hx => g (List.mem_append_right _ hx)
    rw [this] at r
    simp only [ZResult.ok.injEq] at r
    exact ⟨r.2.symm, by rw [← r.1, toy_calls c]; rfl⟩
  ends {h i o x out} c g r _ := by
    have : toyEnv.inflate h x = .ok x [] := toy_accepts h fun hx => g (List.mem_append_right _ hx)
    rw [this] at r
    simp only [ZResult.ok.injEq] at r
    rw [← r.1, toy_calls c]; rfl

example : Unbrotlis toyEnv.brotli toyStream where
  nothing := rfl
  good g := fun h => g (List.mem_append_left _ h)
  grows _ := List.prefix_append _ _
  accepts {h i o x} c g := ⟨x, toy_accepts h fun hx => g (List.mem_append_right _ hx), by rw [toy_calls c]; rfl⟩

/-- a decompressor that returns its input a megabyte at a time -/
def pacedZ (_ : List Str) (x : Str) : ZResult :=
  if x.contains 255 then .err (str "invalid block type") else .ok (x.take 1048576) (x.drop 1048576)

theorem paced_accepts (h) {x} (g : 255 ∉ x) : pacedZ h x = .ok (x.take 1048576) (x.drop 1048576) := by
  unfold pacedZ; rw [if_neg (by simpa using g)]

theorem paced_calls {h i o} (c : Calls pacedZ h i o) : o = i := by
  induction c with
  | new => rfl
  | @call h i o pre out tail c r ih =>
    unfold pacedZ at r
    split at r
    · simp at r
    · simp only [ZResult.ok.injEq] at r
      obtain ⟨rfl, r⟩ := r
      have := List.take_append_drop 1048576 (pre ++ tail)
      generalize (pre ++ tail).take 1048576 = a at this ⊢
      rw [r] at this
      rw [ih, List.append_cancel_right this]

example : Inflates pacedZ toyStream where
  nothing := rfl
  good g := fun h => g (List.mem_append_left _ h)
  grows _ := List.prefix_append _ _
  accepts {h i o x} c g := ⟨x.take 1048576, x.drop 1048576, x.take 1048576, (List.take_append_drop _ _).symm, by
    rw [List.take_append_drop]; exact paced_accepts h fun hx => g (List.mem_append_right _ hx), by rw [paced_calls c]; exact List.prefix_rfl⟩
  drains {h i o x out tail} c g r hl := by
    rw [paced_accepts h fun hx => g (List.mem_append_right _ hx)] at r
    simp only [ZResult.ok.injEq] at r
    obtain ⟨rfl, rfl⟩ := r
    rw [List.length_take] at hl
    exact ⟨List.drop_eq_nil_of_le (by omega), by rw [List.take_of_length_le (by omega), paced_calls c]; rfl⟩
  ends {h i o x out} c g r _ := by
    rw [paced_accepts h fun hx => g (List.mem_append_right _ hx)] at r
    simp only [ZResult.ok.injEq] at r
    obtain ⟨rfl, r⟩ := r
    rw [paced_calls c, List.take_of_length_le (List.drop_eq_nil_iff.1 r)]; rfl

/-- a response whose content is compressed twice -/
def exCoded : World := Op.runAll toyEnv [.responseTopline (str "1.1") (str "200") none,
  .headers [(str "Content-Encoding", str "gzip, br"), (str "Content-Length", str "13")]] { msg := Msg.new toyEnv .response }

/-- a gzip header and `abc` -/
def exGzip : Str := [31, 139, 8, 0, 0, 0, 0, 0, 0, 3] ++ str "abc"

example : Coded exCoded.msg [.br, .gzip] :=
  .inr ⟨.list [.str (str "gzip"), .str (str "br")], [.str (str "gzip"), .str (str "br")], by decide +kernel, rfl, by decide⟩
example : exCoded.msg.decoded.pipeline = none := by decide +kernel
example (df : Dict Val) : Unpacks toyStream toyStream df [.br, .gzip] exGzip (str "abc") [] :=
  .br (by show 255 ∉ exGzip; decide) (by decide) (.gzip (rest := str "abc") (by decide) (by show 255 ∉ str "abc"; decide) (.inl trivial) (by decide) (.plain _))

/-- ... in two ways -/
example :
    let run := fun chunks => (Op.runAll toyEnv (feeds chunks ++ [.finish true []]) exCoded).msg
    let a := run [exGzip]
    let b := run [exGzip.take 4, [], (exGzip.drop 4).take 7, exGzip.drop 11]
    a.decoded.hashed = str "abc" ∧ a.notes.map (·.cls) = [.CL_CORRECT, .DATE_CLOCKLESS, .STORE_STORABLE, .FRESHNESS_HEURISTIC, .STALE_SERVABLE] ∧
    visible { msg := a } = visible { msg := b } := by decide +kernel

/-- a bad header is reported, in one way, however it arrives -/
example (df : Dict Val) : Unpacks toyStream toyStream df [.gzip] (str "not compressed") [] [badGzip df (str "Not a gzip header (magic is hex 6e6f, should be 1f8b)")] :=
  .bad (by decide)

/-- corrupt content is what this leaves out: how much of it is decoded depends on the chunks -/
example :
    let run := fun chunks => (Op.runAll toyEnv (feeds chunks) exCoded).msg
    (run [str "ab", [255]]).decoded.hashed ≠ (run [str "ab" ++ [255]]).decoded.hashed ∨
    (run [str "ab", [255]]).notes ≠ (run [str "ab" ++ [255]]).notes := by decide +kernel

end HL.Props
