import Verif.Props.History

/-!
# C24, C25, C32: the content that was fed
-/

namespace HL.Props

/-! ### what a call leaves alone -/

/-- everything about a linter that concerns its content -/
structure ContentState where
  contentLength : Nat
  hashed : Str
  contentSample : Str
  decoded : DecState
  noContent : Bool
  defaults : Dict Val
  kind : MsgKind
  deriving DecidableEq

/-- the content state of a linter -/
def contentOf (m : Msg) : ContentState :=
  ⟨m.contentLength, m.hashed, m.contentSample, m.decoded, m.noContent, m.defaults, m.kind⟩

theorem contentOf_ext {t : Bool} {m m' : Msg} (h : Ext t m m') : contentOf m' = contentOf m := by
  obtain ⟨ns, s, rfl⟩ := h; cases t <;> rfl

theorem contentOf_only {m m' : Msg} (h : OnlyNotes m m') : contentOf m' = contentOf m := by
  obtain ⟨_, ns, ca, rfl⟩ := h; rfl

theorem contentOf_requestTopline (env me i v) (m : Msg) :
    contentOf (m.requestTopline env me i v).1 = contentOf m := by
  unfold Msg.requestTopline Msg.setUri
  dsimp only
  repeat' (first | rfl | split)

theorem contentOf_responseTopline (v s p) (m : Msg) : contentOf (m.responseTopline v s p).1 = contentOf m := by
  unfold Msg.responseTopline
  dsimp only
  cases pyInt (asciiReplace s) <;> repeat' (first | rfl | split)

theorem contentOf_setCharset (env) (m : Msg) : contentOf (m.setCharset env).1 = contentOf m := by
  unfold Msg.setCharset
  repeat' (first | rfl | split)

theorem contentOf_processHeaders (env related ls) (m : Msg) :
    contentOf (m.processHeaders env related ls).1 = contentOf m := by
  unfold Msg.processHeaders
  have h := contentOf_ext (processSection_ext env related false ls m)
  generalize processSection _ _ _ _ _ = r at h
  obtain ⟨m1, x⟩ := r
  cases x with
  | error e => exact h
  | ok u => unfold Run.andThen; dsimp only; rw [contentOf_setCharset]; exact h

/-- `finish_content` sets the hashes and leaves the rest of the content state alone -/
theorem finishContent_content (env related c ts) (m : Msg) :
    let m' := (m.finishContent env related c ts).1.1
    m'.contentHash = some (env.md5 m.hashed) ∧
    (contentOf m' = contentOf m ∨
      contentOf m' = { contentOf m with decoded := { m.decoded with hash := some (env.md5 m.decoded.hashed) } }) ∧
    ((m.finishContent env related c ts).1.2 = .ok () → m'.decoded.hash = some (env.md5 m.decoded.hashed)) := by
  unfold Msg.finishContent
  dsimp only
  generalize hm : ({ m with complete := c, contentHash := some (env.md5 m.hashed) } : Msg) = m0
  have h0 : contentOf m0 = contentOf m ∧ m0.contentHash = some (env.md5 m.hashed) := by rw [← hm]; exact ⟨rfl, rfl⟩
  have h1 : Ext true m0 (if ts.isEmpty then (m0, .ok ()) else processSection env related true ts m0 : Run Unit).1 := by
    split
    · exact Ext.refl _ _
    · exact processSection_ext env related true ts m0
  generalize (if ts.isEmpty then (m0, .ok ()) else processSection env related true ts m0 : Run Unit) = r at h1
  obtain ⟨m1, x⟩ := r
  have h1' : contentOf m1 = contentOf m ∧ m1.contentHash = some (env.md5 m.hashed) := by
    refine ⟨(contentOf_ext h1).trans h0.1, ?_⟩
    obtain ⟨ns, s, h⟩ := h1
    dsimp only at h
    rw [h]; exact h0.2
  cases x with
  | error e => exact ⟨h1'.2, .inl h1'.1, by simp⟩
  | ok u =>
    dsimp only
    generalize hm2 : ({ m1 with decoded := { m1.decoded with hash := some (env.md5 m1.decoded.hashed) } } : Msg) = m2
    have hd : m1.decoded = m.decoded := congrArg ContentState.decoded h1'.1
    have h2 : contentOf m2 = { contentOf m with decoded := { m.decoded with hash := some (env.md5 m.decoded.hashed) } } ∧
        m2.contentHash = some (env.md5 m.hashed) := by
      rw [← hm2, ← h1'.1, ← hd]; exact ⟨rfl, h1'.2⟩
    have h3 := postChecks_only env related (m2.addNotes (lengthNotes m2))
    generalize postChecks _ _ _ = pc at h3
    obtain ⟨r, rn⟩ := pc
    dsimp only
    have h4 : OnlyNotes m2 (Run.andThen r fun m _ =>
        Run.andThen (postCheckHandlers env related false (m.headers.handlers.map (·.2)) m) fun m _ =>
        postCheckHandlers env related true (m.trailers.handlers.map (·.2)) m).1 := by
      refine (OnlyNotes.add m2 _).trans (andThen_only h3 fun m4 _ => ?_)
      exact andThen_only (postCheckHandlers_only _ _ _ _ _) fun m5 _ => postCheckHandlers_only _ _ _ _ _
    have h5 := (contentOf_only h4).trans h2.1
    refine ⟨?_, .inr h5, fun _ => ?_⟩
    · obtain ⟨_, ns, ca, h⟩ := h4; rw [h]; exact h2.2
    · have := congrArg (fun s => s.decoded.hash) h5
      exact this

/-! ### C24 -/

/-- the bytes fed by a sequence of calls -/
def fed : List Op → Str
  | [] => []
  | .feed c :: ops => c ++ fed ops
  | _ :: ops => fed ops

theorem feedContent_content (env chunk) (m : Msg) :
    let m' := (m.feedContent env chunk).1
    m'.contentLength = m.contentLength + chunk.length ∧ m'.noContent = m.noContent ∧
    m'.hashed = if m.noContent then m.hashed else m.hashed ++ chunk := by
  unfold Msg.feedContent
  dsimp only
  split
  · exact ⟨rfl, rfl, rfl⟩
  · unfold Msg.decodeFeed
    dsimp only
    have hs : ∀ (out : List Str) (m : Msg), (out.foldl Msg.sink m).contentLength = m.contentLength ∧
        (out.foldl Msg.sink m).noContent = m.noContent ∧ (out.foldl Msg.sink m).hashed = m.hashed := by
      intro out
      induction out with
      | nil => intro m; exact ⟨rfl, rfl, rfl⟩
      | cons c out ih => intro m; exact ih _
    split
    · exact ⟨rfl, rfl, rfl⟩
    · split
      · exact ⟨rfl, rfl, rfl⟩
      · exact hs _ _

theorem runAll_content (env : Env) (ops : List Op) (w : World) :
    let m := (Op.runAll env ops w).msg
    m.contentLength = w.msg.contentLength + (fed ops).length ∧ m.noContent = w.msg.noContent ∧
    m.hashed = if w.msg.noContent then w.msg.hashed else w.msg.hashed ++ fed ops := by
  induction ops generalizing w with
  | nil => simp [Op.runAll, fed]
  | cons op ops ih =>
    simp only [Op.runAll]
    have key : ∀ w' : World, contentOf w'.msg = contentOf w.msg ∨
        (∃ d, contentOf w'.msg = { contentOf w.msg with decoded := d }) →
        fed (op :: ops) = fed ops → (op.run env w).1 = w' →
        let m := (Op.runAll env ops (op.run env w).1).msg
        m.contentLength = w.msg.contentLength + (fed (op :: ops)).length ∧ m.noContent = w.msg.noContent ∧
        m.hashed = if w.msg.noContent then w.msg.hashed else w.msg.hashed ++ fed (op :: ops) := by
      intro w' hc hf hw
      rw [hw, hf]
      have h := ih w'
      have hc' : w'.msg.contentLength = w.msg.contentLength ∧ w'.msg.noContent = w.msg.noContent ∧
          w'.msg.hashed = w.msg.hashed := by
        rcases hc with hc | ⟨d, hc⟩ <;>
        exact ⟨congrArg ContentState.contentLength hc, congrArg ContentState.noContent hc,
          congrArg ContentState.hashed hc⟩
      rw [← hc'.1, ← hc'.2.1, ← hc'.2.2]
      exact h
    cases op with
    | requestTopline me i v => exact key _ (.inl (contentOf_requestTopline _ _ _ _ _)) rfl rfl
    | responseTopline v s p => exact key _ (.inl (contentOf_responseTopline _ _ _ _)) rfl rfl
    | headers ls => exact key _ (.inl (contentOf_processHeaders _ _ _ _)) rfl rfl
    | finish c ts =>
      refine key _ ?_ rfl rfl
      rcases (finishContent_content env w.related c ts w.msg).2.1 with h | h
      · exact .inl h
      · exact .inr ⟨_, h⟩
    | feed c =>
      have h := feedContent_content env c w.msg
      have hi := ih (Op.run env (.feed c) w).1
      change _ ∧ _ ∧ _ at h
      have he : (Op.run env (.feed c) w).1.msg = (w.msg.feedContent env c).1 := rfl
      dsimp only at hi ⊢
      rw [he, h.1, h.2.1, h.2.2] at hi
      simp only [fed, List.length_append]
      refine ⟨by rw [hi.1]; omega, hi.2.1, ?_⟩
      rw [hi.2.2]
      cases w.msg.noContent <;> simp

/-- **C24**: after any history of calls on a new linter, `content_length` is the number of bytes fed; finishing
then sets `content_hash` to the MD5 of exactly those bytes, in order (of nothing, with `no_content`). -/
theorem C24_length_and_hash (env : Env) (kind : MsgKind) (start : Option Rat) (noContent : Bool)
    (related : Option Msg) (ops : List Op) (complete : Bool) (trailers : List (Str × Str)) :
    let new : World := { msg := Msg.new env kind start noContent, related := related }
    (Op.runAll env ops new).msg.contentLength = (fed ops).length ∧
    ((Op.finish complete trailers).run env (Op.runAll env ops new)).1.msg.contentHash =
      some (env.md5 (if noContent then [] else fed ops)) := by
  have h := runAll_content env ops { msg := Msg.new env kind start noContent, related := related }
  simp only [Msg.new, List.nil_append, Nat.zero_add] at h
  refine ⟨h.1, ?_⟩
  have hf := (finishContent_content env
    (Op.runAll env ops { msg := Msg.new env kind start noContent, related := related }).related complete trailers
    (Op.runAll env ops { msg := Msg.new env kind start noContent, related := related }).msg).1
  simp only [Op.run, Msg.new] at hf ⊢
  rw [hf, h.2.2]
  cases noContent <;> rfl

/-- **C24**, two chunkings of the same bytes (whatever other calls come between) agree. -/
theorem C24_chunking_irrelevant (env : Env) (kind : MsgKind) (start : Option Rat) (noContent : Bool)
    (related : Option Msg) (ops ops' : List Op) (same : fed ops = fed ops') (c c' : Bool)
    (ts ts' : List (Str × Str)) :
    let new : World := { msg := Msg.new env kind start noContent, related := related }
    ((Op.runAll env ops new).msg.contentLength = (Op.runAll env ops' new).msg.contentLength) ∧
    ((Op.finish c ts).run env (Op.runAll env ops new)).1.msg.contentHash =
      ((Op.finish c' ts').run env (Op.runAll env ops' new)).1.msg.contentHash := by
  have h := C24_length_and_hash env kind start noContent related ops c ts
  have h' := C24_length_and_hash env kind start noContent related ops' c' ts'
  dsimp only at h h' ⊢
  rw [h.1, h.2, h'.1, h'.2, same]
  exact ⟨rfl, rfl⟩

example : fed [.headers [], .feed (str "ab"), .feed [], .feed (str "c")] = str "abc" := by decide
example : fed [.feed (str "a"), .feed (str "bc")] = fed [.feed (str "ab"), .feed (str "c")] := by decide

/-! ### C25 -/

/-- the sample is the beginning of the decoded content, and its length is counted -/
def Sampled (m : Msg) : Prop :=
  m.contentSample = m.decoded.hashed.take 8192 ∧ m.decoded.length = m.decoded.hashed.length

theorem sampleAppend_take (s x : Str) : sampleAppend (s.take 8192) x = (s ++ x).take 8192 := by
  unfold sampleAppend contentSampleSize
  rw [List.length_take, List.take_append]
  by_cases h : s.length < 8192
  · rw [if_pos (by omega)]
    rw [show min 8192 s.length = s.length by omega, List.take_of_length_le (by omega)]
  · rw [if_neg (by omega), show 8192 - s.length = 0 by omega]; simp

theorem sink_sampled {m : Msg} (h : Sampled m) (x : Str) : Sampled (m.sink x) := by
  refine ⟨?_, ?_⟩
  · show sampleAppend m.contentSample x = (m.decoded.hashed ++ x).take 8192
    rw [h.1, sampleAppend_take]
  · show m.decoded.length + x.length = (m.decoded.hashed ++ x).length
    rw [h.2, List.length_append]

theorem sinks_sampled (out : List Str) {m : Msg} (h : Sampled m) : Sampled (out.foldl Msg.sink m) := by
  induction out generalizing m with
  | nil => exact h
  | cons x out ih => exact ih (sink_sampled h x)

theorem feedContent_sampled (env chunk) {m : Msg} (h : Sampled m) : Sampled (m.feedContent env chunk).1 := by
  unfold Msg.feedContent
  dsimp only
  split
  · exact h
  · unfold Msg.decodeFeed
    dsimp only
    split
    · exact h
    · split
      · exact h
      · dsimp only
        exact sinks_sampled _ (m := Msg.addNotes { m with contentLength := _, hashed := _ } _) h

theorem sampled_of_content {m m' : Msg} (h : Sampled m) (hc : contentOf m' = contentOf m ∨
    ∃ hs, contentOf m' = { contentOf m with decoded := { m.decoded with hash := hs } }) : Sampled m' := by
  unfold Sampled at *
  rcases hc with hc | ⟨x, hc⟩ <;>
  · have h1 := congrArg ContentState.contentSample hc
    have h2 := congrArg ContentState.decoded hc
    simp only [contentOf] at h1 h2
    rw [h1, h2]; exact h

/-- **C25**: at every moment of every history of calls on a new linter, `content_sample` is the first 8192 bytes
of the decoded content (whatever chunks it arrived in), and `decoded.length` is its length. -/
theorem C25_sample (env : Env) (kind : MsgKind) (start : Option Rat) (noContent : Bool) (related : Option Msg)
    (ops : List Op) :
    let m := (Op.runAll env ops { msg := Msg.new env kind start noContent, related := related }).msg
    m.contentSample = m.decoded.hashed.take 8192 ∧ m.decoded.length = m.decoded.hashed.length := by
  have key : ∀ (ops : List Op) (w : World), Sampled w.msg → Sampled (Op.runAll env ops w).msg := by
    intro ops
    induction ops with
    | nil => intro w h; exact h
    | cons op ops ih =>
      intro w h
      refine ih _ ?_
      cases op with
      | requestTopline me i v => exact sampled_of_content h (.inl (contentOf_requestTopline _ _ _ _ _))
      | responseTopline v s p => exact sampled_of_content h (.inl (contentOf_responseTopline _ _ _ _))
      | headers ls => exact sampled_of_content h (.inl (contentOf_processHeaders _ _ _ _))
      | feed c => exact feedContent_sampled env c h
      | finish c ts =>
        refine sampled_of_content h ?_
        rcases (finishContent_content env w.related c ts w.msg).2.1 with h | h
        · exact .inl h
        · exact .inr ⟨_, h⟩
  exact key ops { msg := Msg.new env kind start noContent, related := related }
    ⟨by simp [Msg.new], by simp [Msg.new]⟩

/-! ### C32: what is decoded, at the level of the message -/

/-- feed chunks one after the other -/
def feedAll (env : Env) (chunks : List Str) (m : Msg) : Msg := chunks.foldl (fun m c => (m.feedContent env c).1) m

/-- the chunks with the value `content_length` has when each is decoded -/
def tagged : Nat → List Str → List (Nat × Str)
  | _, [] => []
  | n, c :: cs => (n + c.length, c) :: tagged (n + c.length) cs

theorem sinks_hashed (out : List Str) (m : Msg) :
    (out.foldl Msg.sink m).decoded.hashed = m.decoded.hashed ++ out.flatten ∧
    (out.foldl Msg.sink m).decoded.decodeOk = m.decoded.decodeOk ∧
    (out.foldl Msg.sink m).decoded.pipeline = m.decoded.pipeline ∧
    (out.foldl Msg.sink m).defaults = m.defaults := by
  induction out generalizing m with
  | nil => simp
  | cons c out ih =>
    obtain ⟨h1, h2, h3, h4⟩ := ih (m.sink c)
    refine ⟨?_, h2, h3, h4⟩
    rw [List.foldl_cons, h1]
    show (m.decoded.hashed ++ c) ++ out.flatten = _
    simp

/-- one feed, for a message whose pipeline is known -/
theorem feedContent_pipe (env : Env) (chunk : Str) (m : Msg) (ds : List Decoder) (hn : m.noContent = false)
    (hok : m.decoded.decodeOk = true)
    (hp : m.decoded.pipeline = some ds ∨ m.decoded.pipeline = none ∧
      ((dget m.headers.parsed (str "content-encoding") = none ∧ ds = []) ∨
       ∃ v codings, dget m.headers.parsed (str "content-encoding") = some v ∧ v.iter = .ok codings ∧
         ds = buildPipeline codings)) :
    let r := feedPipe ⟨env, m.defaults, m.contentLength + chunk.length⟩ ds.length ds chunk
    let m' := (m.feedContent env chunk).1
    m'.noContent = false ∧ m'.decoded.decodeOk = true ∧ m'.decoded.pipeline = some r.decs ∧
    m'.defaults = m.defaults ∧ m'.contentLength = m.contentLength + chunk.length ∧
    m'.decoded.hashed = m.decoded.hashed ++ r.out.flatten ∧ m'.notes = m.notes ++ r.notes := by
  have hc := feedContent_content env chunk m
  have hb : m.decoders = .ok ds := by
    unfold Msg.decoders
    rcases hp with hp | ⟨hp, ⟨hp2, rfl⟩ | ⟨v, cs, hp2, hp3, rfl⟩⟩
    · rw [hp]
    · rw [hp, hp2]
    · rw [hp, hp2]; simp [hp3, Except.map]
  dsimp only at hc ⊢
  refine ⟨hc.2.1.trans hn, ?_⟩
  unfold Msg.feedContent Msg.decodeFeed
  dsimp only
  rw [if_neg (by simp [hn]), if_neg (by simp [hok])]
  have hb' : Msg.decoders
      { m with contentLength := m.contentLength + chunk.length, hashed := m.hashed ++ chunk } = .ok ds := hb
  rw [hb']
  dsimp only
  generalize hr : feedPipe _ ds.length ds chunk = r
  generalize hmm : Msg.addNotes _ r.notes = m1
  have hs := sinks_hashed r.out m1
  refine ⟨hs.2.1.trans (by rw [← hmm]; exact hok), rfl, hs.2.2.2.trans (by rw [← hmm]; rfl), ?_, ?_, ?_⟩
  · have : ∀ (out : List Str) (m : Msg), (out.foldl Msg.sink m).contentLength = m.contentLength := by
      intro out
      induction out with
      | nil => intro m; rfl
      | cons c out ih => intro m; exact ih _
    rw [this, ← hmm]; rfl
  · rw [hs.1, ← hmm]; rfl
  · rw [sinks_notes, ← hmm]; rfl

/-- **C32**, at the level of the message: when the headers' Content-Encoding is the list `codings` (or absent) and
no content has been decoded yet, then after feeding any chunks the decoded content is what the pipeline of
`codings` -- last coding first, by `C32_last_coding_first` and `C32_pipeline_stages` -- makes of the chunks, and the
notes added are that pipeline's notes. -/
theorem C32_decoded_content (env : Env) (chunks : List Str) (m : Msg) (ds : List Decoder)
    (hn : m.noContent = false) (hok : m.decoded.decodeOk = true) (hne : chunks ≠ [])
    (hp : m.decoded.pipeline = none)
    (hce : (dget m.headers.parsed (str "content-encoding") = none ∧ ds = []) ∨
       ∃ v codings, dget m.headers.parsed (str "content-encoding") = some v ∧ v.iter = .ok codings ∧
         ds = buildPipeline codings) :
    let r := runPipe env m.defaults ds (tagged m.contentLength chunks)
    let m' := feedAll env chunks m
    m'.decoded.hashed = m.decoded.hashed ++ r.out.flatten ∧ m'.notes = m.notes ++ r.notes ∧
    m'.decoded.pipeline = some r.decs := by
  have key : ∀ (chunks : List Str) (m : Msg) (ds : List Decoder), m.noContent = false →
      m.decoded.decodeOk = true → m.decoded.pipeline = some ds →
      let r := runPipe env m.defaults ds (tagged m.contentLength chunks)
      let m' := feedAll env chunks m
      m'.decoded.hashed = m.decoded.hashed ++ r.out.flatten ∧ m'.notes = m.notes ++ r.notes ∧
      m'.decoded.pipeline = some r.decs := by
    intro chunks
    induction chunks with
    | nil => intro m ds _ _ h; simp [tagged, runPipe, feedAll, h]
    | cons c cs ih =>
      intro m ds h1 h2 h3
      obtain ⟨k1, k2, k3, k4, k5, k6, k7⟩ := feedContent_pipe env c m ds h1 h2 (.inl h3)
      obtain ⟨i1, i2, i3⟩ := ih _ _ k1 k2 k3
      rw [k4, k5] at i1 i2 i3
      rw [k6] at i1
      rw [k7] at i2
      simp only [tagged, runPipe, feedAll, List.foldl_cons, List.flatten_append] at i1 i2 i3 ⊢
      refine ⟨?_, ?_, i3⟩
      · rw [i1]; simp
      · rw [i2]; simp
  cases chunks with
  | nil => exact absurd rfl hne
  | cons c cs =>
    obtain ⟨k1, k2, k3, k4, k5, k6, k7⟩ := feedContent_pipe env c m ds hn hok (.inr ⟨hp, hce⟩)
    obtain ⟨i1, i2, i3⟩ := key cs _ _ k1 k2 k3
    rw [k4, k5] at i1 i2 i3
    rw [k6] at i1
    rw [k7] at i2
    simp only [tagged, runPipe, feedAll, List.foldl_cons, List.flatten_append] at i1 i2 i3 ⊢
    refine ⟨?_, ?_, i3⟩
    · rw [i1]; simp
    · rw [i2]; simp

/-- non-vacuity: a response with `Content-Encoding: br`, fed in two chunks, the second of which is broken -/
example :
    let m := (Op.runAll toyEnv [.responseTopline (str "1.1") (str "200") none,
      .headers [(str "Content-Encoding", str "br")], .feed (str "abc"), .feed [1, 255], .feed (str "x")]
      { msg := Msg.new toyEnv .response }).msg
    m.decoded.hashed = str "abc" ∧ m.contentSample = str "abc" ∧ m.contentLength = 6 ∧
    m.notes.map (·.cls) = [.BAD_BROTLI] := by decide +kernel

end HL.Props
