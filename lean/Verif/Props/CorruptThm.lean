import Verif.Props.Feeding
import Verif.Props.Outcome

/-!
# C106: corrupt compressed content

When the decompressor raises, this is reported once, with its message and the chunk at fault; and only then.
-/

namespace HL.Props

/-! ### specification -/

/-- the last of these calls of a decompressor, made one after the other, raised `msg` -/
def Raised (lib : List Str → Str → ZResult) (calls : List Str) (msg : Str) : Prop :=
  ∃ earlier x, calls = earlier ++ [x] ∧ lib earlier x = .err msg

/-- none of them raised -/
def NoneRaised (lib : List Str → Str → ZResult) (calls : List Str) : Prop :=
  ∀ earlier x later, calls = earlier ++ x :: later → ∀ msg, lib earlier x ≠ .err msg

/-- the class of the report, and the names of its variables -/
def corruptClass : CodingKind → NoteId
  | .gzip => .BAD_ZLIB
  | .br => .BAD_BROTLI
def errorVar : CodingKind → Str
  | .gzip => str "zlib_error"
  | .br => str "brotli_error"
def lengthVar : CodingKind → Str
  | .gzip => str "ok_zlib_len"
  | .br => str "ok_brotli_len"

/-! ### the library calls of a decoder -/

theorem NoneRaised.nil (lib) : NoneRaised lib [] := by
  intro e x l h
  cases e <;> exact nomatch h

theorem NoneRaised.snoc {lib : List Str → Str → ZResult} {calls : List Str} {x : Str} (h : NoneRaised lib calls)
    (hx : ∀ msg, lib calls x ≠ .err msg) : NoneRaised lib (calls ++ [x]) := by
  intro e y l he msg
  rcases List.eq_nil_or_concat l with rfl | ⟨l', z, rfl⟩
  · have := List.append_inj' he rfl
    obtain ⟨rfl, h2⟩ := this
    cases h2
    exact hx msg
  · have he' : calls ++ [x] = (e ++ y :: l') ++ [z] := by rw [he]; simp
    obtain ⟨h1, _⟩ := List.append_inj' he' rfl
    exact h e y l' h1 msg

theorem NoneRaised.not {lib : List Str → Str → ZResult} {calls : List Str} {msg : Str} (h : NoneRaised lib calls) : ¬ Raised lib calls msg := by
  rintro ⟨e, x, he, hx⟩
  exact h e x [] he msg hx

/-- how inflating ends, in terms of the calls made -/
def InfCalls (env : Env) (r : InfOut) : Prop :=
  match r.fin with
  | .error msg => ∃ earlier x, r.history = earlier ++ [x] ∧ env.inflate earlier x = .err msg ∧ NoneRaised env.inflate earlier
  | _ => NoneRaised env.inflate r.history

theorem inflateTail_calls (env : Env) (history : List Str) (count : Nat) (tail : Str) :
    NoneRaised env.inflate history → InfCalls env (inflateTail env history count tail) := by
  induction history, count, tail using inflateTail.induct (env := env) with
  | case1 history count tail h =>
    intro hn
    unfold inflateTail; rw [if_pos h]
    exact hn
  | case2 history count tail h msg he =>
    intro hn
    unfold inflateTail; rw [if_neg h, he]
    exact ⟨history, tail, rfl, he, hn⟩
  | case3 history count tail h out tail' he h0 =>
    intro hn
    unfold inflateTail; rw [if_neg h, he]; simp only [h0, dite_true]
    exact hn.snoc (by intro msg; rw [he]; simp)
  | case4 history count tail h out tail' he h0 hl =>
    intro hn
    unfold inflateTail; rw [if_neg h, he]; simp only [h0, dite_false, hl, dite_true]
    exact hn.snoc (by intro msg; rw [he]; simp)
  | case5 history count tail h out tail' he h0 hl ih =>
    intro hn
    unfold inflateTail; rw [if_neg h, he]; simp only [h0, dite_false, hl]
    exact ih (hn.snoc (by intro msg; rw [he]; simp))

theorem inflateChunk_calls (env : Env) (history : List Str) (count : Nat) (chunk : Str) (hn : NoneRaised env.inflate history) :
    InfCalls env (inflateChunk env history count chunk) := by
  unfold inflateChunk
  split
  · rename_i msg he
    exact ⟨history, chunk, rfl, he, hn⟩
  · rename_i out tail he
    have hn' := hn.snoc (x := chunk) (by intro msg; rw [he]; simp)
    split
    · exact inflateTail_calls env _ _ _ hn'
    · split
      · exact hn'
      · exact inflateTail_calls env (history ++ [chunk]) (count + out.length) tail hn'

/-- what one call of a working decoder does about errors: `p` is what it is given to decompress -/
inductive StepErr (env : Env) (n : Nat) (x : Str) (kind : CodingKind) (s : StepOut) : Prop
  | fine : NoneRaised (libOf env kind) s.dec.history → (∀ y ∈ s.notes, y.cls ≠ corruptClass kind) → StepErr env n x kind s
  | raised (msg p : Str) (y : Note) : s.dec.ok = false → s.notes = [y] → y.cls = corruptClass kind → y.subject = str "field-content-encoding" →
      dget y.vars (errorVar kind) = some (.str msg) → dget y.vars (lengthVar kind) = some (.str (fNum n)) →
      dget y.vars (str "chunk_sample") = some (.str (displayBytes env.printable p)) → p <:+ x →
      (∃ earlier c, s.dec.history = earlier ++ [c] ∧ libOf env kind earlier c = .err msg ∧ NoneRaised (libOf env kind) earlier) →
      StepErr env n x kind s

theorem payload_err (env df n) (d : Decoder) (x p : Str) (hp : p <:+ x) (hn : NoneRaised env.inflate d.history) :
    StepErr env n x .gzip (d.gzipPayload ⟨env, df, n⟩ p) := by
  have h := inflateChunk_calls env d.history d.decompressed p hn
  unfold Decoder.gzipPayload
  generalize inflateChunk env d.history d.decompressed p = r at h
  unfold InfCalls at h
  dsimp only
  cases hf : r.fin with
  | done => rw [hf] at h; exact .fine h (by simp)
  | limit => rw [hf] at h; exact .fine h (by simp [corruptClass])
  | error msg =>
    rw [hf] at h
    refine .raised msg p _ rfl rfl rfl rfl ?_ ?_ ?_ hp h
    all_goals rw [dget_mk1_nobase rfl]; rfl

/-- what one call does to an incomplete header: the payload is a suffix of the chunk -/
theorem header_suffix {b x r : Str} (hb : readGzipHeader b = .incomplete) (h : readGzipHeader (b ++ x) = .ok r) : r <:+ x := by
  obtain ⟨z, hz, e⟩ := (C29_gzip_header_ok _ _).1 h
  by_cases hl : b.length ≤ z.length
  · have h1 : z = (b ++ x).take z.length := by rw [e, List.take_left]
    have h2 : r = (b ++ x).drop z.length := by rw [e, List.drop_left]
    rw [h2, List.drop_append, List.drop_eq_nil_of_le hl, List.nil_append]
    exact List.drop_suffix _ _
  · exfalso
    have h2 : b = z ++ (b.drop z.length) := by
      have : b.take z.length = z := by
        have h3 := congrArg (List.take z.length) e
        rw [List.take_left, List.take_append, show z.length - b.length = 0 by omega, List.take_zero, List.append_nil] at h3
        exact h3
      rw [← this, List.length_take, Nat.min_eq_left (by omega), List.take_append_drop]
    have := (C29_gzip_header_ok b (b.drop z.length)).2 ⟨z, hz, h2⟩
    rw [hb] at this
    exact nomatch this

/-- a decoder while it works: nothing raised, and the header it is waiting for is not complete -/
structure Working (env : Env) (d : Decoder) : Prop where
  calls : NoneRaised (libOf env d.kind) d.history
  header : d.inGzip = false → readGzipHeader d.headerBuf = .incomplete

theorem step_err (env df n) (d : Decoder) (x : Str) (hok : d.ok = true) (hw : Working env d) :
    StepErr env n x d.kind (d.step ⟨env, df, n⟩ x) ∧ ((d.step ⟨env, df, n⟩ x).dec.ok = true → Working env (d.step ⟨env, df, n⟩ x).dec) ∧
      (d.step ⟨env, df, n⟩ x).dec.kind = d.kind := by
  unfold Decoder.step
  cases hk : d.kind with
  | gzip =>
    have hc : NoneRaised env.inflate d.history := by simpa [hk, libOf] using hw.calls
    have pay : ∀ (d' : Decoder) (p : Str), d'.kind = .gzip → d'.ok = true → d'.inGzip = true → d'.history = d.history → p <:+ x →
        StepErr env n x .gzip (d'.gzipPayload ⟨env, df, n⟩ p) ∧
        ((d'.gzipPayload ⟨env, df, n⟩ p).dec.ok = true → Working env (d'.gzipPayload ⟨env, df, n⟩ p).dec) ∧
        (d'.gzipPayload ⟨env, df, n⟩ p).dec.kind = .gzip := by
      intro d' p h1 h2 h3 h4 hp
      have he := payload_err env df n d' x p hp (h4 ▸ hc)
      refine ⟨he, fun ho => ?_, ?_⟩
      · have hki : (d'.gzipPayload ⟨env, df, n⟩ p).dec.kind = .gzip ∧ (d'.gzipPayload ⟨env, df, n⟩ p).dec.inGzip = true := by
          unfold Decoder.gzipPayload; dsimp only; split <;> exact ⟨h1, h3⟩
        rcases he with he | ⟨_, _, _, he⟩
        · exact ⟨by rw [hki.1]; exact he, fun e => by rw [hki.2] at e; exact nomatch e⟩
        · rw [he] at ho; exact nomatch ho
      · unfold Decoder.gzipPayload; dsimp only; split <;> exact h1
    simp only [Decoder.gzipStep, hok, Bool.not_true, Bool.false_eq_true, if_false]
    split
    · exact pay d x hk hok (by assumption) rfl (List.suffix_refl _)
    · rename_i hin
      have hin : d.inGzip = false := by simpa using hin
      split
      · rename_i hr
        exact ⟨.fine hc (by simp), fun _ => ⟨by rw [hk]; exact hc, fun _ => hr⟩, hk⟩
      · exact ⟨.fine hc (by simp [corruptClass]), fun ho => (nomatch ho), hk⟩
      · rename_i rest hr
        exact pay { d with ok := true, inGzip := true, headerBuf := [] } rest hk rfl rfl rfl (header_suffix (hw.header hin) hr)
  | br =>
    have hc : NoneRaised env.brotli d.history := by simpa [hk, libOf] using hw.calls
    simp only [Decoder.brotliStep, hok, Bool.not_true, Bool.false_eq_true, if_false]
    split
    · rename_i msg he
      refine ⟨.raised msg x _ rfl rfl rfl rfl ?_ ?_ ?_ (List.suffix_refl _) ⟨d.history, x, rfl, he, hc⟩, fun ho => (nomatch ho), hk⟩
      all_goals rw [dget_mk1_nobase rfl]; rfl
    · rename_i out tl he
      have hc' : NoneRaised env.brotli (d.history ++ [x]) := hc.snoc (by intro msg; rw [he]; simp)
      split
      · exact ⟨.fine hc' (by simp), fun _ => ⟨by rw [hk]; exact hc', hw.header⟩, hk⟩
      · split
        · exact ⟨.fine hc' (by simp [corruptClass]), fun ho => (nomatch ho), hk⟩
        · exact ⟨.fine hc' (by simp), fun _ => ⟨by rw [hk]; exact hc', hw.header⟩, hk⟩

/-- what a report of corrupt content says: the error raised, and where -/
structure CorruptReport (env : Env) (df : Dict Val) (kind : CodingKind) (fs : List (Nat × Str)) (msg : Str) (y : Note) : Prop where
  cls : y.cls = corruptClass kind
  subject : y.subject = str "field-content-encoding"
  error : dget y.vars (errorVar kind) = some (.str msg)
  /-- it was raised when the chunk `x` was fed, for a part `p` at its end (all of it, unless a header ends in it) -/
  chunk : ∃ before n x after p, fs = before ++ (n, x) :: after ∧ (runDec env df { kind := kind } before).notes = [] ∧ p <:+ x ∧
    dget y.vars (lengthVar kind) = some (.str (fNum n)) ∧ dget y.vars (str "chunk_sample") = some (.str (displayBytes env.printable p))

/-- **C106** for a decoder: over any sequence of chunks, the report is made (once, by C31) exactly when a call of the
decompressor raises, with what it raised; and the decompressor is not called again. -/
theorem C106_decoder_reports_errors_partial (env : Env) (df : Dict Val) (kind : CodingKind) (fs : List (Nat × Str)) (msg : Str) :
    let r := runDec env df { kind := kind } fs
    (Raised (libOf env kind) r.dec.history msg ↔ ∃ y, r.notes = [y] ∧ CorruptReport env df kind fs msg y) ∧
    ((∀ msg, ¬ Raised (libOf env kind) r.dec.history msg) → ∀ y ∈ r.notes, y.cls ≠ corruptClass kind) ∧
    (∀ earlier x later e, r.dec.history = earlier ++ x :: later → libOf env kind earlier x = .err e → later = []) := by
  have key : ∀ (fs before : List (Nat × Str)) (d : Decoder), d.kind = kind → d.ok = true → Working env d →
      (runDec env df { kind := kind } before).dec = d → (runDec env df { kind := kind } before).notes = [] →
      let r := runDec env df d fs
      (NoneRaised (libOf env kind) r.dec.history ∧ ∀ y ∈ r.notes, y.cls ≠ corruptClass kind) ∨
      (∃ msg y, r.notes = [y] ∧ CorruptReport env df kind (before ++ fs) msg y ∧
        ∃ earlier c, r.dec.history = earlier ++ [c] ∧ libOf env kind earlier c = .err msg ∧ NoneRaised (libOf env kind) earlier) := by
    intro fs
    induction fs with
    | nil =>
      intro before d hk hok hw _ _
      exact .inl ⟨by rw [← hk]; exact hw.calls, by simp [runDec]⟩
    | cons f fs ih =>
      intro before d hk hok hw hd hb
      obtain ⟨n, x⟩ := f
      obtain ⟨he, hw', hk'⟩ := step_err env df n d x hok hw
      have hn := step_notes ⟨env, df, n⟩ d x hok
      simp only [runDec]
      have hrun : runDec env df { kind := kind } (before ++ [(n, x)]) =
          { dec := (d.step ⟨env, df, n⟩ x).dec, out := (runDec env df { kind := kind } before).out ++ ((d.step ⟨env, df, n⟩ x).pieces.map fun p => (n, p)),
            notes := (d.step ⟨env, df, n⟩ x).notes } := by
        rw [runDec_append, hd, hb]; simp [runDec]
      generalize d.step ⟨env, df, n⟩ x = s at *
      rw [hk] at he hk'
      rcases hn with ⟨n1, n2⟩ | ⟨_, n2⟩
      · have := ih (before ++ [(n, x)]) s.dec hk' n2 (hw' n2) (by rw [hrun]) (by rw [hrun]; exact n1)
        rw [n1, List.nil_append]
        simpa using this
      · rw [runDec_not_ok env df n2]
        rw [List.append_nil]
        rcases he with ⟨h1, h2⟩ | ⟨msg, p, y, h1, h2, h3, h4, h5, h6, h7, h8, h9⟩
        · exact .inl ⟨h1, h2⟩
        · exact .inr ⟨msg, y, h2, ⟨h3, h4, h5, before, n, x, fs, p, rfl, hb, h8, h6, h7⟩, h9⟩
  have := key fs [] { kind := kind } rfl rfl ⟨NoneRaised.nil _, fun _ => rfl⟩ rfl rfl
  rw [List.nil_append] at this
  intro r
  rcases this with ⟨h1, h2⟩ | ⟨m', y, h1, h2, e, c, h3, h4, h5⟩
  · refine ⟨⟨fun h => absurd h h1.not, ?_⟩, fun _ => h2, ?_⟩
    · rintro ⟨y, hy, hr⟩
      exact absurd hr.cls (h2 y (by rw [hy]; simp))
    · intro e x l msg he hx
      exact absurd hx (h1 e x l he msg)
  · refine ⟨⟨?_, ?_⟩, fun h => absurd ⟨e, c, h3, h4⟩ (h m'), ?_⟩
    · rintro ⟨e', c', h6, h7⟩
      rw [h3] at h6
      obtain ⟨rfl, h8⟩ := List.append_inj' h6 rfl
      cases h8
      rw [h4] at h7
      cases h7
      exact ⟨y, h1, h2⟩
    · rintro ⟨y', hy', hr⟩
      rw [h1] at hy'
      cases hy'
      have := hr.error
      rw [h2.error] at this
      cases this
      exact ⟨e, c, h3, h4⟩
    · intro e' x l msg he hx
      rw [h3] at he
      rcases List.eq_nil_or_concat l with rfl | ⟨l', z, rfl⟩
      · rfl
      · have he' : e ++ [c] = (e' ++ x :: l') ++ [z] := by rw [he]; simp
        obtain ⟨h6, _⟩ := List.append_inj' he' rfl
        exact absurd hx (h5 e' x l' h6 msg)

theorem perm_short {α} {l a : List α} (h : l.Perm a) (hl : a.length ≤ 1) : l = a := by
  cases a with
  | nil => exact h.eq_nil
  | cons x a =>
    cases a with
    | nil => exact List.perm_singleton.1 h
    | cons y a => simp at hl

/-- a pipeline of one decoder is that decoder -/
theorem runPipe_one (env : Env) (df : Dict Val) (kind : CodingKind) (fs : List (Nat × Str)) :
    (runPipe env df [{ kind := kind }] fs).notes = (runDec env df { kind := kind } fs).notes ∧
    (runPipe env df [{ kind := kind }] fs).decs = [(runDec env df { kind := kind } fs).dec] := by
  obtain ⟨_, h2, h3⟩ := C32_pipeline_stages env df { kind := kind } [] fs
  have he : ∀ l : List (Nat × Str), (runPipe env df [] l).notes = [] ∧ (runPipe env df [] l).decs = [] := by
    intro l
    induction l with
    | nil => exact ⟨rfl, rfl⟩
    | cons p l ih => obtain ⟨n, x⟩ := p; exact ⟨ih.1, ih.2⟩
  rw [(he _).1, List.nil_append] at h3
  rw [(he _).2] at h2
  refine ⟨?_, h2⟩
  have hl := (C31_failed_decoder_silent env df { kind := kind } rfl fs []).1
  exact perm_short h3 hl

/-- **C106**: when content in one coding (gzip or br) is fed to a new message, it is reported as corrupt exactly when a
call of the decompressor raised an error, with the error and the chunk; what is decoded is what the decompressor
returned (C30, C32). -/
theorem C106_message_reports_errors_partial (env : Env) (chunks : List Str) (m : Msg) (kind : CodingKind) (coding : Str)
    (hn : m.noContent = false) (hok : m.decoded.decodeOk = true) (hne : chunks ≠ []) (hp : m.decoded.pipeline = none)
    (hce : dget m.headers.parsed (str "content-encoding") = some (.list [.str coding]))
    (hc : coding ∈ [str "gzip", str "x-gzip"] ∧ kind = .gzip ∨ coding = str "br" ∧ kind = .br) :
    ∃ d, (feedAll env chunks m).decoded.pipeline = some [d] ∧
      (∀ msg, Raised (libOf env kind) d.history msg ↔
        ∃ y, (feedAll env chunks m).notes = m.notes ++ [y] ∧ CorruptReport env m.defaults kind (tagged m.contentLength chunks) msg y) ∧
      ((∀ msg, ¬ Raised (libOf env kind) d.history msg) → ∀ y ∈ (feedAll env chunks m).notes, y.cls = corruptClass kind → y ∈ m.notes) := by
  have hb : buildPipeline [.str coding] = [{ kind := kind }] := by
    rcases hc with ⟨h, rfl⟩ | ⟨rfl, rfl⟩
    · simp only [List.mem_cons, List.not_mem_nil, or_false] at h
      rcases h with rfl | rfl <;> decide
    · decide
  have h := C32_decoded_content env chunks m [{ kind := kind }] hn hok hne hp (.inr ⟨_, _, hce, rfl, hb.symm⟩)
  obtain ⟨_, h2, h3⟩ := h
  obtain ⟨e1, e2⟩ := runPipe_one env m.defaults kind (tagged m.contentLength chunks)
  rw [e1] at h2
  rw [e2] at h3
  refine ⟨_, h3, fun msg => ?_, fun hno y hy hcl => ?_⟩
  · rw [(C106_decoder_reports_errors_partial env m.defaults kind (tagged m.contentLength chunks) msg).1, h2]
    constructor
    · rintro ⟨y, hy, hr⟩
      exact ⟨y, by rw [hy], hr⟩
    · rintro ⟨y, hy, hr⟩
      exact ⟨y, List.append_cancel_left hy, hr⟩
  · rw [h2] at hy
    rcases List.mem_append.1 hy with hy | hy
    · exact hy
    · exact absurd hcl ((C106_decoder_reports_errors_partial env m.defaults kind (tagged m.contentLength chunks) []).2.1 hno y hy)

/-! ### concrete cases -/

/-- a response in br, fed in three chunks, the second of which the decompressor refuses -/
def exCorrupt : Msg :=
  (Op.runAll toyEnv [.responseTopline (str "1.1") (str "200") none, .headers [(str "Content-Encoding", str "br")]] { msg := Msg.new toyEnv .response }).msg

example : exCorrupt.noContent = false ∧ exCorrupt.decoded.decodeOk = true ∧ exCorrupt.decoded.pipeline = none ∧
    dget exCorrupt.headers.parsed (str "content-encoding") = some (.list [.str (str "br")]) := by decide +kernel

example : (feedAll toyEnv [str "abc", [1, 255], str "x"] exCorrupt).decoded.pipeline.map (fun ds => ds.map (·.history)) = some [[str "abc", [1, 255]]] := by decide +kernel
example : toyEnv.brotli [str "abc"] [1, 255] = .err (str "invalid block type") := rfl

/-- **C106 fails** for the number of bytes: the report says that five bytes "were decompressed successfully before this",
but three were.  (It is the number of bytes received, with the chunk at fault.) -/
theorem C106_length_fails :
    (feedAll toyEnv [str "abc", [1, 255]] exCorrupt).notes.map (fun y => (y.cls, dget y.vars (str "ok_brotli_len"), dget y.vars (str "brotli_error"))) =
      exCorrupt.notes.map (fun y => (y.cls, dget y.vars (str "ok_brotli_len"), dget y.vars (str "brotli_error"))) ++
        [(.BAD_BROTLI, some (.str (str "5")), some (.str (str "invalid block type")))] ∧
    (feedAll toyEnv [str "abc", [1, 255]] exCorrupt).decoded.hashed = str "abc" := by decide +kernel

end HL.Props
