import Verif.Props.GzipHeader

/-!
# C28, C30, C31, C32: decoders and the decoding pipeline

A *feed* is a chunk together with the message's `content_length` at that moment (it appears in notes).
-/

namespace HL.Props

/-! ### running one decoder over a sequence of feeds -/

/-- what a decoder produced over a sequence of calls: pieces passed on (with the feed they belong to), notes -/
structure DecRun where
  dec : Decoder
  out : List (Nat × Str) := []
  notes : List Note := []

/-- call the decoder for each feed, in order -/
def runDec (env : Env) (df : Dict Val) (d : Decoder) : List (Nat × Str) → DecRun
  | [] => { dec := d }
  | (n, x) :: fs =>
    let s := d.step ⟨env, df, n⟩ x
    let r := runDec env df s.dec fs
    { dec := r.dec, out := s.pieces.map (fun p => (n, p)) ++ r.out, notes := s.notes ++ r.notes }

/-- the bytes of a sequence of feeds -/
def bytesOf (fs : List (Nat × Str)) : Str := (fs.map (·.2)).flatten

@[simp] theorem bytesOf_nil : bytesOf [] = [] := rfl
@[simp] theorem bytesOf_cons (f : Nat × Str) (fs) : bytesOf (f :: fs) = f.2 ++ bytesOf fs := by simp [bytesOf]
@[simp] theorem bytesOf_append (a b) : bytesOf (a ++ b) = bytesOf a ++ bytesOf b := by simp [bytesOf]

theorem runDec_append (env df) (d : Decoder) (a b : List (Nat × Str)) :
    runDec env df d (a ++ b) =
      { dec := (runDec env df (runDec env df d a).dec b).dec
        out := (runDec env df d a).out ++ (runDec env df (runDec env df d a).dec b).out
        notes := (runDec env df d a).notes ++ (runDec env df (runDec env df d a).dec b).notes } := by
  induction a generalizing d with
  | nil => simp [runDec]
  | cons f a ih => simp [runDec, ih]

/-! ### C31: a failed decoder is silent -/

theorem step_not_ok {d : Decoder} (h : d.ok = false) (c : DecCtx) (x : Str) : d.step c x = { dec := d } := by
  unfold Decoder.step Decoder.gzipStep Decoder.brotliStep
  cases d.kind <;> simp [h]

theorem runDec_not_ok (env df) {d : Decoder} (h : d.ok = false) (fs) : runDec env df d fs = { dec := d } := by
  induction fs with
  | nil => rfl
  | cons f fs ih => simp [runDec, step_not_ok h, ih]

theorem gzipPayload_notes (c : DecCtx) (d : Decoder) (x : Str) (hok : d.ok = true) :
    ((d.gzipPayload c x).notes = [] ∧ (d.gzipPayload c x).dec.ok = true) ∨
    ((∃ n, (d.gzipPayload c x).notes = [n]) ∧ (d.gzipPayload c x).dec.ok = false) := by
  unfold Decoder.gzipPayload
  generalize inflateChunk c.env d.history d.decompressed x = r
  cases hr : r.fin <;> simp [hr, hok]

theorem step_notes (c : DecCtx) (d : Decoder) (x : Str) (hok : d.ok = true) :
    ((d.step c x).notes = [] ∧ (d.step c x).dec.ok = true) ∨
    ((∃ n, (d.step c x).notes = [n]) ∧ (d.step c x).dec.ok = false) := by
  unfold Decoder.step
  cases d.kind
  · simp only [Decoder.gzipStep, hok, Bool.not_true, Bool.false_eq_true, if_false]
    split
    · exact gzipPayload_notes c d x hok
    · split
      · simp [hok]
      · simp
      · exact gzipPayload_notes c _ _ rfl
  · simp only [Decoder.brotliStep, hok, Bool.not_true, Bool.false_eq_true, if_false]
    split
    · simp
    · split
      · simp [hok]
      · split <;> simp [hok]

/-- **C31**: over any sequence of feeds a decoder adds at most one note, and once it has added one, whatever
else arrives is ignored: no note, no output, no change of state. -/
theorem C31_failed_decoder_silent (env : Env) (df : Dict Val) (d : Decoder) (hok : d.ok = true)
    (fs more : List (Nat × Str)) :
    (runDec env df d fs).notes.length ≤ 1 ∧
    ((runDec env df d fs).notes ≠ [] →
      (runDec env df d (fs ++ more)).notes = (runDec env df d fs).notes ∧
      (runDec env df d (fs ++ more)).out = (runDec env df d fs).out ∧
      (runDec env df d (fs ++ more)).dec = (runDec env df d fs).dec) := by
  have key : ∀ (fs : List (Nat × Str)) (d : Decoder), d.ok = true →
      ((runDec env df d fs).notes = [] ∧ (runDec env df d fs).dec.ok = true) ∨
      ((∃ n, (runDec env df d fs).notes = [n]) ∧ (runDec env df d fs).dec.ok = false) := by
    intro fs
    induction fs with
    | nil => intro d h; simp [runDec, h]
    | cons f fs ih =>
      intro d h
      simp only [runDec]
      rcases step_notes ⟨env, df, f.1⟩ d f.2 h with ⟨h1, h2⟩ | ⟨⟨n, h1⟩, h2⟩
      · rw [h1, List.nil_append]; exact ih _ h2
      · rw [runDec_not_ok env df h2]
        right; simp [h1, h2]
  rcases key fs d hok with ⟨h1, h2⟩ | ⟨⟨n, h1⟩, h2⟩
  · simp [h1]
  · refine ⟨by simp [h1], fun _ => ?_⟩
    rw [runDec_append, runDec_not_ok env df h2]
    simp

/-! ### C30: decompression is bounded -/

/-- the number of bytes a library call returns -/
def outLen : ZResult → Nat
  | .ok out _ => out.length
  | .err _ => 0

/-- the number of bytes the decompressor has returned over a sequence of calls -/
def produced (lib : List Str → Str → ZResult) : List Str → List Str → Nat
  | _, [] => 0
  | before, x :: calls => outLen (lib before x) + produced lib (before ++ [x]) calls

theorem produced_snoc (lib) (pre calls : List Str) (x : Str) :
    produced lib pre (calls ++ [x]) = produced lib pre calls + outLen (lib (pre ++ calls) x) := by
  induction calls generalizing pre with
  | nil => simp [produced]
  | cons y calls ih => simp [produced, ih, Nat.add_assoc]

/-- the library object behind a decoder -/
def libOf (env : Env) : CodingKind → List Str → Str → ZResult
  | .gzip => env.inflate
  | .br => env.brotli

/-- the total length of some pieces -/
def totalLen (ps : List Str) : Nat := (ps.map List.length).sum

@[simp] theorem totalLen_nil : totalLen [] = 0 := rfl
@[simp] theorem totalLen_cons (p ps) : totalLen (p :: ps) = p.length + totalLen ps := by simp [totalLen]

/-- what inflating does to the counter -/
structure InfSpec (env : Env) (history : List Str) (count : Nat) (r : InfOut) : Prop where
  counted : r.count = count + (produced env.inflate [] r.history - produced env.inflate [] history)
  mono : produced env.inflate [] history ≤ produced env.inflate [] r.history
  bound : count ≤ maxDecompressed → count + totalLen r.pieces ≤ maxDecompressed
  passed : r.fin ≠ .limit → r.count = count + totalLen r.pieces
  limit : count ≤ maxDecompressed → (r.fin = .limit ↔ r.count > maxDecompressed)

theorem inflateTail_spec (env : Env) (history : List Str) (count : Nat) (tail : Str) :
    InfSpec env history count (inflateTail env history count tail) := by
  induction history, count, tail using inflateTail.induct (env := env) with
  | case1 history count tail h =>
    unfold inflateTail; rw [if_pos h]
    exact ⟨by simp, by simp, by simp, by simp, by simp⟩
  | case2 history count tail h msg he =>
    unfold inflateTail; rw [if_neg h, he]
    have : produced env.inflate [] (history ++ [tail]) = produced env.inflate [] history := by
      rw [produced_snoc]; simp [he, outLen]
    exact ⟨by simp [this], by simp [this], by simp, by simp, by simp⟩
  | case3 history count tail h out tail' he h0 =>
    unfold inflateTail; rw [if_neg h, he]; simp only [h0, dite_true]
    have : produced env.inflate [] (history ++ [tail]) = produced env.inflate [] history := by
      rw [produced_snoc]; simp [he, outLen, h0]
    exact ⟨by simp [this], by simp [this], by simp, by simp, by simp⟩
  | case4 history count tail h out tail' he h0 hl =>
    unfold inflateTail; rw [if_neg h, he]; simp only [h0, dite_false, hl, dite_true]
    have : produced env.inflate [] (history ++ [tail]) = produced env.inflate [] history + out.length := by
      rw [produced_snoc]; simp [he, outLen]
    exact ⟨by simp [this], by simp [this], by simp, by simp, fun _ => by simpa using hl⟩
  | case5 history count tail h out tail' he h0 hl ih =>
    unfold inflateTail; rw [if_neg h, he]; simp only [h0, dite_false, hl]
    have hp : produced env.inflate [] (history ++ [tail]) = produced env.inflate [] history + out.length := by
      rw [produced_snoc]; simp [he, outLen]
    obtain ⟨i1, i2, i3, i4, i5⟩ := ih
    have hb : count + out.length ≤ maxDecompressed := by omega
    refine ⟨?_, ?_, ?_, ?_, ?_⟩
    · simp only [InfOut.cons]; omega
    · simp only [InfOut.cons]; omega
    · intro _; simp only [InfOut.cons, totalLen_cons]; have := i3 hb; omega
    · intro hf; simp only [InfOut.cons, totalLen_cons] at hf ⊢; have := i4 hf; omega
    · intro _; simp only [InfOut.cons]; exact i5 hb

theorem inflateChunk_spec (env : Env) (history : List Str) (count : Nat) (chunk : Str) :
    InfSpec env history count (inflateChunk env history count chunk) := by
  unfold inflateChunk
  split
  · rename_i msg he
    have : produced env.inflate [] (history ++ [chunk]) = produced env.inflate [] history := by
      rw [produced_snoc]; simp [he, outLen]
    exact ⟨by simp [this], by simp [this], by simp, by simp, by simp⟩
  · rename_i out tail he
    have hp : produced env.inflate [] (history ++ [chunk]) = produced env.inflate [] history + out.length := by
      rw [produced_snoc]; simp [he, outLen]
    split
    · rename_i h0
      have h0 : out.length = 0 := by simpa using h0
      obtain ⟨i1, i2, i3, i4, i5⟩ := inflateTail_spec env (history ++ [chunk]) count tail
      exact ⟨by omega, by omega, i3, i4, i5⟩
    · split
      · rename_i hl
        exact ⟨by simp [hp], by simp [hp], by simp, by simp, fun _ => by simpa using hl⟩
      · rename_i hl
        obtain ⟨i1, i2, i3, i4, i5⟩ := inflateTail_spec env (history ++ [chunk]) (count + out.length) tail
        have hb : count + out.length ≤ maxDecompressed := by omega
        refine ⟨?_, ?_, ?_, ?_, ?_⟩
        · simp only [InfOut.cons]; omega
        · simp only [InfOut.cons]; omega
        · intro _; simp only [InfOut.cons, totalLen_cons]; have := i3 hb; omega
        · intro hf; simp only [InfOut.cons, totalLen_cons] at hf ⊢; have := i4 hf; omega
        · intro _; simp only [InfOut.cons]; exact i5 hb

/-- the counter agrees with what the library returned, and is within the limit while the decoder works -/
def Counted (env : Env) (d : Decoder) : Prop :=
  d.decompressed = produced (libOf env d.kind) [] d.history ∧ (d.ok = true → d.decompressed ≤ maxDecompressed)

/-- is this the note about the limit? -/
def isLimit (n : Note) : Bool := n.cls == .DECOMPRESSION_LIMIT

/-- what one call does, for a working decoder -/
structure StepSpec (env : Env) (d : Decoder) (s : StepOut) : Prop where
  kind : s.dec.kind = d.kind
  counted : Counted env s.dec
  bound : d.decompressed + totalLen s.pieces ≤ maxDecompressed
  passed : s.dec.decompressed ≤ maxDecompressed → s.dec.decompressed = d.decompressed + totalLen s.pieces
  limit : (∃ n ∈ s.notes, isLimit n) ↔ s.dec.decompressed > maxDecompressed

theorem gzipPayload_spec (env df n) (d : Decoder) (x : Str) (hk : d.kind = .gzip) (hok : d.ok = true)
    (hc : Counted env d) : StepSpec env d (d.gzipPayload ⟨env, df, n⟩ x) := by
  obtain ⟨h1, h2⟩ := hc
  have h2 := h2 hok
  rw [hk] at h1
  simp only [libOf] at h1
  have hs := inflateChunk_spec env d.history d.decompressed x
  unfold Decoder.gzipPayload
  generalize inflateChunk env d.history d.decompressed x = r at hs
  obtain ⟨i1, i2, i3, i4, i5⟩ := hs
  have i3 := i3 h2
  have i5 := i5 h2
  dsimp only
  cases hf : r.fin with
  | done =>
    have hl : ¬ r.count > maxDecompressed := fun h => by simp [i5.2 h] at hf
    have hp := i4 (by simp [hf])
    refine ⟨rfl, ⟨?_, fun _ => by simp; omega⟩, i3, fun _ => hp, ?_⟩
    · simp [hk, libOf]; omega
    · simp; omega
  | limit =>
    have hl := i5.1 hf
    refine ⟨rfl, ⟨?_, fun h => by simp at h⟩, i3, fun h => ?_, ?_⟩
    · simp [hk, libOf]; omega
    · simp at h; omega
    · simp [isLimit]; omega
  | error msg =>
    have hl : ¬ r.count > maxDecompressed := fun h => by simp [i5.2 h] at hf
    have hp := i4 (by simp [hf])
    refine ⟨rfl, ⟨?_, fun h => by simp at h⟩, i3, fun _ => hp, ?_⟩
    · simp [hk, libOf]; omega
    · simp [isLimit]; omega

theorem step_spec (env df n) (d : Decoder) (x : Str) (hok : d.ok = true) (hc : Counted env d) :
    StepSpec env d (d.step ⟨env, df, n⟩ x) := by
  have h2 := hc.2 hok
  unfold Decoder.step
  cases hk : d.kind with
  | gzip =>
    simp only [Decoder.gzipStep, hok, Bool.not_true, Bool.false_eq_true, if_false]
    split
    · exact gzipPayload_spec env df n d x hk hok hc
    · split
      · exact ⟨rfl, ⟨hc.1, fun _ => h2⟩, by simpa using h2, by simp, by simp; omega⟩
      · exact ⟨rfl, ⟨hc.1, fun h => by simp at h⟩, by simpa using h2, by simp, by simp [isLimit]; omega⟩
      · have := gzipPayload_spec env df n { d with ok := true, inGzip := true, headerBuf := [] } (by assumption) hk rfl
          ⟨hc.1, fun _ => h2⟩
        exact ⟨this.kind, this.counted, this.bound, this.passed, this.limit⟩
  | br =>
    have h1 : d.decompressed = produced env.brotli [] d.history := by simpa [hk, libOf] using hc.1
    simp only [Decoder.brotliStep, hok, Bool.not_true, Bool.false_eq_true, if_false]
    split
    · rename_i msg he
      have hp : produced env.brotli [] (d.history ++ [x]) = d.decompressed := by
        rw [produced_snoc]; simp [he, outLen, h1]
      exact ⟨rfl, ⟨by simp [hk, libOf, hp], fun h => by simp at h⟩, by simpa using h2, by simp,
        by simp [isLimit]; omega⟩
    · rename_i out tl he
      have hp : produced env.brotli [] (d.history ++ [x]) = d.decompressed + out.length := by
        rw [produced_snoc]; simp [he, outLen, h1]
      split
      · rename_i h0
        have h0 : out.length = 0 := by simpa using h0
        refine ⟨rfl, ⟨?_, fun _ => h2⟩, by simpa using h2, by simp, by simp; omega⟩
        simp [hk, libOf, hp, h0]
      · split
        · rename_i hl
          refine ⟨rfl, ⟨?_, fun h => by simp at h⟩, by simpa using h2, fun h => ?_, ?_⟩
          · simp [hk, libOf, hp]
          · simp at h; omega
          · simp [isLimit]; omega
        · rename_i hl
          refine ⟨rfl, ⟨?_, fun _ => by simp; omega⟩, by simp; omega, by simp, by simp; omega⟩
          simp [hk, libOf, hp]

/-- the total length of what a decoder passed on -/
def outTotal (fs : List (Nat × Str)) : Nat := totalLen (fs.map (·.2))

theorem outTotal_append (a b) : outTotal (a ++ b) = outTotal a + outTotal b := by
  simp [outTotal, totalLen]

theorem outTotal_map (n : Nat) (ps : List Str) : outTotal (ps.map fun p => (n, p)) = totalLen ps := by
  simp [outTotal, Function.comp_def]

/-- **C30**: over any sequence of feeds, a new decoder (gzip or brotli) passes on at most 100 MiB; the limit note
is added (once, by C31) exactly when the decompressor has returned more than that; and as long as it has not,
everything it returned is passed on. -/
theorem C30_decompression_bounded (env : Env) (df : Dict Val) (kind : CodingKind) (fs : List (Nat × Str)) :
    let r := runDec env df { kind := kind } fs
    outTotal r.out ≤ 104857600 ∧
    ((∃ n ∈ r.notes, n.cls = .DECOMPRESSION_LIMIT) ↔ produced (libOf env kind) [] r.dec.history > 104857600) ∧
    (produced (libOf env kind) [] r.dec.history ≤ 104857600 →
      outTotal r.out = produced (libOf env kind) [] r.dec.history) := by
  have key : ∀ (fs : List (Nat × Str)) (d : Decoder), d.kind = kind → d.ok = true → Counted env d →
      let r := runDec env df d fs
      d.decompressed + outTotal r.out ≤ maxDecompressed ∧
      ((∃ n ∈ r.notes, isLimit n) ↔ produced (libOf env kind) [] r.dec.history > maxDecompressed) ∧
      (produced (libOf env kind) [] r.dec.history ≤ maxDecompressed →
        d.decompressed + outTotal r.out = produced (libOf env kind) [] r.dec.history) := by
    intro fs
    induction fs with
    | nil =>
      intro d hk hok hc
      have h1 := hc.1
      have h2 := hc.2 hok
      rw [hk] at h1
      simp only [runDec, outTotal, List.map_nil, totalLen_nil]
      exact ⟨by omega, by simp; omega, by omega⟩
    | cons f fs ih =>
      intro d hk hok hc
      have hs := step_spec env df f.1 d f.2 hok hc
      simp only [runDec]
      generalize d.step ⟨env, df, f.1⟩ f.2 = s at hs
      obtain ⟨s1, s2, s3, s4, s5⟩ := hs
      rw [outTotal_append, outTotal_map]
      by_cases hok' : s.dec.ok = true
      · obtain ⟨i1, i2, i3⟩ := ih s.dec (s1.trans hk) hok' s2
        have hb := s2.2 hok'
        have hp := s4 hb
        refine ⟨by omega, ?_, fun h => by have := i3 h; omega⟩
        rw [← i2]
        have hn : ¬ ∃ n ∈ s.notes, isLimit n := by rw [s5]; omega
        constructor
        · rintro ⟨n, hm, hl⟩
          rcases List.mem_append.1 hm with hm | hm
          · exact absurd ⟨n, hm, hl⟩ hn
          · exact ⟨n, hm, hl⟩
        · rintro ⟨n, hm, hl⟩; exact ⟨n, List.mem_append_right _ hm, hl⟩
      · rw [runDec_not_ok env df (by simpa using hok')]
        have h1 := s2.1
        rw [s1, hk] at h1
        simp only [List.append_nil, outTotal, List.map_nil, totalLen_nil, Nat.add_zero]
        rw [← h1]
        exact ⟨s3, s5, fun h => (s4 h).symm⟩
  have := key fs { kind := kind } rfl rfl ⟨by simp [produced], by simp [maxDecompressed]⟩
  simp only [Nat.zero_add, isLimit, beq_iff_eq] at this
  exact this

/-! ### C28: the header does not depend on chunking -/

theorem read_ok_append {b r : Str} (x : Str) (h : readGzipHeader b = .ok r) :
    readGzipHeader (b ++ x) = .ok (r ++ x) := by
  obtain ⟨z, hz, rfl⟩ := (C29_gzip_header_ok _ _).1 h
  exact (C29_gzip_header_ok _ _).2 ⟨z, hz, by simp⟩

theorem readGzipHeader_long {b : Str} (h : ¬ b.length < 10) : readGzipHeader b =
    if b.take 2 = [31, 139] then
      if b[2]? = some 8 then
        match skipOptional ((b[3]?).getD 0) (b.drop 10) with
        | none => .incomplete
        | some rest => .ok rest
      else .bad (str "Unknown compression method")
    else .bad (str "Not a gzip header (magic is hex " ++ hexStr (b.take 2) ++ str ", should be 1f8b)") := by
  unfold readGzipHeader
  rw [if_neg h]
  by_cases h2 : b.take 2 = [31, 139]
  · by_cases h3 : b[2]? = some 8
    · simp only [h2, h3, ne_eq, not_true, if_false, if_true]; rfl
    · simp [h2, h3]
  · simp [h2]

theorem read_bad_append {b m : Str} (x : Str) (h : readGzipHeader b = .bad m) :
    readGzipHeader (b ++ x) = .bad m := by
  have hl : ¬ b.length < 10 := by intro hl; simp [readGzipHeader, hl] at h
  have hl' : ¬ (b ++ x).length < 10 := by simp; omega
  rw [readGzipHeader_long hl] at h
  rw [readGzipHeader_long hl']
  have t : (b ++ x).take 2 = b.take 2 := by
    rw [List.take_append]; simp [show 2 - b.length = 0 by omega]
  have g : (b ++ x)[2]? = b[2]? := List.getElem?_append_left (by omega)
  rw [t, g]
  by_cases h2 : b.take 2 = [31, 139]
  · rw [if_pos h2] at h ⊢
    by_cases h3 : b[2]? = some 8
    · rw [if_pos h3] at h
      revert h
      cases skipOptional ((b[3]?).getD 0) (b.drop 10) <;> simp
    · rw [if_neg h3] at h ⊢; exact h
  · rw [if_neg h2] at h ⊢; exact h

/-- a gzip decoder that has read its header -/
def afterHeader : Decoder := { kind := .gzip, inGzip := true }

/-- the general form, with something already in the buffer -/
theorem gzip_header_run (env : Env) (df : Dict Val) (fs : List (Nat × Str)) (buf : Str)
    (hinc : readGzipHeader buf = .incomplete) :
    let d : Decoder := { kind := .gzip, headerBuf := buf }
    match readGzipHeader (buf ++ bytesOf fs) with
    | .incomplete => runDec env df d fs = { dec := { kind := .gzip, headerBuf := buf ++ bytesOf fs } }
    | .bad msg => (runDec env df d fs).out = [] ∧ (runDec env df d fs).dec.ok = false ∧
        ∃ n, (runDec env df d fs).notes = [(DecCtx.add ⟨env, df, n⟩).mk1 .BAD_GZIP [(str "gzip_error", .str msg)]]
    | .ok rest => ∃ ps : List (Nat × Str), bytesOf ps = rest ∧ runDec env df d fs = runDec env df afterHeader ps := by
  induction fs generalizing buf with
  | nil => simp [hinc, runDec]
  | cons f fs ih =>
    simp only [bytesOf_cons, ← List.append_assoc, runDec]
    cases hr : readGzipHeader (buf ++ f.2) with
    | incomplete =>
      have hs : (({ kind := .gzip, headerBuf := buf } : Decoder).step ⟨env, df, f.1⟩ f.2) =
          { dec := { kind := .gzip, headerBuf := buf ++ f.2 } } := by
        simp [Decoder.step, Decoder.gzipStep, hr]
      have := ih _ hr
      rw [hs]
      cases h : readGzipHeader (buf ++ f.2 ++ bytesOf fs) with
      | incomplete => rw [h] at this; simp [this]
      | bad m => rw [h] at this; simpa using this
      | ok r => rw [h] at this; obtain ⟨ps, h1, h2⟩ := this; exact ⟨ps, h1, by simp [h2]⟩
    | bad m =>
      rw [read_bad_append _ hr]
      have hs : (({ kind := .gzip, headerBuf := buf } : Decoder).step ⟨env, df, f.1⟩ f.2) =
          { dec := { kind := .gzip, ok := false }
            notes := [(DecCtx.add ⟨env, df, f.1⟩).mk1 .BAD_GZIP [(str "gzip_error", .str m)]] } := by
        simp [Decoder.step, Decoder.gzipStep, hr]
      rw [hs, runDec_not_ok env df rfl]
      exact ⟨by simp, by simp, f.1, by simp⟩
    | ok r =>
      rw [read_ok_append _ hr]
      refine ⟨(f.1, r) :: fs, by simp, ?_⟩
      have hs : (({ kind := .gzip, headerBuf := buf } : Decoder).step ⟨env, df, f.1⟩ f.2) =
          afterHeader.step ⟨env, df, f.1⟩ r := by
        simp [Decoder.step, Decoder.gzipStep, hr, afterHeader]
      simp [runDec, hs]

/-- **C28**: for every way of cutting a gzip stream into chunks -- if the bytes so far do not contain a complete
header nothing is output or reported; if they start with a bad header exactly one BAD_GZIP is added and nothing is
output; and if they are a header followed by `rest`, the decoder does exactly what one positioned after the header
does when fed `rest` (in some chunks). -/
theorem C28_gzip_header_chunking (env : Env) (df : Dict Val) (fs : List (Nat × Str)) :
    let r := runDec env df { kind := .gzip } fs
    match readGzipHeader (bytesOf fs) with
    | .incomplete => r.out = [] ∧ r.notes = []
    | .bad msg => r.out = [] ∧ ∃ n, r.notes = [n] ∧ n.cls = .BAD_GZIP ∧ dget n.vars (str "gzip_error") = some (.str msg)
    | .ok rest => ∃ ps : List (Nat × Str), bytesOf ps = rest ∧
        r.out = (runDec env df afterHeader ps).out ∧ r.notes = (runDec env df afterHeader ps).notes := by
  have := gzip_header_run env df fs [] rfl
  rw [List.nil_append] at this
  split <;> rename_i h <;> rw [h] at this
  · simp [this]
  · obtain ⟨h1, _, n, h3⟩ := this
    exact ⟨h1, _, h3, rfl, by rw [dget_mk1_nobase rfl]; simp [dget_cons]⟩
  · obtain ⟨ps, h1, h2⟩ := this
    exact ⟨ps, h1, by rw [h2], by rw [h2]⟩

/-! ### C32: the pipeline -/

/-- feed a pipeline with a sequence of feeds -/
def runPipe (env : Env) (df : Dict Val) (ds : List Decoder) : List (Nat × Str) → PipeOut
  | [] => { decs := ds }
  | (n, x) :: fs =>
    let s := feedPipe ⟨env, df, n⟩ ds.length ds x
    let r := runPipe env df s.decs fs
    { decs := r.decs, out := s.out ++ r.out, notes := s.notes ++ r.notes }

theorem runPipe_append (env df ds) (a b : List (Nat × Str)) :
    runPipe env df ds (a ++ b) =
      { decs := (runPipe env df (runPipe env df ds a).decs b).decs
        out := (runPipe env df ds a).out ++ (runPipe env df (runPipe env df ds a).decs b).out
        notes := (runPipe env df ds a).notes ++ (runPipe env df (runPipe env df ds a).decs b).notes } := by
  induction a generalizing ds with
  | nil => simp [runPipe]
  | cons f a ih => simp [runPipe, ih]

theorem feedPipe_length (c : DecCtx) (n : Nat) (ds : List Decoder) (x : Str) :
    (feedPipe c n ds x).decs.length = ds.length := by
  induction n generalizing ds x with
  | zero => unfold feedPipe; cases ds <;> simp
  | succ n ih =>
    cases ds with
    | nil => rfl
    | cons d ds =>
      unfold feedPipe
      simp only [List.length_cons, Nat.add_right_cancel_iff]
      have : ∀ (ps : List Str) (acc : PipeOut), (ps.foldl (fun acc p =>
          let q := feedPipe c n acc.decs p
          ({ decs := q.decs, out := acc.out ++ q.out, notes := acc.notes ++ q.notes } : PipeOut)) acc).decs.length =
          acc.decs.length := by
        intro ps
        induction ps with
        | nil => intro acc; rfl
        | cons p ps ihp => intro acc; simp only [List.foldl_cons]; rw [ihp]; exact ih _ _
      exact this _ _

/-- the inner loop of a decoder calling the rest of the pipeline is a run of the rest of the pipeline -/
theorem foldl_runPipe (env df) (n k : Nat) (ps : List Str) (acc : PipeOut) (hk : k = acc.decs.length) :
    ps.foldl (fun acc p =>
        let q := feedPipe ⟨env, df, n⟩ k acc.decs p
        ({ decs := q.decs, out := acc.out ++ q.out, notes := acc.notes ++ q.notes } : PipeOut)) acc =
      { decs := (runPipe env df acc.decs (ps.map fun p => (n, p))).decs
        out := acc.out ++ (runPipe env df acc.decs (ps.map fun p => (n, p))).out
        notes := acc.notes ++ (runPipe env df acc.decs (ps.map fun p => (n, p))).notes } := by
  induction ps generalizing acc with
  | nil => simp [runPipe]
  | cons p ps ih =>
    simp only [List.foldl_cons]
    rw [ih _ (by simp [hk, feedPipe_length])]
    simp [runPipe, hk]

/-- **C32**, order of decoding: what reaches the sink through a pipeline is what the rest of the pipeline makes of
the output of its first decoder; the notes are those of the two stages. -/
theorem C32_pipeline_stages (env : Env) (df : Dict Val) (d : Decoder) (ds : List Decoder) (fs : List (Nat × Str)) :
    let first := runDec env df d fs
    let rest := runPipe env df ds first.out
    let r := runPipe env df (d :: ds) fs
    r.out = rest.out ∧ r.decs = first.dec :: rest.decs ∧ r.notes.Perm (rest.notes ++ first.notes) := by
  induction fs generalizing d ds with
  | nil => simp [runPipe, runDec]
  | cons f fs ih =>
    obtain ⟨n, x⟩ := f
    simp only [runPipe, runDec, List.length_cons, feedPipe]
    have hf := foldl_runPipe env df n ds.length (d.step ⟨env, df, n⟩ x).pieces { decs := ds } rfl
    rw [hf]
    rw [runPipe_append]
    obtain ⟨h1, h2, h3⟩ := ih (d.step ⟨env, df, n⟩ x).dec
      (runPipe env df ds ((d.step ⟨env, df, n⟩ x).pieces.map fun p => (n, p))).decs
    refine ⟨by simp [h1], by simp [h2], ?_⟩
    dsimp only
    generalize (runPipe env df ds ((d.step ⟨env, df, n⟩ x).pieces.map fun p => (n, p))).notes = a
    generalize (d.step ⟨env, df, n⟩ x).notes = b
    simp only [List.nil_append, List.append_assoc]
    refine List.Perm.append_left a ?_
    refine (List.Perm.append_left b h3).trans ?_
    rw [← List.append_assoc]
    refine (List.Perm.append_right _ List.perm_append_comm).trans ?_
    simp

/-- an empty pipeline passes everything to the sink unchanged -/
theorem runPipe_nil (env df) (fs : List (Nat × Str)) :
    runPipe env df [] fs = { decs := [], out := fs.map (·.2) } := by
  induction fs with
  | nil => rfl
  | cons f fs ih => simp [runPipe, feedPipe, ih]

/-- **C32**, construction: the decoder of the last coding comes first, then those of the codings before it;
codings the linter does not know add no decoder. -/
theorem C32_last_coding_first (codings : List Val) (c : Val) :
    buildPipeline (codings ++ [c]) = (codingDecoder c).toList ++ buildPipeline codings := by
  unfold buildPipeline
  rw [List.filterMap_append, List.reverse_append]
  congr 1
  simp only [List.filterMap_cons, List.filterMap_nil]
  cases codingDecoder c <;> simp

theorem C32_known_codings :
    codingDecoder (.str (str "gzip")) = some { kind := .gzip } ∧
    codingDecoder (.str (str "x-gzip")) = some { kind := .gzip } ∧
    codingDecoder (.str (str "br")) = some { kind := .br } ∧
    ∀ s, s ≠ str "gzip" → s ≠ str "x-gzip" → s ≠ str "br" → codingDecoder (.str s) = none := by
  refine ⟨by decide, by decide, by decide, ?_⟩
  intro s h1 h2 h3
  simp [codingDecoder, Val.pyEq, Val.text?, h1, h2, h3]

/-- non-vacuity: with `Content-Encoding: gzip, br` brotli is undone first -/
example : (buildPipeline [.str (str "gzip"), .str (str "br")]).map (·.kind) = [.br, .gzip] := by decide

end HL.Props
