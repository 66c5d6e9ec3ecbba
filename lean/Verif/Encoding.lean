import Verif.Section

/-!
# content_encoding.py: removing content codings

The `zlib` and `brotli` decompressors are opaque (`Env.inflate`, `Env.brotli`: functions of the calls made so
far).  A decoder step returns the pieces it passes to the next processor; the decoders' own notes are always
added after everything it passed on during the same call.
-/

namespace HL

/-- content_encoding.py:14 `MAX_DECOMPRESSED_BYTES` -/
def maxDecompressed : Nat := 100 * 1024 * 1024

/-! ### the gzip header -/

/-- outcome of `_read_gzip_header`: `IndexError` (not complete), `IOError`, or the remaining bytes -/
inductive GzHeader where
  | incomplete
  | bad (msg : Str)
  | ok (rest : Str)
  deriving DecidableEq, Repr

/-- `flag & bit` for a power of two -/
def hasFlag (flag bit : Nat) : Bool := flag / bit % 2 == 1

/-- content_encoding.py:172-179, 182-189: skip a NUL-terminated string -/
def skipZ : Str → Option Str
  | [] => none
  | 0 :: r => some r
  | _ :: r => skipZ r

/-- skip `n` bytes; `none` if there are fewer -/
def skipN (n : Nat) (s : Str) : Option Str := if s.length < n then none else some (s.drop n)

/-- content_encoding.py:160-169: skip the extra field -/
def skipExtra : Str → Option Str
  | a :: b :: r => skipN (a + 256 * b) r
  | _ => none

/-- run a skip when the flag is set -/
def skipIf (b : Bool) (f : Str → Option Str) (s : Str) : Option Str := if b then f s else some s

/-- content_encoding.py:158-195: the optional parts after the fixed ten bytes, in order -/
def skipOptional (flag : Nat) (s : Str) : Option Str := do
  let s ← skipIf (hasFlag flag 4) skipExtra s
  let s ← skipIf (hasFlag flag 8) skipZ s
  let s ← skipIf (hasFlag flag 16) skipZ s
  skipIf (hasFlag flag 2) (skipN 2) s

/-- content_encoding.py:138-196 `_read_gzip_header` -/
def readGzipHeader (content : Str) : GzHeader :=
  if content.length < 10 then .incomplete
  else if content.take 2 ≠ [31, 139] then
    .bad (str "Not a gzip header (magic is hex " ++ hexStr (content.take 2) ++ str ", should be 1f8b)")
  else if content[2]? ≠ some 8 then .bad (str "Unknown compression method")
  else match skipOptional ((content[3]?).getD 0) (content.drop 10) with
    | none => .incomplete
    | some rest => .ok rest

/-! ### decoders -/

/-- how a run of the inflate loop ended -/
inductive InfEnd where
  | done | limit | error (msg : Str)
  deriving DecidableEq, Repr

/-- result of inflating one chunk: output pieces, calls made to the library, total output so far -/
structure InfOut where
  pieces : List Str := []
  history : List Str
  count : Nat
  fin : InfEnd
  deriving DecidableEq, Repr

/-- put a piece in front -/
def InfOut.cons (p : Str) (r : InfOut) : InfOut := { r with pieces := p :: r.pieces }

/-- content_encoding.py:119-130: the loop over `unconsumed_tail` -/
def inflateTail (env : Env) (history : List Str) (count : Nat) (tail : Str) : InfOut :=
  if tail.isEmpty then { history, count, fin := .done }
  else match env.inflate history tail with
    | .err msg => { history := history ++ [tail], count, fin := .error msg }
    | .ok out tail' =>
      if h0 : out.length = 0 then { history := history ++ [tail], count, fin := .done }
      else if h : count + out.length > maxDecompressed then
        { history := history ++ [tail], count := count + out.length, fin := .limit }
      else (inflateTail env (history ++ [tail]) (count + out.length) tail').cons out
termination_by maxDecompressed + 1 - count
decreasing_by omega

/-- content_encoding.py:109-132: the first `decompress` call and the loop -/
def inflateChunk (env : Env) (history : List Str) (count : Nat) (chunk : Str) : InfOut :=
  match env.inflate history chunk with
  | .err msg => { history := history ++ [chunk], count, fin := .error msg }
  | .ok out tail =>
    if out.isEmpty then inflateTail env (history ++ [chunk]) count tail
    else if count + out.length > maxDecompressed then
      { history := history ++ [chunk], count := count + out.length, fin := .limit }
    else (inflateTail env (history ++ [chunk]) (count + out.length) tail).cons out

/-- result of one call of a decoder -/
structure StepOut where
  dec : Decoder
  pieces : List Str := []
  notes : List Note := []
  deriving DecidableEq, Repr

/-- what the decoders see of the message: the libraries, the default note variables, and
`message.content_length` -/
structure DecCtx where
  env : Env
  defaults : Dict Val
  contentLength : Nat

/-- `self.message.notes.add("field-content-encoding", ...)` -/
def DecCtx.add (c : DecCtx) : AddNote := { defaults := c.defaults, subject := str "field-content-encoding" }

/-- content_encoding.py:107-135: the payload stage of `GzipProcessor.__call__` -/
def Decoder.gzipPayload (c : DecCtx) (d : Decoder) (chunk : Str) : StepOut :=
  let r := inflateChunk c.env d.history d.decompressed chunk
  let d := { d with history := r.history, decompressed := r.count }
  match r.fin with
  | .done => { dec := d, pieces := r.pieces }
  | .limit => { dec := { d with ok := false }, pieces := r.pieces, notes := [c.add.mk1 .DECOMPRESSION_LIMIT] }
  | .error msg =>
    { dec := { d with ok := false }, pieces := r.pieces
      notes := [c.add.mk1 .BAD_ZLIB [(str "zlib_error", .str msg), (str "ok_zlib_len", .str (fNum c.contentLength)),
        (str "chunk_sample", .str (displayBytes c.env.printable chunk))]] }

/-- content_encoding.py:82-135 `GzipProcessor.__call__` -/
def Decoder.gzipStep (c : DecCtx) (d : Decoder) (chunk : Str) : StepOut :=
  if !d.ok then { dec := d }
  else if d.inGzip then d.gzipPayload c chunk
  else
    let buf := d.headerBuf ++ chunk
    match readGzipHeader buf with
    | .incomplete => { dec := { d with headerBuf := buf } }
    | .bad msg =>
      { dec := { d with ok := false, headerBuf := [] }
        notes := [c.add.mk1 .BAD_GZIP [(str "gzip_error", .str msg)]] }
    | .ok rest => ({ d with inGzip := true, headerBuf := [] } : Decoder).gzipPayload c rest

/-- content_encoding.py:207-229 `BrotliProcessor.__call__` -/
def Decoder.brotliStep (c : DecCtx) (d : Decoder) (chunk : Str) : StepOut :=
  if !d.ok then { dec := d }
  else
    let h := d.history ++ [chunk]
    match c.env.brotli d.history chunk with
    | .err msg =>
      { dec := { d with ok := false, history := h }
        notes := [c.add.mk1 .BAD_BROTLI [(str "brotli_error", .str msg),
          (str "ok_brotli_len", .str (fNum c.contentLength)), (str "chunk_sample", .str (displayBytes c.env.printable chunk))]] }
    | .ok out _ =>
      if out.isEmpty then { dec := { d with history := h } }
      else if d.decompressed + out.length > maxDecompressed then
        { dec := { d with ok := false, history := h, decompressed := d.decompressed + out.length }
          notes := [c.add.mk1 .DECOMPRESSION_LIMIT] }
      else { dec := { d with history := h, decompressed := d.decompressed + out.length }, pieces := [out] }

/-- one call of a decoder -/
def Decoder.step (c : DecCtx) (d : Decoder) (chunk : Str) : StepOut :=
  match d.kind with
  | .gzip => d.gzipStep c chunk
  | .br => d.brotliStep c chunk

/-! ### the pipeline -/

/-- result of a call of the pipeline: the decoders afterwards, what reached the sink, the notes added -/
structure PipeOut where
  decs : List Decoder
  out : List Str := []
  notes : List Note := []
  deriving DecidableEq, Repr

/-- `self.pipeline(chunk)`: each decoder calls the next one for every piece it produces (content_encoding.py:40-63;
`n` bounds the nesting and is the number of decoders) -/
def feedPipe (c : DecCtx) : Nat → List Decoder → Str → PipeOut
  | _, [], chunk => { decs := [], out := [chunk] }
  | 0, ds, chunk => { decs := ds, out := [chunk] }
  | n + 1, d :: ds, chunk =>
    let s := d.step c chunk
    let r := s.pieces.foldl (fun acc p =>
      let q := feedPipe c n acc.decs p
      { decs := q.decs, out := acc.out ++ q.out, notes := acc.notes ++ q.notes }) ({ decs := ds } : PipeOut)
    { decs := s.dec :: r.decs, out := r.out, notes := r.notes ++ s.notes }

/-- content_encoding.py:56-62: the decoder for a coding; other codings are ignored -/
def codingDecoder (v : Val) : Option Decoder :=
  if Val.pyEq v (.str (str "gzip")) || Val.pyEq v (.str (str "x-gzip")) then some { kind := .gzip }
  else if Val.pyEq v (.str (str "br")) then some { kind := .br }
  else none

/-- content_encoding.py:39-63 `_build_pipeline`: each decoder is put in front of those built before it -/
def buildPipeline (codings : List Val) : List Decoder := (codings.filterMap codingDecoder).reverse

/-- message.py:164 `content_sample_size` -/
def contentSampleSize : Nat := 8192

/-- message.py:166-171 `_content_sample_processor` -/
def sampleAppend (sample chunk : Str) : Str :=
  if sample.length < contentSampleSize then sample ++ chunk.take (contentSampleSize - sample.length) else sample

/-- content_encoding.py:65-69 `_sink_process` -/
def Msg.sink (m : Msg) (chunk : Str) : Msg :=
  { m with
    contentSample := sampleAppend m.contentSample chunk
    decoded := { m.decoded with hashed := m.decoded.hashed ++ chunk, length := m.decoded.length + chunk.length } }

/-- content_encoding.py:30-31, 40-42: the pipeline, built from Content-Encoding at the first chunk -/
def Msg.decoders (m : Msg) : Except Exn (List Decoder) :=
  match m.decoded.pipeline with
  | some p => .ok p
  | none => match dget m.headers.parsed (str "content-encoding") with
    | none => .ok []
    | some v => v.iter.map buildPipeline

/-- content_encoding.py:28-33 `feed_content` -/
def Msg.decodeFeed (env : Env) (chunk : Str) (m : Msg) : Run Unit :=
  if !m.decoded.decodeOk then (m, .ok ())
  else
    match m.decoders with
    | .error e => ({ m with decoded := { m.decoded with pipeline := some [] } }, .error e)
    | .ok p =>
      let r := feedPipe ⟨env, m.defaults, m.contentLength⟩ p.length p chunk
      let m := r.out.foldl Msg.sink (m.addNotes r.notes)
      ({ m with decoded := { m.decoded with pipeline := some r.decs } }, .ok ())

end HL
