import Verif.Props.Chunks
import Verif.Props.CorruptThm

/-!
# C106 for content in several codings
-/

namespace HL.Props

/-- the decoders of these codings, the last one applied first, and what each of them is given: the first the content, and the others
what the one before them makes of it -/
def stagesOf (env : Env) (df : Dict Val) : List CodingKind → List (Nat × Str) → List (CodingKind × List (Nat × Str))
  | [], _ => []
  | k :: ks, fs => (k, fs) :: stagesOf env df ks (runDec env df { kind := k } fs).out

theorem runPipe_stages (env : Env) (df : Dict Val) (ks : List CodingKind) : ∀ fs : List (Nat × Str),
    (runPipe env df (decodersFor ks) fs).notes.Perm ((stagesOf env df ks fs).flatMap fun s => (runDec env df { kind := s.1 } s.2).notes) ∧
    (runPipe env df (decodersFor ks) fs).decs = (stagesOf env df ks fs).map fun s => (runDec env df { kind := s.1 } s.2).dec := by
  induction ks with
  | nil => intro fs; unfold decodersFor; rw [List.map_nil, runPipe_nil]; exact ⟨.refl _, rfl⟩
  | cons k ks ih =>
    intro fs
    obtain ⟨s1, s2, s3⟩ := C32_pipeline_stages env df { kind := k } (decodersFor ks) fs
    obtain ⟨i1, i2⟩ := ih (runDec env df { kind := k } fs).out
    refine ⟨?_, ?_⟩
    · show (runPipe env df ({ kind := k } :: decodersFor ks) fs).notes.Perm _
      refine s3.trans (List.perm_append_comm.trans ?_)
      show ((runDec env df { kind := k } fs).notes ++ _).Perm (_ ++ _)
      exact List.Perm.append_left _ i1
    · show (runPipe env df ({ kind := k } :: decodersFor ks) fs).decs = _ :: _
      rw [s2, i2]

/-- **C106**, any codings: when content is fed to a new message, the notes added are those of the decoders; and each of these
reports corrupt content exactly when its decompressor raised an error (there is one report then, and nothing after it), with that
error and the place in what it was given. -/
theorem C106_codings_partial (env : Env) (chunks : List Str) (m : Msg) (ks : List CodingKind)
    (hn : m.noContent = false) (hok : m.decoded.decodeOk = true) (hne : chunks ≠ []) (hp : m.decoded.pipeline = none) (coded : Coded m ks) :
    ∃ (added : List Note) (ds : List Decoder) (reports : List (List Note)), (feedAll env chunks m).notes = m.notes ++ added ∧ (feedAll env chunks m).decoded.pipeline = some ds ∧
      let stages := stagesOf env m.defaults ks (tagged m.contentLength chunks)
      added.Perm reports.flatten ∧ reports.length = stages.length ∧ ds.length = stages.length ∧
      ∀ (i : Nat) k fs d l, stages[i]? = some (k, fs) → ds[i]? = some d → reports[i]? = some l →
        l.length ≤ 1 ∧
        (∀ msg, Raised (libOf env k) d.history msg ↔ ∃ y, l = [y] ∧ CorruptReport env m.defaults k fs msg y) ∧
        ((∀ msg, ¬ Raised (libOf env k) d.history msg) → ∀ y ∈ l, y.cls ≠ corruptClass k) := by
  have h : let r := runPipe env m.defaults (decodersFor ks) (tagged m.contentLength chunks)
      (feedAll env chunks m).notes = m.notes ++ r.notes ∧ (feedAll env chunks m).decoded.pipeline = some r.decs := by
    have := C32_decoded_content env chunks m (decodersFor ks) hn hok hne hp (by
      rcases coded with ⟨h1, rfl⟩ | ⟨v, cs, h1, h2, rfl⟩
      · exact .inl ⟨h1, rfl⟩
      · exact .inr ⟨v, cs, h1, h2, (buildPipeline_new cs).symm⟩)
    exact this.2
  obtain ⟨h1, h2⟩ := h
  obtain ⟨p1, p2⟩ := runPipe_stages env m.defaults ks (tagged m.contentLength chunks)
  refine ⟨_, _, (stagesOf env m.defaults ks (tagged m.contentLength chunks)).map fun s => (runDec env m.defaults { kind := s.1 } s.2).notes,
    h1, h2, ?_, by simp, by rw [p2]; simp, ?_⟩
  · rw [List.flatMap_def] at p1; exact p1
  · intro i k fs d l hs hd hl
    rw [p2, List.getElem?_map, hs, Option.map_some, Option.some.injEq] at hd
    rw [List.getElem?_map, hs, Option.map_some, Option.some.injEq] at hl
    subst hd hl
    refine ⟨(C31_failed_decoder_silent env m.defaults { kind := k } rfl fs []).1, fun msg => ?_, ?_⟩
    · exact (C106_decoder_reports_errors_partial env m.defaults k fs msg).1
    · exact (C106_decoder_reports_errors_partial env m.defaults k fs []).2.1

/-- the inner stream of a response in `gzip, br` is corrupt -/
example :
    let m := exCoded.msg
    stagesOf toyEnv m.defaults [.br, .gzip] (tagged 0 [exGzip, [98, 1]]) =
      [(.br, [(13, exGzip), (15, [98, 1])]), (.gzip, [(13, exGzip), (15, [98, 1])])] := by decide +kernel

end HL.Props
