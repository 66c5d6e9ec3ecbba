import Verif.Props.NegotiationThm
import Verif.Props.HopEx
/-! Non-vacuity of C80–C83, and where the documentation of the checks isn't met (C81, C82). -/
namespace HL.Props
open HL

example : outcome toyEnv [(str "Transfer-Encoding", str "gzip;a=1, Chunked"), (str "transfer-encoding", str "foo, identity, GZIP")] =
    (true, [(.TRANSFER_CODING_PARAM, str "offset-0", []), (.TRANSFER_CODING_UNWANTED, str "field-transfer-encoding", []),
      (.TRANSFER_CODING_UNWANTED, str "field-transfer-encoding", []), (.TRANSFER_CODING_IDENTITY, str "field-transfer-encoding", [])]) := by decide +kernel

/-- a request that asks for `gzip` -/
def askingRequest : Msg := (processSection toyEnv none false [(str "te", str "GZip, trailers")] (fresh toyEnv .request none false false)).1

example : AskedFor (fresh toyEnv .response none false false) (some askingRequest) [(str "gzip", Val.ofDict []), (str "trailers", Val.ofDict [])] ∧
    (processSection toyEnv (some askingRequest) false [(str "Transfer-Encoding", str "gzip, foo, chunked")] (fresh toyEnv .response none false false)).1.notes.map (fun x => (x.cls, dget x.vars (str "coding"))) =
      [(.TRANSFER_CODING_UNWANTED, some (.str (str "foo")))] := by
  refine ⟨⟨by decide +kernel, by decide +kernel⟩, by decide +kernel⟩

example : outcome toyEnv [(str "Content-Disposition", str "attachment; filename=" ++ [34] ++ str "x/y%20" ++ [34])] =
    (true, [(.DISPOSITION_FILENAME_PERCENT, str "field-content-disposition", []), (.DISPOSITION_FILENAME_PATH_CHAR, str "field-content-disposition", [])]) := by decide +kernel

example : outcome toyEnv [(str "Content-Disposition", str "ATTACHMENT; foo=x")] = (true, [(.DISPOSITION_OMITS_FILENAME, str "field-content-disposition", [])]) := by decide +kernel

/-- **C81** is false of a backslash: `filename="x\\y"`, a file name with a backslash in it, isn't reported although the note says it would be -/
theorem C81_backslash_fails : ∃ v : Str, paramOf toyEnv .none (afterC 59 v) (str "filename") = some (str "x" ++ [92] ++ str "y") ∧
    outcome toyEnv [(str "Content-Disposition", v)] = (true, []) :=
  ⟨str "attachment; filename=" ++ [34] ++ str "x" ++ [92, 92] ++ str "y" ++ [34], by decide +kernel, by decide +kernel⟩

/-- **C81** is false of a disposition with a space after it: `attachment ; filename=x` is reported as unknown -/
theorem C81_space_fails : outcome toyEnv [(str "Content-Disposition", str "attachment ; filename=x")] =
    (true, [(.DISPOSITION_UNKNOWN, str "field-content-disposition", [])]) := by decide +kernel

example : requestOutcome toyEnv [(str "Accept", str "text/html;q=2, text, */*;q=0.123"), (str "Accept-Language", str "en;q=foo, de;level=1;q=0.5")] =
    (true, [(.BAD_Q_VALUE_accept, str "offset-0"), (.BAD_SYNTAX, str "offset-0"), (.ACCEPT_BAD_SYNTAX, str "offset-0"), (.BAD_SYNTAX_DETAILED, str "offset-1"),
      (.BAD_Q_VALUE_accept_language, str "offset-1"), (.BAD_SYNTAX_DETAILED, str "offset-1"), (.ACCEPT_LANGUAGE_BAD_SYNTAX, str "offset-1")]) := by decide +kernel

example : IsWeight (str "0.123") ∧ IsWeight (str "1.00") ∧ ¬ WeightOk (str "1.1") ∧ ¬ WeightOk (str "0.1234") := by
  refine ⟨⟨str "123", by decide, by decide, by decide⟩, ⟨str "00", by decide, by decide, by decide⟩, ?_, ?_⟩ <;> rw [← qValue_some] <;> decide +kernel

/-- **C82** a weight of four decimals isn't always reported: `.1234` has but five characters -/
theorem C82_precision_fails : ¬ IsWeight (str ".1234") ∧ WeightOk (str ".1234") := by
  refine ⟨?_, by rw [← qValue_some]; decide +kernel⟩
  rintro ⟨ds, _, _, h | h | h | ⟨h, _⟩⟩ <;> cases h

example : outcome toyEnv [(str "Accept-Patch", str "text/*, a/b"), (str "Accept-Post", str "text/*, */b")] =
    (true, [(.ACCEPT_PATCH_BAD_SYNTAX, str "offset-0", []), (.ACCEPT_POST_BAD_SYNTAX, str "offset-1", [])]) := by decide +kernel

end HL.Props
