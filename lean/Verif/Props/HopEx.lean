import Verif.Props.HopThm
import Verif.Props.PolicyEx
/-! Non-vacuity of C78 and C79. -/
namespace HL.Props
open HL

/-- the outcome of the headers of a request -/
def requestOutcome (env : Env) (ls : List Line) : Bool × List (NoteId × Str) :=
  let r := processSection env none false ls (fresh env .request none false false)
  ((match r.2 with | .ok () => true | .error _ => false), r.1.notes.map fun x => (x.cls, x.subject))

example : requestOutcome toyEnv [(str "Expect", str "100-Continue, 102-wait"), (str "via", str "1.1 a"), (str "Max-Forwards", str "3"), (str "Via", str "1.0 b")] =
    (true, [(.EXPECT_UNKNOWN, str "field-expect"), (.VIA_PRESENT, str "field-via"), (.MAX_FORWARDS_IGNORED, str "field-max-forwards")]) := by decide +kernel

example : outcome toyEnv [(str "Content-Language", str "en, FR"), (str "Accept-Ranges", str "Bytes, foo"), (str "content-language", str "EN, en, de"), (str "Location", str "/x")] =
    (true, [(.UNKNOWN_RANGE, str "offset-1", []), (.CONTENT_LANGUAGE_DUP, str "field-content-language", []), (.LOCATION_UNDEFINED, str "field-location", []),
      (.LOCATION_NOT_ABSOLUTE, str "field-location", [])]) := by decide +kernel

end HL.Props
