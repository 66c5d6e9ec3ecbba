import Verif.Props.TypesThm
import Verif.Props.TimeThm
import Verif.Props.ServiceEx
import Verif.Props.HopEx
/-! Non-vacuity of C89–C91, and the order-dependence of C91's verdicts on `Date` and `Last-Modified`. -/
namespace HL.Props
open HL

/-- C89 -/
example : outcome structEnv [(str "Accept-CH", str "DPR, 5, \"x\""), (str "Cache-Groups", str "\"a\", b, 5, c"), (str "Cache-Group-Invalidation", str "x"),
      (str "Use-As-Dictionary", str "match=\"/a*\", type=raw, ttl=?1, id=5"), (str "CDN-Cache-Control", str "max-age=x, no-store=5, private, s-maxage=60")] =
    (true, [(.ACCEPT_CH_BAD_TYPE, str "field-accept-ch", []), (.CACHE_GROUPS_BAD_TYPE, str "field-cache-groups", []), (.CACHE_GROUP_INVALIDATION_BAD_TYPE, str "field-cache-group-invalidation", []),
      (.USE_AS_DICTIONARY_BAD_TYPE, str "field-use-as-dictionary", []), (.USE_AS_DICTIONARY_BAD_TYPE, str "field-use-as-dictionary", []),
      (.CDN_CACHE_CONTROL_PRESENT, str "field-cdn-cache-control", []), (.BAD_CDN_CC_TYPE, str "field-cdn-cache-control", []), (.BAD_CDN_CC_TYPE, str "field-cdn-cache-control", [])]) := by decide +kernel

/-- `wrongTypes` on members of several types -/
example : wrongTypes [.str (str "a"), .token (str "b"), .int 5, .token (str "c")] = [str "Token", str "int"] := by decide +kernel

example : requestOutcome structEnv [(str "Available-Dictionary", str "foo")] = (true, [(NoteId.AVAILABLE_DICTIONARY_BAD_TYPE, str "field-available-dictionary")]) := by decide +kernel

/-- Use-As-Dictionary's `type` is a Token (RFC 9842, section 2.1.4), but a Token is reported as being of the wrong type -/
theorem C89_type_fails : outcome structEnv [(str "Use-As-Dictionary", str "match=\"/a*\", type=raw")] =
    (true, [(.USE_AS_DICTIONARY_BAD_TYPE, str "field-use-as-dictionary", [])]) := by decide +kernel

/-! ### times -/

/-- the number two digits stand for -/
def two (s : Str) (i : Nat) : Int := match s.drop i with | a :: b :: _ => 10 * ((a : Int) - 48) + ((b : Int) - 48) | _ => 0

/-- a date library that reads the minutes and seconds of dates in the third hour of 2 January 2024 -/
def clockEnv : Env := { structEnv with parsedate := fun s => some (2024, 1, 2, 3, two s 20, two s 23) }

/-- what is reported on a response received at 2024-01-02 03:04:05 -/
def timedOutcome (ls : List Line) : Bool × List (NoteId × Str × List NoteId) :=
  let r := processSection clockEnv none false ls (fresh clockEnv .response (some 1704164645) false false)
  ((match r.2 with | .ok () => true | .error _ => false), r.1.notes.map fun x => (x.cls, x.subject, x.subnotes.map (·.cls)))

/-- Date is read from both forms; it's right within five seconds -/
example : timedOutcome [(str "Date", str "Tue, 02 Jan 2024 03:04:10 GMT"), (str "Last-Modified", str "Tue, 02 Jan 2024 03:04:11 GMT"),
      (str "Sunset", str "Tue, 02 Jan 2024 03:04:04 GMT"), (str "Deprecation", str "@1704164646")] =
    (true, [(.DATE_CORRECT, str "field-date", []), (.LM_FUTURE, str "field-last-modified", []), (.SUNSET_PAST, str "field-sunset", []), (.DEPRECATION_FUTURE, str "field-deprecation", [])]) := by decide +kernel

example : timedOutcome [(str "Date", str "Tue, 02 Jan 2024 03:04:11 GMT"), (str "Last-Modified", str "Tue, 02 Jan 2024 03:04:11 GMT"),
      (str "Sunset", str "Tue, 02 Jan 2024 03:04:05 GMT"), (str "Deprecation", str "?1")] =
    (true, [(.DATE_INCORRECT, str "field-date", []), (.LM_PRESENT, str "field-last-modified", []), (.DEPRECATION_TRUE, str "field-deprecation", [])]) := by decide +kernel

/-- a `Date` an intermediary has changed -/
example : timedOutcome [(str "Age", str "60"), (str "Date", str "Tue, 02 Jan 2024 03:04:05 GMT")] =
    (true, [(.AGE_PENALTY, str "field-date field-age", [])]) := by decide +kernel

/-- ... but with `Age` after `Date` it is not noticed -/
theorem C91_order_of_age_matters : timedOutcome [(str "Date", str "Tue, 02 Jan 2024 03:04:05 GMT"), (str "Age", str "60")] =
    (true, [(.DATE_CORRECT, str "field-date", [])]) := by decide +kernel

/-- `Last-Modified` is compared with a `Date` before it ... -/
theorem C91_order_of_date_matters :
    timedOutcome [(str "Date", str "Tue, 02 Jan 2024 03:04:03 GMT"), (str "Last-Modified", str "Tue, 02 Jan 2024 03:04:04 GMT")] =
      (true, [(.DATE_CORRECT, str "field-date", []), (.LM_FUTURE, str "field-last-modified", [])]) ∧
    timedOutcome [(str "Last-Modified", str "Tue, 02 Jan 2024 03:04:04 GMT"), (str "Date", str "Tue, 02 Jan 2024 03:04:03 GMT")] =
      (true, [(.LM_PRESENT, str "field-last-modified", []), (.DATE_CORRECT, str "field-date", [])]) := by decide +kernel

end HL.Props
