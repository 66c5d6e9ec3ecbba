import Verif.Props.OriginThm
import Verif.Props.TypesEx
/-! Non-vacuity of C92–C94, the order-dependence of C94, and what C93 takes two origins to be. -/
namespace HL.Props
open HL

/-- C92: two origins; and one that isn't -/
example : requestOutcome toyEnv [(str "Origin", str "https://example.com:8080 http://b")] = (true, [(NoteId.ORIGIN_MULTIPLE_VALUES, str "field-origin")]) ∧
    requestOutcome toyEnv [(str "Origin", str "https://example.com/path")] = (true, [(NoteId.BAD_ORIGIN_SYNTAX, str "field-origin")]) ∧
    requestOutcome toyEnv [(str "Origin", str "null")] = (true, []) := by decide +kernel

/-- its parts are kept -/
example : dget (processSection toyEnv none false [(str "Origin", str "HTTPS://Example.com:8080")] (fresh toyEnv .request none false false)).1.headers.parsed (str "origin") =
    some (.origin (str "https") (str "example.com") (some 8080)) := by decide +kernel

example : Lined (IsOrigin (str "https") (str "example.com") (some (str "8080"))) (str "https://example.com:8080") ∧ PortNumber (some (str "8080")) (some 8080) :=
  ⟨(origin_iff _ _ _ _).1 (by decide +kernel), by decide, pyInt_iff.1 (by decide +kernel)⟩

example : outcome toyEnv [(str "Access-Control-Max-Age", str "60")] = (true, []) ∧
    outcome toyEnv [(str "Access-Control-Max-Age", str "-1")] = (true, [(.CORS_MAX_AGE_NEGATIVE, str "field-access-control-max-age", [])]) ∧
    outcome toyEnv [(str "Access-Control-Max-Age", str "1.5")] = (true, [(.CORS_MAX_AGE_INVALID, str "field-access-control-max-age", [])]) := ⟨by decide +kernel, by decide +kernel, by decide +kernel⟩

/-! ### Referer -/

/-- a library that takes `scheme://authority/rest` apart -/
def webEnv : Env := { toyEnv with urlsplit := fun s => match split1 58 s with
  | some (a, b) => .ok ⟨lower a, (b.drop 2).takeWhile (· != 47), (b.drop 2).dropWhile (· != 47), [], []⟩
  | none => .ok ⟨[], [], s, [], []⟩ }

/-- what is reported on a request for `uri` -/
def askedFor (uri : Str) (ls : List Line) : Bool × List (NoteId × Str) :=
  let r := processSection webEnv none false ls { fresh webEnv .request none false false with uri := some uri }
  ((match r.2 with | .ok () => true | .error _ => false), r.1.notes.map fun x => (x.cls, x.subject))

/-- C93 -/
example : askedFor (str "http://example.com/") [(str "Referer", str "https://example.com/a")] =
      (true, [(.REFERER_SECURE_TO_INSECURE, str "field-referer"), (.REFERER_SECURE_TO_DIFFERENT_ORIGIN, str "field-referer")]) ∧
    askedFor (str "https://example.net/") [(str "Referer", str "https://example.com/a")] = (true, [(.REFERER_SECURE_TO_DIFFERENT_ORIGIN, str "field-referer")]) ∧
    askedFor (str "https://example.com/b") [(str "Referer", str "https://example.com/a")] = (true, []) ∧
    askedFor (str "http://example.com/") [(str "Referer", str "http://example.net/a")] = (true, []) := by decide +kernel

/-- hosts are compared as written: the same origin in another case, or with its default port, is taken to be another one -/
theorem C93_same_origin_fails : askedFor (str "https://example.com/") [(str "Referer", str "https://Example.com/")] = (true, [(.REFERER_SECURE_TO_DIFFERENT_ORIGIN, str "field-referer")]) ∧
    askedFor (str "https://example.com/") [(str "Referer", str "https://example.com:443/")] = (true, [(.REFERER_SECURE_TO_DIFFERENT_ORIGIN, str "field-referer")]) := by decide +kernel

/-! ### Content-Length and Transfer-Encoding -/

/-- **C94 is false of the code** as stated: with `Transfer-Encoding` after `Content-Length` nothing is said of them -/
theorem C94_order_matters :
    outcome toyEnv [(str "Transfer-Encoding", str "chunked"), (str "Content-Length", str "5")] = (true, [(.CL_AND_TE_PRESENT, str "field-content-length", [])]) ∧
    outcome toyEnv [(str "Content-Length", str "5"), (str "Transfer-Encoding", str "chunked")] = (true, []) := by decide +kernel

end HL.Props
