import Verif.Props.SessionThm
import Verif.Props.Toy

/-!
# C07: the hypotheses can be met, and are needed
-/

namespace HL.Props

theorem toy_usable (n : Str) : Usable toyEnv n := ⟨nofun, nofun, nofun⟩

/-- the toy library keeps the contract -/
theorem toy_contract : Contract toyEnv where
  urlsplit := nofun
  urljoin := nofun
  pyStr _ _ := ⟨_, rfl⟩
  sfParse := nofun
  idna := nofun
  utf8 := toy_usable _
  detected _ _ _ := toy_usable _

instance (f : FieldId) : Decidable (Perilous f) := by unfold Perilous; infer_instance

instance (ls : List (Str × Str)) : Decidable (CalmLines ls) := by unfold CalmLines; infer_instance

/-- header lines, with many mistakes in them -/
def exMessy : List (Str × Str) := [
  (str "Content-Type", str "text; charset=\"ut"), (str "Age", str "1_0"), (str "Set-Cookie", str "=;;expires"), (str "Vary", str "*,,\""),
  (str "Cache-Control", str "max-age=\"x"), (str "Content-Encoding", str "gzip, gzip"), (str "X" ++ [233, 58], [0, 13, 255]), ([], []), (str "Location", str "http://[")]

/-- `C07_calls_return_partial` applies to a response with such header lines, gzip content that is none, and trailers -/
example : ∃ w', RunsTo toyEnv [.responseTopline (str "x") (str "2O0") (some [255]), .headers exMessy, .feed [31, 139, 0], .feed [], .finish false [(str "Age", str "-")]]
    ⟨fresh toyEnv .response (some 5) false false, some (fresh toyEnv .request (some 4) false false)⟩ w' := by
  refine C07_calls_return_partial toy_contract .response _ _ _ _ _ ?_ ⟨?_, ?_, ?_, ?_, ?_, ?_⟩
  · intro r hr
    cases hr
    exact ⟨⟨.request, some 4, false, false, none, [], rfl⟩, (by intro p hp; cases hp), fun _ => rfl⟩
  · intro ls hl
    simp at hl
    subst hl
    decide +kernel
  · intro co ts hl
    simp at hl
    obtain ⟨rfl, rfl⟩ := hl
    decide +kernel
  · decide +kernel
  · decide +kernel
  · intro ls _ _ cs _
    exact toy_usable cs
  · intro _
    right; right
    intro ls hl _
    simp at hl
    subst hl
    refine ⟨10, ?_, by decide⟩
    have : pyInt (textOf exMessy (str "age")) = some 10 := by decide +kernel
    exact pyInt_iff.1 this

/-- the library as it is on some texts: `urljoin` of `http://[` raises, JSON can be nested too deeply, decoding with `undefined` raises
a `UnicodeError`, and `x;hit=?0` is a structured list -/
def roughEnv : Env := { toyEnv with
  urljoin := fun _ s => if s = str "http://[" then .error .valueError else .ok s
  jsonLoads := fun _ => .raises .recursionError
  decode := fun c s => if c = str "undefined" then .error .otherError else .ok s
  sfParse := fun _ s => if s = str "x;hit=?0" then .ok (.list [.tuple [.str (str "x"), .dict [.tuple [.str (str "hit"), .bool false]]]]) [] else .error [] [] }

/-- how a sequence of calls ends: with the exception of the first call that raises, or `none` -/
def firstRaised (env : Env) : List Op → World → Option Exn
  | [], _ => none
  | op :: ops, w => match (op.run env w) with
    | (_, .error e) => some e
    | (w, .ok ()) => firstRaised env ops w

/-- the same, on a new linter for a response to a request; both times are known -/
def raisedBy (env : Env) (ops : List Op) : Option Exn :=
  firstRaised env ops ⟨fresh env .response (some 5) false false, some (fresh env .request (some 4) false false)⟩

/-- **C07 is false of the code** without the restrictions of `OrdinaryCalls`: each of these raises.  In order: white space after the name
`Content-Type` or `Access-Control-Max-Age`; an `Age` that is no number, when both times are known; a `Link` whose target `urljoin` refuses;
JSON nested too deeply; a `Cache-Status` parameter that is false; a charset whose codec always fails; a structured field given twice. -/
theorem C07_witnesses :
    raisedBy roughEnv [.headers [(str "Content-Type ", str "text/html")]] = some .indexError ∧
    raisedBy roughEnv [.headers [(str "Access-Control-Max-Age ", str "1")], .finish true []] = some .keyError ∧
    raisedBy roughEnv [.responseTopline (str "1.1") (str "200") none, .headers [(str "Age", str "x"), (str "Cache-Control", str "max-age=5")], .finish true []] = some .typeError ∧
    raisedBy roughEnv [.headers [(str "Link", str "<http://[>; rel=preload")]] = some .valueError ∧
    raisedBy roughEnv [.headers [(str "NEL", str "[[[")]] = some .recursionError ∧
    raisedBy roughEnv [.headers [(str "Cache-Status", str "x;hit=?0")]] = some .typeError ∧
    raisedBy roughEnv [.responseTopline (str "1.1") (str "200") none, .headers [(str "Content-Type", str "text/html;charset=undefined")], .feed [65, 200], .finish true []]
      = some .otherError ∧
    raisedBy roughEnv [.headers [(str "Cache-Status", str "?")], .headers [(str "Cache-Status", str "x")]] = some .attributeError := by
  refine ⟨?_, ?_, ?_, ?_, ?_, ?_, ?_, ?_⟩ <;> decide +kernel

end HL.Props
