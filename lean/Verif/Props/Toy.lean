import Verif.Props.Basic
import Lean.Elab.Tactic

/-!
# A concrete environment for the examples

The examples beside the theorems need some libraries; these are simple stand-ins.
-/

namespace HL.Props

/-- close `a = b` by `Eq.refl a`, leaving all evaluation to the kernel -/
elab "kernel_rfl" : tactic => do
  let g ← Lean.Elab.Tactic.getMainGoal
  g.withContext do
    let some (_, a, _) := (← Lean.instantiateMVars (← g.getType)).eq? | throwError "not an equation"
    g.assign (← Lean.Meta.mkEqRefl a)

/-- decompressors that return their input (and fail on input containing the octet 255) -/
def toyZ (_ : List Str) (chunk : Str) : ZResult :=
  if chunk.contains 255 then .err (str "invalid block type") else .ok chunk []

/-- structured fields are not parsed, dates are all the same, text codecs are Latin-1 -/
def toyEnv : Env where
  render :=
    { pyStr := fun _ => .ok (str "object")
      timedelta := fun us dir => (if dir then (if us < 0 then [] else str "in ") else []) ++ decI ((us.natAbs / 1000000 : Nat) : Int) ++ str " seconds" ++ (if dir && us < 0 then str " ago" else [])
      translate := id, markdown := id }
  sfParse := fun _ _ => .error (str "not parsed") []
  jsonLoads := fun _ => .decodeError (str "not parsed")
  parsedate := fun _ => some (2024, 1, 2, 3, 4, 5)
  urlsplit := fun s => .ok ⟨[], [], s, [], []⟩
  urljoin := fun _ s => .ok s
  urlunquote := id
  urlunsplit := fun u => u.path
  idna := .ok
  codecsLookup := .ok
  decode := fun _ s => .ok s
  chardet := fun _ => (none, none)
  sniff := fun _ d => .ok d
  inflate := toyZ
  brotli := toyZ
  printable := fun c => 32 ≤ c && c ≠ 127 && !(128 ≤ c && c ≤ 160)
  md5 := id

end HL.Props
