import Verif.Message
set_option linter.unusedVariables false
open HL
structure T where
  name : Str
  inputs : List Str
  setup : Msg → Msg
  rsetup : Msg → Msg
  rh : List (Str × Str)
  mh : List (Str × Str)
--TABLE
instance : Inhabited SfResult := ⟨.error [] []⟩
instance : Inhabited JsonResult := ⟨.decodeError []⟩
def look1 {β} [Inhabited β] (f : String) (t : List (Str × β)) (k : Str) : β :=
  match t.find? (fun p => p.1 == k) with
  | some p => p.2
  | none => dbgTrace s!"Q {f}|{k}" fun _ => default
def look2 {β} [Inhabited β] (f : String) (t : List ((Str × Str) × β)) (a b : Str) : β :=
  match t.find? (fun p => p.1 == (a,b)) with
  | some p => p.2
  | none => dbgTrace s!"Q {f}|{a}|{b}" fun _ => default
instance : Inhabited UrlParts := ⟨⟨[],[],[],[],[]⟩⟩
def env : Env := {
  render := { pyStr := fun _ => .ok [], translate := id, markdown := id }
  sfParse := look2 "sf" t_sf
  jsonLoads := look1 "json" t_json
  parsedate := look1 "parsedate" t_parsedate
  urlsplit := look1 "urlsplit" t_urlsplit
  urljoin := look2 "urljoin" t_urljoin
  urlunquote := look1 "unquote" t_unquote
  iriToUri := .ok
  utf8Replace := id
  codecsLookup := .ok
  decode := fun _ s => .ok s
  chardet := fun _ => (none, none)
  sniff := fun _ d => .ok d
  inflate := fun _ s => .ok s []
  brotli := fun _ s => .ok s []
  displayBytes := id
  md5 := id }
--TESTS
def showS (s : Str) : String := String.ofList (s.map Char.ofNat)
partial def showV : Val → String
  | .none => "None"
  | .bool b => if b then "True" else "False"
  | .int i => toString i
  | .num q => s!"N({q.num},{q.den})"
  | .str s => s!"S({s})"
  | .md s => s!"S({s})"
  | .token s => s!"T({s})"
  | .disp s => s!"D({s})"
  | .bytes s => s!"B({s})"
  | .date i => s!"Date({i})"
  | .rel u n k => s!"Rel()"
  | .origin s h p => s!"O({s},{h},{match p with | some x => toString x | none => "None"})"
  | .seq k xs => s!"{match k with | .list => "L" | .tuple => "Tu" | .set => "Set" | .dict => "Di"}([{", ".intercalate (xs.map showV)}])"
def exOk (x : Except Exn Str) : Nat := match x with | .ok _ => 1 | .error _ => 0
def runT (t : T) : String :=
  let fid := (findHandlerClass t.name).getD .unknownField
  let base := [104,116,116,112,58,47,47,101,120,97,109,112,108,101,46,99,111,109,47,102,111,111,47,98,97,114]
  let isReq := fid.info.validReq && !fid.info.validResp
  let kind : MsgKind := if isReq then .request else .response
  let rq : Msg := t.rsetup { Msg.new env .request with baseUri := base }
  let rq := (processSection env none false t.rh rq).1
  let m : Msg := { Msg.new env kind with baseUri := base }
  let m := if isReq then { m with method := some (str "GET") } else m
  let m := t.setup m
  let related := if isReq then none else some rq
  let m := (processSection env related false t.mh m).1
  let (m, r) := processSection env related false (t.inputs.map fun v => (t.name, v)) m
  let w := if isReq then F.checkPreflightRequest ⟨env, m, related⟩ (m.adder []) else F.checkPreflightResponse ⟨env, m, related⟩ (m.adder [])
  let m := m.addNotes w.notes
  let (m, r2) : Msg × Except Exn Unit := match dget m.headers.handlers (lower t.name) with
    | some h => let (ns, r2) := h.postCheck ⟨env, m, related⟩ (m.fieldAdder false h) m.notes; ({m with notes := ns}, r2)
    | none => (m, .ok ())
  let v := match dget m.headers.parsed (lower t.name) with
    | some v => showV v
    | none => "MISSING"
  let notes := m.notes.flatMap fun n => n.cls :: n.subnotes.map (·.cls)
  let err (x : Except Exn Unit) := match x with | .ok _ => "ok" | .error e => reprStr e
  s!"R|{err r}|{err w.res}|{err r2}|{v}|{notes.map reprStr}|{(m.notes.filter (fun n => true)).map fun n => exOk (env.render.detail n.cls n.vars) + 2 * exOk (env.render.summary n.cls n.vars)}"
def main : IO Unit := do
  for t in tests do
    IO.println (runT t)
