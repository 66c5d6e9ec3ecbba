import Verif.Props.Finish

/-!
# C26, C27: the verdict on the amount of content
-/

namespace HL.Props

/-- a message that can have content: a request, or a response that is neither to HEAD nor 304 -/
def MayHaveContent (m : Msg) : Prop := m.kind = .request ∨ (m.isHeadResponse = false ∧ m.statusCode ≠ some 304)

theorem canHaveContent_iff (m : Msg) : m.canHaveContent = true ↔ MayHaveContent m := by
  unfold Msg.canHaveContent MayHaveContent
  cases m.kind <;> simp

theorem eqNat_int (n : Int) (k : Nat) : (Val.int n).eqNat k = decide (n = k) := by
  unfold Val.eqNat Val.number
  dsimp only
  by_cases h : n = k
  · subst h; simp; rfl
  · simp only [h, decide_false, beq_eq_false_iff_ne, ne_eq]
    intro hq
    exact h (Rat.intCast_inj.1 (hq.trans (Rat.intCast_natCast k).symm))

/-- after any calls on a linter that looks at the content, the verdict, in terms of the bytes fed -/
theorem lengthNotes_fed {env kind start head related} {ops : List Op} {m : Msg}
    (hm : m = (Op.runAll env ops ⟨fresh env kind start false head, related⟩).msg) :
    m.noContent = false ∧ m.contentLength = (fed ops).length := by
  have h := runAll_content env ops ⟨fresh env kind start false head, related⟩
  simp only [fresh, Msg.new, Nat.zero_add] at h
  subst hm
  exact ⟨h.2.1, h.1⟩

theorem lengthNotes_present {m : Msg} {v : Val} (hc : MayHaveContent m) (hn : m.noContent = false)
    (hcl : dget m.headers.parsed (str "content-length") = some v) :
    lengthNotes m = if v.eqNat m.contentLength then [(m.adder (str "field-content-length")).mk1 .CL_CORRECT]
      else [(m.adder (str "field-content-length")).mk1 .CL_INCORRECT
        [(str "content_length", .str (fNum m.contentLength))]] := by
  unfold lengthNotes
  rw [if_pos ((canHaveContent_iff m).2 hc), hcl, hn]
  rfl

/-- **C26**: a linter is created (looking at content), any calls are made on it, and then `finish_content` returns.
If the message can have content and its Content-Length was parsed as the number `n`, then exactly one verdict is
added: CL_CORRECT if `n` bytes were fed - in whatever chunks - and otherwise CL_INCORRECT with the actual count. -/
theorem C26_content_length_verdict {env kind start head related related'} {ops : List Op} {co ts} {m m' : Msg} {rn}
    (hm : m = (Op.runAll env ops ⟨fresh env kind start false head, related⟩).msg)
    (h : Finishes env related' co ts m m' rn) (hc : MayHaveContent m) {n : Int}
    (hcl : dget m.headers.parsed (str "content-length") = some (.int n)) :
    ∃ v, sel isLength m'.notes = sel isLength m.notes ++ [v] ∧
      (n = (fed ops).length → v.cls = .CL_CORRECT) ∧
      (n ≠ (fed ops).length → v.cls = .CL_INCORRECT ∧ dget v.vars (str "content_length") = some (.str (dec (fed ops).length))) := by
  have hg : Good m := Reachable.good ⟨_, _, _, _, _, _, hm⟩
  obtain ⟨hn, hl⟩ := lengthNotes_fed hm
  rw [finish_length hg h, lengthNotes_present hc hn hcl, eqNat_int, hl]
  by_cases e : n = (fed ops).length
  · rw [decide_eq_true e]
    exact ⟨_, rfl, fun _ => rfl, fun h => absurd e h⟩
  · rw [decide_eq_false e]
    refine ⟨_, rfl, fun h => absurd h e, fun _ => ⟨rfl, ?_⟩⟩
    rw [dget_mk1_nobase rfl]
    rfl

/-- **C26**, a Content-Length that is there but could not be parsed is never correct. -/
theorem C26_unparsed_is_incorrect {env kind start head related related'} {ops : List Op} {co ts} {m m' : Msg} {rn}
    (hm : m = (Op.runAll env ops ⟨fresh env kind start false head, related⟩).msg)
    (h : Finishes env related' co ts m m' rn) (hc : MayHaveContent m)
    (hcl : dget m.headers.parsed (str "content-length") = some .none) :
    ∃ v, sel isLength m'.notes = sel isLength m.notes ++ [v] ∧ v.cls = .CL_INCORRECT := by
  have hg : Good m := Reachable.good ⟨_, _, _, _, _, _, hm⟩
  obtain ⟨hn, hl⟩ := lengthNotes_fed hm
  rw [finish_length hg h, lengthNotes_present hc hn hcl]
  exact ⟨_, rfl, rfl⟩

/-- **C26**, without a Content-Length there is no verdict, and none with `no_content`. -/
theorem C26_no_verdict {env related co ts} {m m' : Msg} {rn} (hr : Reachable env m)
    (h : Finishes env related co ts m m' rn) (hc : MayHaveContent m)
    (hcl : dget m.headers.parsed (str "content-length") = none ∨ m.noContent = true) :
    sel isLength m'.notes = sel isLength m.notes := by
  rw [finish_length hr.good h]
  have : lengthNotes m = [] := by
    unfold lengthNotes
    rw [if_pos ((canHaveContent_iff m).2 hc)]
    rcases hcl with e | e
    · rw [e]
    · rw [e]; cases dget m.headers.parsed (str "content-length") <;> rfl
  rw [this, List.append_nil]

/-- **C27**: for a response to HEAD or a 304, CONTENT_NOT_ALLOWED is added exactly when content was fed (and
`no_content` is off), and no Content-Length verdict is given. -/
theorem C27_content_not_allowed {env kind start noContent head related related'} {ops : List Op} {co ts} {m m' : Msg} {rn}
    (hm : m = (Op.runAll env ops ⟨fresh env kind start noContent head, related⟩).msg)
    (h : Finishes env related' co ts m m' rn) (hk : m.kind = .response)
    (hc : m.isHeadResponse = true ∨ m.statusCode = some 304) :
    (sel isLength m'.notes).map (·.cls) = (sel isLength m.notes).map (·.cls) ++
      (if fed ops ≠ [] ∧ noContent = false then [.CONTENT_NOT_ALLOWED] else []) := by
  have hg : Good m := Reachable.good ⟨_, _, _, _, _, _, hm⟩
  have hn := runAll_content env ops ⟨fresh env kind start noContent head, related⟩
  simp only [fresh, Msg.new, Nat.zero_add] at hn
  have h1 : m.contentLength = (fed ops).length := by subst hm; exact hn.1
  have h2 : m.noContent = noContent := by subst hm; exact hn.2.1
  have hcan : m.canHaveContent = false := by
    cases e : m.canHaveContent with
    | false => rfl
    | true =>
      rcases (canHaveContent_iff m).1 e with e | ⟨a, b⟩
      · rw [hk] at e; exact nomatch e
      · rcases hc with c | c
        · rw [a] at c; exact nomatch c
        · exact absurd c b
  rw [finish_length hg h, List.map_append]
  congr 1
  unfold lengthNotes
  rw [hcan, h1, h2]
  have : ((fed ops).length ≠ 0) ↔ fed ops ≠ [] := by simp
  by_cases e : fed ops ≠ [] ∧ noContent = false
  · rw [if_pos e]
    simp [e]
  · rw [if_neg e]
    simp only [Bool.false_eq_true, if_false, this]
    rw [if_neg e]
    rfl

/-- **C27**, and in any other message it is not added. -/
theorem C27_only_then {env related co ts} {m m' : Msg} {rn} (hr : Reachable env m)
    (h : Finishes env related co ts m m' rn) (hc : MayHaveContent m) :
    m'.notes.filter (·.cls = .CONTENT_NOT_ALLOWED) = m.notes.filter (·.cls = .CONTENT_NOT_ALLOWED) := by
  have key : ∀ ns : List Note, ns.filter (·.cls = .CONTENT_NOT_ALLOWED) =
      (sel isLength ns).filter (·.cls = .CONTENT_NOT_ALLOWED) := by
    intro ns
    unfold sel
    rw [List.filter_filter]
    congr 1
    funext n
    by_cases e : n.cls = .CONTENT_NOT_ALLOWED
    · rw [e]; rfl
    · simp [e]
  rw [key m'.notes, key m.notes, finish_length hr.good h, List.filter_append]
  have : (lengthNotes m).filter (·.cls = .CONTENT_NOT_ALLOWED) = [] := by
    unfold lengthNotes
    rw [if_pos ((canHaveContent_iff m).2 hc)]
    split
    · rfl
    · split
      · rfl
      · split <;> simp
  rw [this, List.append_nil]

/-! Three concrete histories. -/

/-- a response with the given status and Content-Length, and "hello" in two chunks -/
def helloOps (status cl : Str) : List Op :=
  [.responseTopline (str "1.1") status none, .headers [(str "Content-Length", cl)], .feed (str "hel"), .feed (str "lo")]

/-- the linter after them, and after `finish_content` -/
def helloRun (status cl : Str) (head : Bool) : Msg × (Msg × Except Exn Unit) × List Note :=
  let m := (Op.runAll toyEnv (helloOps status cl) ⟨fresh toyEnv .response none false head, none⟩).msg
  (m, m.finishContent toyEnv none true [])

example : (fed (helloOps (str "200") (str "5"))).length = 5 := by decide
example : (let r := helloRun (str "200") (str "5") false
    (dget r.1.headers.parsed (str "content-length"), r.2.1.2, (sel isLength r.2.1.1.notes).map (·.cls))) =
    (some (.int 5), .ok (), [.CL_CORRECT]) := by decide +kernel
example : (let r := helloRun (str "200") (str "6") false
    (dget r.1.headers.parsed (str "content-length"), r.2.1.2, (sel isLength r.2.1.1.notes).map (·.cls))) =
    (some (.int 6), .ok (), [.CL_INCORRECT]) := by decide +kernel
example : (let r := helloRun (str "304") (str "5") false
    (r.1.statusCode, r.2.1.2, (sel isLength r.2.1.1.notes).map (·.cls))) =
    (some 304, .ok (), [.CONTENT_NOT_ALLOWED]) := by decide +kernel
example : (let r := helloRun (str "200") (str "many") false
    (dget r.1.headers.parsed (str "content-length"), r.2.1.2, (sel isLength r.2.1.1.notes).map (·.cls))) =
    (some .none, .ok (), [.CL_INCORRECT]) := by decide +kernel

end HL.Props
