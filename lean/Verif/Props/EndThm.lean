import Verif.Props.JsonThm
import Verif.Props.CorsThm

/-!
# The end of a message: checks across its fields (C99 onwards)
-/

namespace HL.Props
open HL.F

/-- the notes of classes `Xs` of `m'` are those of `m` and then exactly these -/
def Gained (Xs : List NoteId) (m m' : Msg) (l : List (Str × Report)) : Prop :=
  ∃ added, amongClass Xs m'.notes = amongClass Xs m.notes ++ added ∧ Each (fun (x : Note) p => Reports x p.1 p.2) added l

/-! ### requests (C99) -/

/-- the methods whose requests have no content with a meaning -/
def contentless : List Str := [str "GET", str "HEAD", str "DELETE", str "CONNECT", str "TRACE"]

open Classical in
/-- what is said of a request when it ends: after `size` octets of content, unless there was none to be examined -/
noncomputable def requestEndReports (m : Msg) (size : Nat) (noContent : Bool) : List (Str × Report) :=
  (if HasField m (str "user-agent") then [] else [(str "field-user-agent", { cls := .MISSING_USER_AGENT })]) ++
  (match m.method with
  | some meth => if meth ∈ contentless ∧ size > 0 ∧ noContent = false then
      [(str "message", { cls := .REQUEST_CONTENT_NOT_DEFINED, vars := [(str "method", .str meth)] })] else []
  | none => [])

theorem adder_reports {m : Msg} {s : Str} {X : NoteId} {vrs : Dict Val} (h : (vrs.map (·.1)).Nodup) : Reports ((m.adder s).mk1 X vrs) s ⟨X, vrs, []⟩ :=
  Report.note_reports (add := m.adder s) (r := ⟨X, vrs, []⟩) ⟨h, by simp⟩ rfl .nil

theorem among_only {Xs : List NoteId} {ns : List Note} (h : ∀ n ∈ ns, n.cls ∉ Xs) : amongClass Xs ns = [] := by
  unfold amongClass
  rw [List.filter_eq_nil_iff]
  intro n hn hc
  exact h n hn (by simpa using hc)

theorem requestEnd_notes (env : Env) (related : Option Msg) (m : Msg) (hmt : HasMT m.defaults) :
    amongClass [.MISSING_USER_AGENT, .REQUEST_CONTENT_NOT_DEFINED] (requestPostChecks env related m).notes =
      (if dhas m.headers.parsed (str "user-agent") then [] else [(m.adder (str "field-user-agent")).mk1 .MISSING_USER_AGENT]) ++
      (match m.method with
      | some meth => if m.contentLength > 0 && noContentMethods.contains meth && !m.noContent then
          [(m.adder (str "message")).mk1 .REQUEST_CONTENT_NOT_DEFINED [(str "method", .str meth)]] else []
      | none => []) := by
  have hp : amongClass [.MISSING_USER_AGENT, .REQUEST_CONTENT_NOT_DEFINED] (F.checkPreflightRequest ⟨env, m, related⟩ (m.adder [])).notes = [] := by
    refine among_only fun n hn hc => ?_
    have ho := (checkPreflightRequest_emits (adder_good hmt [] [] [str "message_type"] rfl) _ n hn).2
    have : n.cls = .MISSING_USER_AGENT ∨ n.cls = .REQUEST_CONTENT_NOT_DEFINED := by simpa using hc
    rcases this with h | h <;> (rw [h] at ho; exact nomatch ho)
  unfold requestPostChecks
  rw [W.bind_ok (checkPreflightRequest_ok _ _)]
  dsimp only
  rw [amongClass_append, hp, List.nil_append]
  cases dhas m.headers.parsed (str "user-agent") <;> cases m.method with
  | none => rfl
  | some meth => cases h : (decide (m.contentLength > 0) && noContentMethods.contains meth && !m.noContent) <;> (dsimp only; rw [h]; rfl)

/-- **C99.** A request without `User-Agent` is reported when it ends, and so is content where it has no defined meaning -/
theorem C99_request_end {env : Env} {kind start noContent head related related'} {ops : List Op} {co ts} {m m' : Msg} {rn}
    (hm : m = (Op.runAll env ops ⟨fresh env kind start noContent head, related⟩).msg) (h : Finishes env related' co ts m m' rn) (hk : m.kind = .request) :
    Gained [.MISSING_USER_AGENT, .REQUEST_CONTENT_NOT_DEFINED] m m' (requestEndReports m (fed ops).length noContent) := by
  have hr : Reachable env m := ⟨_, _, _, _, _, _, hm⟩
  have hn := runAll_content env ops ⟨fresh env kind start noContent head, related⟩
  simp only [fresh, Msg.new, Nat.zero_add] at hn
  have h1 : m.contentLength = (fed ops).length := by subst hm; exact hn.1
  have h2 : m.noContent = noContent := by subst hm; exact hn.2.1
  clear hm hn
  have hf : NonField ([NoteId.MISSING_USER_AGENT, .REQUEST_CONTENT_NOT_DEFINED].contains ·) := by
    intro c hc
    cases e : [NoteId.MISSING_USER_AGENT, .REQUEST_CONTENT_NOT_DEFINED].contains c with
    | false => exact e
    | true =>
      have : c = .MISSING_USER_AGENT ∨ c = .REQUEST_CONTENT_NOT_DEFINED := by simpa using e
      rcases this with rfl | rfl <;> exact absurd hc (by decide)
  obtain ⟨na, a1, a2, _⟩ := finish_request env related' co ts m m' rn hr.good hk h
  have hl : sel ([NoteId.MISSING_USER_AGENT, .REQUEST_CONTENT_NOT_DEFINED].contains ·) (lengthNotes m) = [] := sel_none fun n hn => by
    have := lengthNotes_isLength m n hn
    cases e : [NoteId.MISSING_USER_AGENT, .REQUEST_CONTENT_NOT_DEFINED].contains n.cls with
    | false => rfl
    | true =>
      have h2 : n.cls = .MISSING_USER_AGENT ∨ n.cls = .REQUEST_CONTENT_NOT_DEFINED := by simpa using e
      rcases h2 with h2 | h2 <;> (rw [h2] at this; exact nomatch this)
  refine ⟨amongClass [NoteId.MISSING_USER_AGENT, .REQUEST_CONTENT_NOT_DEFINED] (requestPostChecks env related' m).notes, ?_, ?_⟩
  · have e1 := hf.adds a2
    rw [sel_append, sel_append, hf.addsSec a1, hl, List.append_nil] at e1
    exact e1
  · rw [requestEnd_notes _ _ _ hr.good.mt]
    unfold requestEndReports HasField
    refine Each.append ?_ ?_
    · by_cases hu : dhas m.headers.parsed (str "user-agent") = true
      · rw [if_pos hu, if_pos hu]; exact .nil
      · rw [if_neg hu, if_neg hu]; exact .cons (adder_reports (by simp)) .nil
    · cases m.method with
      | none => exact .nil
      | some meth =>
        dsimp only
        by_cases hc : meth ∈ contentless ∧ (fed ops).length > 0 ∧ noContent = false
        · rw [if_pos hc, if_pos (by rw [h1, h2]; simp only [Bool.and_eq_true, Bool.not_eq_true', decide_eq_true_iff]; exact ⟨⟨hc.2.1, List.contains_iff_mem.2 hc.1⟩, hc.2.2⟩)]
          exact .cons (adder_reports (by simp)) .nil
        · rw [if_neg hc, if_neg (by rw [h1, h2]; simp only [Bool.and_eq_true, Bool.not_eq_true', decide_eq_true_iff]; exact fun ⟨⟨x, y⟩, z⟩ => hc ⟨List.contains_iff_mem.1 y, x, z⟩)]
          exact .nil

end HL.Props
