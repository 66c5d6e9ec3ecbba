import Verif.Props.MessageEmits

/-!
# The linters a user can have

`HttpRequestLinter(...)` / `HttpResponseLinter(...)` followed by any sequence of calls of the public API, some of
which may have raised.
-/

namespace HL.Props

/-- a new linter; `head` is the attribute `is_head_response`, which the user may set -/
def fresh (env : Env) (kind : MsgKind) (start : Option Rat) (noContent head : Bool) : Msg :=
  { Msg.new env kind start noContent with isHeadResponse := head }

/-- the linters that exist after some calls -/
def Reachable (env : Env) (m : Msg) : Prop :=
  ∃ kind start noContent head related ops, m = (Op.runAll env ops ⟨fresh env kind start noContent head, related⟩).msg

theorem fresh_good (env kind start nc head) : Good (fresh env kind start nc head) :=
  ⟨rfl, by intro p hp; simp [fresh, Msg.new] at hp, by intro p hp; simp [fresh, Msg.new] at hp⟩

theorem Reachable.good {env m} (h : Reachable env m) : Good m := by
  obtain ⟨kind, start, nc, head, related, ops, rfl⟩ := h
  exact (runAll_lint env ops _ (fresh_good ..)).2

theorem Reachable.lint {env m} (h : Reachable env m) : ∀ n ∈ m.notes, LintNote n := by
  obtain ⟨kind, start, nc, head, related, ops, rfl⟩ := h
  exact (runAll_lint env ops _ (fresh_good ..)).1.all (stable_of _) (by simp [fresh, Msg.new])

theorem runAll_append (env : Env) (a b : List Op) (w : World) :
    Op.runAll env (a ++ b) w = Op.runAll env b (Op.runAll env a w) := by
  induction a generalizing w with
  | nil => rfl
  | cons op a ih => exact ih _

end HL.Props
