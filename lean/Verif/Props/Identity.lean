import Verif.Props.Sections
import Verif.Props.Grammar
import Verif.Props.Lookup

/-!
# A handler's class and names are those of the field it was made for
-/

namespace HL.Props

/-- the class of a field name: the registered one, else the class of unknown fields -/
def classOf (name : Str) : FieldId := (findHandlerClass name).getD .unknownField

theorem classOf_lower {a b : Str} (h : lower a = lower b) : classOf a = classOf b := by
  unfold classOf; rw [C23_case_insensitive a b h]

/-- the attributes fixed when a handler is made -/
structure SameId (h h' : Handler) : Prop where
  fid : h.fid = h'.fid
  wire : h.wireName = h'.wireName
  norm : h.normName = h'.normName
  canon : h.canonicalName = h'.canonicalName
  cat : h.category = h'.category
  ref : h.reference = h'.reference

theorem SameId.refl (h) : SameId h h := ⟨rfl, rfl, rfl, rfl, rfl, rfl⟩
theorem SameId.trans {a b c} (h : SameId a b) (h' : SameId b c) : SameId a c :=
  ⟨h.fid.trans h'.fid, h.wire.trans h'.wire, h.norm.trans h'.norm, h.canon.trans h'.canon, h.cat.trans h'.cat, h.ref.trans h'.ref⟩

theorem preCheck_id (h : Handler) (kind add) : SameId (h.preCheck kind add).1 h := by
  unfold Handler.preCheck
  split
  · exact ⟨rfl, rfl, rfl, rfl, rfl, rfl⟩
  · split
    · exact .refl h
    · dsimp only; split <;> exact .refl h

theorem append_id {h h' : Handler} {x : Val} (he : h.append x = .ok h') : SameId h' h := by
  unfold Handler.append at he
  split at he
  · simp only [Except.ok.injEq] at he; subst he; exact ⟨rfl, rfl, rfl, rfl, rfl, rfl⟩
  · simp at he

theorem aux_id (h : Handler) (aux) : SameId { h with aux } h := ⟨rfl, rfl, rfl, rfl, rfl, rfl⟩

theorem listLoop_id (c add) (vs : List Str) : ∀ h : Handler, SameId (h.listLoop c add vs).1 h := by
  induction vs with
  | nil => intro h; exact .refl h
  | cons v vs ih =>
    intro h
    unfold Handler.listLoop
    dsimp only
    split
    · exact .refl h
    · split
      · split
        · exact (ih _).trans (aux_id h _)
        · exact aux_id h _
      · split
        · exact aux_id h _
        · rename_i he
          exact (ih _).trans ((append_id he).trans (aux_id h _))

theorem handleInput_id (c) (h : Handler) (v o) : SameId (h.handleInput c v o).1 h := by
  unfold Handler.handleInput
  split
  · exact listLoop_id _ _ _ _
  · exact ⟨rfl, rfl, rfl, rfl, rfl, rfl⟩
  · exact ⟨rfl, rfl, rfl, rfl, rfl, rfl⟩
  · split
    · rename_i he; obtain ⟨a, b, d, e, f, g⟩ := append_id he; exact ⟨a, b, d, e, f, g⟩
    · exact .refl h
  · split
    · rename_i he; exact append_id he
    · exact .refl h
  · exact .refl h

theorem evaluate_id (c add) (h : Handler) : SameId (h.evaluate c add).1 h := by
  unfold Handler.evaluate Handler.keep
  split
  all_goals first
    | (with_reducible exact SameId.refl h)
    | (unfold Handler.assign; split <;> exact ⟨rfl, rfl, rfl, rfl, rfl, rfl⟩)
    | (unfold Handler.appendVals; split <;> exact ⟨rfl, rfl, rfl, rfl, rfl, rfl⟩)

theorem evalAfter_id (c add ns) (h : Handler) : SameId (h.evalAfter c add ns).1 h := by
  unfold Handler.evalAfter
  split
  · exact .refl h
  · exact evaluate_id c add h

theorem brokenLoop_id (c) (rs : List (Str × Nat)) : ∀ (h : Handler) acc, SameId (h.brokenLoop c rs acc).1 h := by
  induction rs with
  | nil => intro h acc; exact .refl h
  | cons r rs ih =>
    obtain ⟨raw, o⟩ := r
    intro h acc
    unfold Handler.brokenLoop
    dsimp only
    split
    · exact (ih _ _).trans (aux_id h _)
    · split
      · exact (ih _ _).trans (aux_id h _)
      · exact aux_id h _

theorem finish_id (c add) (h : Handler) : SameId (h.finish c add).1 h := by
  unfold Handler.finish
  split
  · unfold Handler.finishSingleton
    split
    · exact ⟨rfl, rfl, rfl, rfl, rfl, rfl⟩
    · dsimp only
      split
      · exact (evalAfter_id _ _ _ _).trans ⟨rfl, rfl, rfl, rfl, rfl, rfl⟩
      · split <;> exact ⟨rfl, rfl, rfl, rfl, rfl, rfl⟩
  · unfold Handler.finishBroken
    dsimp only
    split
    · exact brokenLoop_id _ _ _ _
    · exact (evalAfter_id _ _ _ _).trans (SameId.trans (b := (Handler.brokenLoop c h.raw h []).1) ⟨rfl, rfl, rfl, rfl, rfl, rfl⟩ (brokenLoop_id _ _ _ _))
  · unfold Handler.finishSf
    split
    · exact .refl h
    · split
      · exact .refl h
      · split
        · exact .refl h
        · dsimp only
          split
          · exact (evalAfter_id _ _ _ _).trans ⟨rfl, rfl, rfl, rfl, rfl, rfl⟩
          · exact ⟨rfl, rfl, rfl, rfl, rfl, rfl⟩
          · exact ⟨rfl, rfl, rfl, rfl, rfl, rfl⟩
  · unfold Handler.finishJson
    split
    · exact .refl h
    · split
      · exact .refl h
      · split
        · exact (evalAfter_id _ _ _ _).trans ⟨rfl, rfl, rfl, rfl, rfl, rfl⟩
        · exact ⟨rfl, rfl, rfl, rfl, rfl, rfl⟩
        · exact .refl h
  · exact evalAfter_id _ _ _ _
  · exact evalAfter_id _ _ _ _

/-- a handler kept under `k` was made for some spelling of `k`, by the class of that name -/
def idInv (env : Env) : Inv env where
  I k h := ∃ name, lower name = k ∧ SameId h (mkHandler (classOf name) name)
  J _ _ := True
  K _ := True
  V _ _ _ := True
  refused _ _ _ _ _ _ _ := trivial
  new name := ⟨name, rfl, .refl _⟩
  pre k h kind add _ hI := let ⟨n, e, s⟩ := hI; ⟨n, e, (preCheck_id ..).trans s⟩
  inp k h kind add c v o _ _ hI _ _ := let ⟨n, e, s⟩ := hI; ⟨⟨n, e, (handleInput_id ..).trans ((preCheck_id ..).trans s)⟩, trivial⟩
  fin k h c add _ hI _ := ⟨⟨let ⟨n, e, s⟩ := hI; ⟨n, e, (finish_id ..).trans s⟩, trivial⟩, fun _ => trivial⟩

theorem mkHandler_fid (f n) : (mkHandler f n).fid = f := by unfold mkHandler; dsimp only; split <;> rfl
theorem mkHandler_wire (f n) : (mkHandler f n).wireName = strip n := by unfold mkHandler; dsimp only; split <;> rfl
theorem mkHandler_norm (f n) : (mkHandler f n).normName = lower (strip n) := by unfold mkHandler; dsimp only; split <;> rfl
theorem mkHandler_value (f n) : (mkHandler f n).value = .list [] := by unfold mkHandler; dsimp only; split <;> rfl
theorem mkHandler_raw (f n) : (mkHandler f n).raw = [] := by unfold mkHandler; dsimp only; split <;> rfl
theorem mkHandler_sf (f n) : (mkHandler f n).sfParsed = false := by unfold mkHandler; dsimp only; split <;> rfl

/-- the sections of the linters a user can have satisfy it -/
abbrev IdSec (env : Env) (s : Section) : Prop := (idInv env).Holds s

theorem IdSec.handler {env s} (h : IdSec env s) (name : Str) :
    (findHandler s.handlers name).fid = classOf name ∧
    isToken (findHandler s.handlers name).wireName = isToken (strip name) ∧
    (findHandler s.handlers name).normName = lower (strip name) := by
  obtain ⟨n, e, sid⟩ := h.find name
  refine ⟨?_, ?_, ?_⟩
  · rw [sid.fid, mkHandler_fid, classOf_lower e]
  · rw [sid.wire, mkHandler_wire, isToken_lower e]
  · rw [sid.norm, mkHandler_norm, ← strip_lower, ← strip_lower, e]

end HL.Props
