import Verif.Props.Sim

/-!
# What a field section's lines make of each field
-/

namespace HL.Props

/-! ### a new handler, fed its lines -/

/-- the lines of a name that is acceptable here, given one after the other to a new handler -/
def fedLines (c : Ctx) (name : Str) (ps : List (Nat × Str)) : Handler :=
  ps.foldl (fun h p => (h.handleInput c p.2 p.1).1) (mkHandler (classOf name) name)

theorem fed_id (c name ps) : SameId (fedLines c name ps) (mkHandler (classOf name) name) := by
  unfold fedLines
  generalize mkHandler (classOf name) name = h0
  induction ps generalizing h0 with
  | nil => exact .refl _
  | cons p ps ih => exact (ih _).trans (handleInput_id _ _ _ _)

theorem foldl_append_raw (f : Nat × Str → Str × Nat) (ps : List (Nat × Str)) (h : Handler) :
    ps.foldl (fun h p => { h with raw := h.raw ++ [f p] }) h = { h with raw := h.raw ++ ps.map f } := by
  induction ps generalizing h with
  | nil => simp
  | cons p ps ih => simp only [List.foldl_cons, ih, List.map_cons, List.append_assoc, List.cons_append, List.nil_append]

theorem foldl_congr_inv {α β} {P : β → Prop} {f g : β → α → β} (hP : ∀ b a, P b → P (g b a)) (hf : ∀ b a, P b → f b a = g b a)
    (l : List α) (b : β) (hb : P b) : l.foldl f b = l.foldl g b := by
  induction l generalizing b with
  | nil => rfl
  | cons a l ih => rw [List.foldl_cons, List.foldl_cons, hf b a hb, ih _ (hP b a hb)]

theorem fed_singleton {c name} (hk : (classOf name).info.kind = .singleton) (ps) :
    fedLines c name ps = { mkHandler (classOf name) name with raw := ps.map fun p => (p.2, 0) } := by
  unfold fedLines
  rw [foldl_congr_inv (P := fun h => h.fid = classOf name) (g := fun h (p : Nat × Str) => { h with raw := h.raw ++ [(p.2, 0)] })
    (fun _ _ h => h) (fun h p he => by unfold Handler.handleInput; rw [he, hk]) _ _ (mkHandler_fid _ _),
    foldl_append_raw (fun p => (p.2, 0)), mkHandler_raw]
  rfl

theorem fed_broken {c name} (hk : (classOf name).info.kind = .broken) (ps) :
    fedLines c name ps = { mkHandler (classOf name) name with raw := ps.map fun p => (p.2, p.1) } := by
  unfold fedLines
  rw [foldl_congr_inv (P := fun h => h.fid = classOf name) (g := fun h (p : Nat × Str) => { h with raw := h.raw ++ [(p.2, p.1)] })
    (fun _ _ h => h) (fun h p he => by unfold Handler.handleInput; rw [he, hk]) _ _ (mkHandler_fid _ _),
    foldl_append_raw (fun p => (p.2, p.1)), mkHandler_raw]
  rfl

theorem fed_unknown {c name} (hk : (classOf name).info.kind = .unknown) (ps) :
    fedLines c name ps = mkHandler (classOf name) name := by
  unfold fedLines
  rw [foldl_congr_inv (P := fun h => h.fid = classOf name) (g := fun h (_ : Nat × Str) => h)
    (fun _ _ h => h) (fun h p he => by unfold Handler.handleInput; rw [he, hk]) _ _ (mkHandler_fid _ _)]
  induction ps with
  | nil => rfl
  | cons p ps ih => exact ih

/-- the text of the lines so far -/
def textVal (xs : List Str) : Val := .list (xs.map Val.str)

theorem fed_text {c name} {k : FieldKind} (hk : (classOf name).info.kind = k) (hk' : k = .json ∨ ∃ t, k = .sf t) (ps) :
    fedLines c name ps = { mkHandler (classOf name) name with value := textVal (ps.map (·.2)) } := by
  unfold fedLines
  have key : ∀ (ps : List (Nat × Str)) (h : Handler) (xs : List Str), h.fid = classOf name → h.value = textVal xs → h.sfParsed = false →
      ps.foldl (fun h p => (h.handleInput c p.2 p.1).1) h = { h with value := textVal (xs ++ ps.map (·.2)) } := by
    intro ps
    induction ps with
    | nil => intro h xs _ hv _; simp [← hv]
    | cons p ps ih =>
      intro h xs hf hv hs
      have e : (h.handleInput c p.2 p.1).1 = { h with value := textVal (xs ++ [p.2]) } := by
        have ha : h.append (.str p.2) = .ok { h with value := textVal (xs ++ [p.2]) } := by
          unfold Handler.append; rw [hv]; simp [textVal]
        have hk2 : h.fid.info.kind = k := by rw [hf, hk]
        unfold Handler.handleInput
        rw [hk2]
        rcases hk' with rfl | ⟨t, rfl⟩
        · dsimp only; rw [ha]
        · dsimp only; rw [ha]; simp only [hs]
      rw [List.foldl_cons, e, ih { h with value := textVal (xs ++ [p.2]) } (xs ++ [p.2]) hf rfl hs, List.map_cons, List.append_assoc]
      rfl
  rw [key ps _ [] (mkHandler_fid _ _) (mkHandler_value _ _) (mkHandler_sf _ _)]
  rfl

/-! ### what the lines of a name become -/

/-- is a name acceptable in this kind of message? -/
def okName (kind : MsgKind) (name : Str) : Bool := (classOf name).validIn kind && isToken (strip name)

theorem okName_lower {kind a b} (h : lower a = lower b) : okName kind a = okName kind b := by
  unfold okName; rw [classOf_lower h, isToken_lower h]

/-- the handler left by some lines of the same name, the first of them spelt `name` -/
def handlerFor (c : Ctx) (name : Str) (ps : List (Nat × Str)) : Handler :=
  if okName c.msg.kind name then fedLines c name ps else checked c.msg.kind (mkHandler (classOf name) name)

theorem checked_id (kind h) : SameId (checked kind h) h := by
  unfold checked; split
  · exact .refl _
  · exact ⟨rfl, rfl, rfl, rfl, rfl, rfl⟩

theorem checked_checked (kind h) : checked kind (checked kind h) = checked kind h := by
  by_cases hv : h.fid.validIn kind = true
  · have : checked kind h = h := by unfold checked; rw [if_pos hv]
    rw [this, this]
  · have : checked kind h = { h with value := .none } := by unfold checked; rw [if_neg hv]
    rw [this]
    unfold checked
    rw [if_neg hv]

theorem feedLine_id (c h o v) : SameId (feedLine c h o v) h := by
  unfold feedLine; split
  · exact handleInput_id _ _ _ _
  · exact checked_id _ _

/-- given the lines of a name one after the other -/
theorem stepLines_some (c : Ctx) (p0 : Nat × Line) (ps : List (Nat × Line)) :
    (p0 :: ps).foldl (stepLine c) none =
      some (handlerFor c (decodeName p0.2.1) ((p0 :: ps).map fun p => (p.1, p.2.2))) := by
  have h1 : ∀ (ps : List (Nat × Line)) (h : Handler), ps.foldl (stepLine c) (some h) =
      some (ps.foldl (fun h p => feedLine c h p.1 p.2.2) h) := by
    intro ps
    induction ps with
    | nil => intro h; rfl
    | cons p ps ih => intro h; rw [List.foldl_cons, List.foldl_cons, ← ih]; rfl
  have h2 : ∀ (ps : List (Nat × Line)), ps.foldl (fun h p => feedLine c h p.1 p.2.2) (mkHandler (classOf (decodeName p0.2.1)) (decodeName p0.2.1)) =
      if okName c.msg.kind (decodeName p0.2.1) then fedLines c (decodeName p0.2.1) (ps.map fun p => (p.1, p.2.2))
      else ps.foldl (fun h _ => checked c.msg.kind h) (mkHandler (classOf (decodeName p0.2.1)) (decodeName p0.2.1)) := by
    intro ps
    generalize decodeName p0.2.1 = n
    have hid : ∀ h : Handler, SameId h (mkHandler (classOf n) n) → (h.fid.validIn c.msg.kind && isToken h.wireName) = okName c.msg.kind n := by
      intro h hs
      rw [hs.fid, hs.wire, mkHandler_fid, mkHandler_wire]; rfl
    split
    · rename_i hok
      unfold fedLines
      rw [List.foldl_map]
      refine foldl_congr_inv (P := fun h => SameId h (mkHandler (classOf n) n)) (fun h p hs => (handleInput_id _ _ _ _).trans hs) ?_ _ _ (.refl _)
      intro h p hs
      unfold feedLine
      rw [hid h hs, hok, if_pos rfl]
    · rename_i hok
      refine foldl_congr_inv (P := fun h => SameId h (mkHandler (classOf n) n)) (fun h p hs => (checked_id _ _).trans hs) ?_ _ _ (.refl _)
      intro h p hs
      unfold feedLine
      rw [hid h hs, if_neg hok]
  rw [List.foldl_cons]
  have : stepLine c none p0 = some (feedLine c (mkHandler (classOf (decodeName p0.2.1)) (decodeName p0.2.1)) p0.1 p0.2.2) := rfl
  rw [this, h1]
  have h3 := h2 (p0 :: ps)
  rw [List.foldl_cons] at h3
  rw [h3]
  unfold handlerFor
  split
  · rfl
  · congr 1
    clear h3 h2 h1 this
    have : ∀ (ps : List (Nat × Line)) h, (p0 :: ps).foldl (fun h _ => checked c.msg.kind h) h = checked c.msg.kind h := by
      intro ps
      induction ps with
      | nil => intro h; rfl
      | cons p ps ih =>
        intro h
        have := ih (checked c.msg.kind h)
        simp only [List.foldl_cons, checked_checked] at this ⊢
        exact this
    exact this ps _

end HL.Props
