import Verif.Props.EvalTotal

/-!
# C07: processing a section returns
-/

namespace HL.Props

/-- a handler that has been fed and not finished -/
structure Stock (env : Env) (kind : MsgKind) (h : Handler) : Prop where
  ident : ∃ name, SameId h (mkHandler (classOf name) name)
  calm : ¬Perilous h.fid
  unparsed : ∀ t, h.fid.info.kind = .sf t → h.sfParsed = false
  list : h.fid.validIn kind = true → h.fid.info.kind = .list → ListOf env h.fid h.value
  sf : h.fid.validIn kind = true → ∀ t, h.fid.info.kind = .sf t → ∃ ss : List Str, h.value = .list (ss.map .str)
  wrong : h.fid.validIn kind = false → h.raw = []

/-- and has been checked -/
structure Stocked (env : Env) (kind : MsgKind) (h : Handler) : Prop extends Stock env kind h where
  none : h.fid.validIn kind = false → h.value = .none
  full : h.fid.validIn kind = true → ∀ t, h.fid.info.kind = .sf t → h.value ≠ .list []

section
variable {env : Env} {kind : MsgKind}

theorem Stock.checked {h : Handler} (hs : Stock env kind h) : Stock env kind (checked kind h) ∧ (h.fid.validIn kind = false → (HL.Props.checked kind h).value = .none) := by
  unfold HL.Props.checked
  split
  · rename_i hv
    exact ⟨hs, fun h => by rw [hv] at h; cases h⟩
  · rename_i hv
    exact ⟨⟨let ⟨n, e⟩ := hs.ident; ⟨n, ⟨e.fid, e.wire, e.norm, e.canon, e.cat, e.ref⟩⟩, hs.calm, hs.unparsed, fun h => absurd h hv, fun h => absurd h hv, hs.wrong⟩, fun _ => rfl⟩

/-- a line that is not kept leaves the handler stocked -/
theorem Stock.refused {h : Handler} (hs : Stock env kind h) (add : AddNote) (hr : (h.preCheck kind add).2.1 = false) : Stocked env kind (h.preCheck kind add).1 := by
  have hf := (preCheck_id h kind add).fid
  rw [preCheck_handler] at hf ⊢
  refine ⟨hs.checked.1, fun hv => hs.checked.2 (by rw [← hf]; exact hv), fun hv t hk => ?_⟩
  exfalso
  rw [hf] at hv hk
  obtain ⟨n, s⟩ := hs.ident
  rw [(preCheck_shape h kind add).1, hv, Bool.true_and, s.wire, mkHandler_wire] at hr
  rw [s.fid, mkHandler_fid, classOf_notToken hr] at hk
  exact nomatch hk

theorem Stock.new {name : Str} (hp : ¬Perilous (classOf name)) : Stock env kind (mkHandler (classOf name) name) := by
  refine ⟨⟨name, .refl _⟩, by rw [mkHandler_fid]; exact hp, fun _ _ => mkHandler_sf _ _, fun _ _ => ⟨[], mkHandler_value _ _, by simp⟩, fun _ _ _ => ⟨[], mkHandler_value _ _⟩, fun _ => mkHandler_raw _ _⟩

/-- the loop over the elements of a line -/
theorem listLoop_returns {c : Ctx} (hl : Library c.env) (hrel : ∀ r, c.related = some r → TypedHeaders c.env r) (add : AddNote) :
    ∀ (vs : List Str) (h : Handler), ListOf c.env h.fid h.value → Returns (h.listLoop c add vs).2
  | [], _, _ => .pure _
  | v :: vs, h, hv => by
    unfold Handler.listLoop
    dsimp only
    rw [elementSyntax_res]
    dsimp only
    cases hr : (h.parse c add (strip v)).2.res with
    | error e =>
      dsimp only
      rw [if_pos (parse_tame hl hrel add h _ e hr)]
      obtain ⟨a, ha⟩ := listLoop_returns hl hrel add vs { h with aux := (h.parse c add (strip v)).1 } hv
      exact ⟨a, ha⟩
    | ok x =>
      dsimp only
      obtain ⟨xs, e, hxs⟩ := hv
      unfold Handler.append
      dsimp only
      rw [e]
      dsimp only
      obtain ⟨a, ha⟩ := listLoop_returns hl hrel add vs { h with aux := (h.parse c add (strip v)).1, value := .list (xs ++ [x]) } ⟨_, rfl, by
        intro y hy
        rcases List.mem_append.1 hy with hy | hy
        · exact hxs y hy
        · rw [List.mem_singleton.1 hy]; exact ⟨c, add, h, _, rfl, rfl, hr⟩⟩
      exact ⟨a, ha⟩

theorem input_returns {c : Ctx} (hl : Library c.env) (hrel : ∀ r, c.related = some r → TypedHeaders c.env r) {h : Handler} (v : Str) (o : Nat)
    (hs : Stock c.env kind h) (hv : h.fid.validIn kind = true) :
    Returns (h.handleInput c v o).2 ∧ Stocked c.env kind (h.handleInput c v o).1 := by
  have hid := handleInput_id c h v o
  have hident : ∃ name, SameId (h.handleInput c v o).1 (mkHandler (classOf name) name) := let ⟨n, e⟩ := hs.ident; ⟨n, hid.trans e⟩
  have mk : Returns (h.handleInput c v o).2 → (∀ t, h.fid.info.kind = .sf t → (h.handleInput c v o).1.sfParsed = false ∧ ∃ s, ∃ ss : List Str, (h.handleInput c v o).1.value = .list ((s :: ss).map .str)) →
      (h.fid.info.kind = .list → ListOf c.env h.fid (h.handleInput c v o).1.value) → 
      Returns (h.handleInput c v o).2 ∧ Stocked c.env kind (h.handleInput c v o).1 := by
    intro h1 h2 h3
    refine ⟨h1, ⟨⟨hident, by rw [hid.fid]; exact hs.calm, fun t ht => (h2 t (by rw [← hid.fid]; exact ht)).1, fun _ hk => by rw [hid.fid] at hk ⊢; exact h3 hk, fun _ t ht => ?_, fun hf => ?_⟩, fun hf => ?_, fun _ t ht => ?_⟩⟩
    · obtain ⟨_, s, ss, e⟩ := h2 t (by rw [← hid.fid]; exact ht)
      exact ⟨s :: ss, e⟩
    · rw [hid.fid, hv] at hf; cases hf
    · rw [hid.fid, hv] at hf; cases hf
    · obtain ⟨_, s, ss, e⟩ := h2 t (by rw [← hid.fid]; exact ht)
      rw [e]; intro h; cases h
  apply mk
  · unfold Handler.handleInput
    cases hk : h.fid.info.kind with
    | list => exact listLoop_returns hl hrel _ _ h (hs.list hv hk)
    | singleton => exact .pure _
    | broken => exact .pure _
    | sf t =>
      obtain ⟨ss, e⟩ := hs.sf hv t hk
      dsimp only
      unfold Handler.append
      rw [e]
      exact .pure _
    | json =>
      exfalso
      have : h.fid = .nel_ ∨ h.fid = .report_to_ := by
        revert hk; generalize h.fid = f; cases f <;> intro hk <;> first | exact .inl rfl | exact .inr rfl | exact nomatch hk
      apply hs.calm
      unfold Perilous
      rcases this with h | h <;> simp [h]
    | unknown => exact .pure _
  · intro t hk
    obtain ⟨ss, e⟩ := hs.sf hv t hk
    unfold Handler.handleInput
    rw [hk]
    dsimp only
    unfold Handler.append
    rw [e]
    refine ⟨rfl, ?_⟩
    cases ss with
    | nil => exact ⟨v, [], rfl⟩
    | cons s ss => exact ⟨s, ss ++ [v], by simp⟩
  · intro hk
    unfold Handler.handleInput
    rw [hk]
    exact (listLoop_typed c rfl (h.offsetAdd c.msg.defaults o) (splitListField v) h (hs.list hv hk)).1

theorem brokenLoop_returns {c : Ctx} (hl : Library c.env) (hrel : ∀ r, c.related = some r → TypedHeaders c.env r) :
    ∀ (rs : List (Str × Nat)) (h : Handler) (acc : List Val), Returns (h.brokenLoop c rs acc).2
  | [], _, _ => .pure _
  | (raw, o) :: rs, h, acc => by
    unfold Handler.brokenLoop
    dsimp only
    cases hr : (h.parse c (h.offsetAdd c.msg.defaults o) (strip raw)).2.res with
    | error e =>
      dsimp only
      rw [if_pos (parse_tame hl hrel _ h _ e hr)]
      obtain ⟨a, ha⟩ := brokenLoop_returns hl hrel rs { h with aux := (h.parse c (h.offsetAdd c.msg.defaults o) (strip raw)).1 } acc
      exact ⟨a, ha⟩
    | ok x =>
      dsimp only
      obtain ⟨a, ha⟩ := brokenLoop_returns hl hrel rs { h with aux := (h.parse c (h.offsetAdd c.msg.defaults o) (strip raw)).1 } (acc ++ [x])
      exact ⟨a, ha⟩

theorem joinValue_strs (ss : List Str) : ∃ s, joinValue (.list (ss.map .str)) = .ok s := by
  unfold joinValue
  dsimp only [Val.iter]
  rw [if_pos (by rw [List.all_eq_true]; intro x hx; obtain ⟨s, _, rfl⟩ := List.mem_map.1 hx; rfl)]
  exact ⟨_, rfl⟩

/-- finishing a field returns -/
theorem finish_returns {c : Ctx} (hC : Contract c.env) (hm : TypedHeaders c.env c.msg)
    (hrel : ∀ r, c.related = some r → TypedHeaders c.env r ∧ (c.msg.kind = .response → r.kind = .request))
    (add : AddNote) {h : Handler} (hs : Stocked c.env c.msg.kind h) : Returns (h.finish c add).2 := by
  have hT := fun r h => (hrel r h).1
  have he : ∀ (ns : List Note) (h' : Handler), h'.fid = h.fid → (h'.value ≠ .none → h.fid.validIn c.msg.kind = true ∨ h.fid.info.kind = .broken) →
      (h'.value ≠ .none → Readied c.env h.fid h'.value) → Returns (h'.evalAfter c add ns).2 := by
    intro ns h' e hv hr
    unfold Handler.evalAfter
    split
    · exact ⟨_, rfl⟩
    · rename_i hn
      obtain ⟨a, ha⟩ := evaluate_returns hC hm hrel add h' (by rw [e]; exact hv hn) (by rw [e]; exact hs.calm) (by rw [e]; exact hr hn)
      exact ⟨a, ha⟩
  unfold Handler.finish
  cases hk : h.fid.info.kind with
  | singleton =>
    dsimp only
    unfold Handler.finishSingleton
    split
    · exact .pure _
    · rename_i first o more hraw
      have hv : h.fid.validIn c.msg.kind = true := by
        cases hv : h.fid.validIn c.msg.kind with
        | true => rfl
        | false => rw [hs.wrong hv] at hraw; cases hraw
      dsimp only
      cases hr : (h.parse c add (strip first)).2.res with
      | error e =>
        dsimp only
        rw [if_pos (parse_tame hC.library hT add h _ e hr)]
        exact ⟨_, rfl⟩
      | ok v =>
        dsimp only
        refine he _ _ rfl (fun _ => .inl hv) fun _ => ?_
        unfold Readied
        rw [hk]
        exact ⟨c, add, h, _, rfl, rfl, hr⟩
  | broken =>
    dsimp only
    unfold Handler.finishBroken
    dsimp only
    obtain ⟨vs, hvs⟩ := brokenLoop_returns hC.library hT h.raw h []
    rw [hvs]
    dsimp only
    refine he _ _ (brokenLoop_id c h.raw h []).fid (fun _ => .inr hk) fun _ => ?_
    unfold Readied
    rw [hk]
    exact ⟨vs, rfl, brokenLoop_typed c rfl h.raw h [] vs (by simp) hvs⟩
  | sf t =>
    dsimp only
    unfold Handler.finishSf
    split
    · exact .pure _
    · split
      · exact .pure _
      · rename_i hne _
        have hv : h.fid.validIn c.msg.kind = true := by
          cases hv : h.fid.validIn c.msg.kind with
          | true => rfl
          | false => rw [hs.none hv] at hne; exact absurd rfl hne
        obtain ⟨ss, e⟩ := hs.sf hv t hk
        obtain ⟨j, hj⟩ := joinValue_strs ss
        rw [e, hj]
        dsimp only
        split
        · rename_i v dups hp
          refine he _ _ rfl (fun _ => .inl hv) fun _ => ?_
          unfold Readied
          rw [hk]
          exact hC.sfParse _ _ _ _ hp
        · exact ⟨_, rfl⟩
        · exact ⟨_, rfl⟩
  | json =>
    exfalso
    have : h.fid = .nel_ ∨ h.fid = .report_to_ := by
      revert hk; generalize h.fid = f; cases f <;> intro hk <;> first | exact .inl rfl | exact .inr rfl | exact nomatch hk
    apply hs.calm
    unfold Perilous
    rcases this with h | h <;> simp [h]
  | list =>
    dsimp only
    have hv : h.value ≠ .none → h.fid.validIn c.msg.kind = true := by
      intro hn
      cases hv : h.fid.validIn c.msg.kind with
      | true => rfl
      | false => exact absurd (hs.none hv) hn
    refine he _ _ rfl (fun hn => .inl (hv hn)) fun hn => ?_
    unfold Readied
    rw [hk]
    exact hs.list (hv hn) hk
  | unknown =>
    dsimp only
    have hv : h.value ≠ .none → h.fid.validIn c.msg.kind = true := by
      intro hn
      cases hv : h.fid.validIn c.msg.kind with
      | true => rfl
      | false => exact absurd (hs.none hv) hn
    refine he _ _ rfl (fun hn => .inl (hv hn)) fun hn => ?_
    unfold Readied
    rw [hk]
    exact trivial

/-! ### lines -/

/-- field names without white space around them, and none of a perilous field -/
def CalmLines (ls : List (Str × Str)) : Prop := ∀ l ∈ ls, strip (decodeName l.1) = decodeName l.1 ∧ ¬Perilous (classOf (decodeName l.1))

/-- every handler is stocked -/
def AllStocked (env : Env) (t : Bool) (m : Msg) : Prop := ∀ p ∈ (m.section t).handlers, Stocked env m.kind p.2

theorem lines_return (env : Env) (related : Option Msg) (t : Bool) (hC : Library env) (hrel : ∀ r, related = some r → TypedHeaders env r) :
    ∀ (ls : List (Str × Str)) (o : Nat) (m : Msg), CalmLines ls → AllStocked env t m →
      ∃ m', processLines env related t ls o m = (m', .ok ()) ∧ AllStocked env t m' ∧
        (m'.section t).text = (m.section t).text ++ ls.map fun l => (decodeName l.1, l.2)
  | [], _, m, _, hs => ⟨m, rfl, hs, by simp⟩
  | (name, value) :: ls, o, m, hl, hs => by
    have h0 : Stock env m.kind (lineHandler t m name) := by
      unfold lineHandler findHandler
      split
      · rename_i h hd
        exact (hs _ (dget_mem hd)).toStock
      · exact .new (hl _ List.mem_cons_self).2
    have hck : (lineCheck t m o name).1 = checked m.kind (lineHandler t m name) := preCheck_handler ..
    have h1 : Stock env m.kind (lineCheck t m o name).1 := by rw [hck]; exact h0.checked.1
    have mk : ∀ hd ns, Stocked env m.kind hd → AllStocked env t ((m.setSection t (recorded (m.section t) name value hd)).addNotes ns) := by
      intro hd ns hst p hp
      rw [section_addNotes, section_setSection] at hp
      show Stocked env (m.setSection t _).kind _
      rw [setSection_kind]
      rcases mem_dset hp with rfl | hp
      · exact hst
      · exact hs p hp
    have tx : ∀ hd ns, (((m.setSection t (recorded (m.section t) name value hd)).addNotes ns).section t).text = (m.section t).text ++ [(decodeName name, value)] := by
      intro hd ns; rw [section_addNotes, section_setSection]; rfl
    unfold processLines
    rw [processLine_eq]
    by_cases hok : (lineCheck t m o name).2.1 = false
    · rw [if_pos hok]
      dsimp only
      obtain ⟨m', e, h2, h3⟩ := lines_return env related t hC hrel ls o (lineMid t m o name value) (fun l h => hl l (List.mem_cons_of_mem _ h)) (mk _ _ (h0.refused _ hok))
      exact ⟨m', e, h2, by rw [h3, show ((lineMid t m o name value).section t).text = _ from tx _ _]; simp⟩
    · rw [if_neg hok]
      have hv : (lineHandler t m name).fid.validIn m.kind = true := by
        have := (preCheck_shape (lineHandler t m name) m.kind (m.adder (offsetSubject o) [(str "field_name", .str (lineHandler t m name).canonicalName)])).1
        have hok' : (lineCheck t m o name).2.1 = true := eq_true_of_ne_false hok
        rw [show (lineCheck t m o name).2.1 = _ from this] at hok'
        exact (Bool.and_eq_true_iff.1 hok').1
      have hfid : (lineCheck t m o name).1.fid = (lineHandler t m name).fid := (preCheck_id ..).fid
      have hin := input_returns (c := ⟨env, lineMid t m o name value, related⟩) hC hrel (kind := m.kind) value o h1 (by rw [hfid]; exact hv)
      have hin' : Returns (lineInput env related t m o name value).2 ∧ Stocked env m.kind (lineInput env related t m o name value).1 := hin
      obtain ⟨⟨u, hu⟩, hst⟩ := hin'
      have hid : (lineInput env related t m o name value).1.fid = (lineHandler t m name).fid := by rw [← hfid]; exact (handleInput_id ..).fid
      dsimp only
      rw [hu]
      dsimp only
      rw [addNotes_addNotes]
      obtain ⟨m', e, h2, h3⟩ := lines_return env related t hC hrel ls (o + 1) _ (fun l h => hl l (List.mem_cons_of_mem _ h))
        (mk _ _ hst)
      exact ⟨m', e, h2, by rw [h3, tx]; simp⟩

end

end HL.Props
