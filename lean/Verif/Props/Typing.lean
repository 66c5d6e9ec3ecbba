import Verif.Props.FinishValues
import Verif.Props.SectionThm

/-!
# What the recorded values look like

Each recorded value of a field of a known list or singleton class was made by the `parse` of the class (or is `None`, or a
list of such values).
-/

namespace HL.Props

/-- made by the `parse` of `f` -/
def ParsedBy (env : Env) (f : FieldId) (v : Val) : Prop :=
  ∃ (c : Ctx) (add : AddNote) (h : Handler) (s : Str), c.env = env ∧ h.fid = f ∧ (h.parse c add s).2.res = .ok v

/-- the `parse` of `f` can refuse a value (with `ValueError`) -/
def CanRefuse (env : Env) (f : FieldId) : Prop :=
  ∃ (c : Ctx) (add : AddNote) (h : Handler) (s : Str) (e : Exn), c.env = env ∧ h.fid = f ∧ (h.parse c add s).2.res = .error e ∧ e.isValueError = true

/-- the value of a list field that has not been evaluated yet -/
def ListOf (env : Env) (f : FieldId) (v : Val) : Prop := ∃ vs, v = .list vs ∧ ∀ x ∈ vs, ParsedBy env f x

/-- the value of a field -/
def Typed (env : Env) (f : FieldId) (v : Val) : Prop :=
  match f.info.kind with
  | .list => ListOf env f v
  | .singleton => (v = .none ∧ CanRefuse env f) ∨ ParsedBy env f v
  | .broken => ListOf env f v
  | .unknown => v = .list []
  | _ => True

theorem listLoop_typed {env : Env} (c : Ctx) (hc : c.env = env) (add : AddNote) (vs : List Str) :
    ∀ h : Handler, ListOf env h.fid h.value → ListOf env h.fid (h.listLoop c add vs).1.value ∧ (h.listLoop c add vs).1.fid = h.fid := by
  induction vs with
  | nil => intro h hl; exact ⟨hl, rfl⟩
  | cons v vs ih =>
    intro h hl
    unfold Handler.listLoop
    dsimp only
    split
    · exact ⟨hl, rfl⟩
    · split
      · split
        · exact ih { h with aux := (h.parse c add (strip v)).1 } hl
        · exact ⟨hl, rfl⟩
      · rename_i x hx
        split
        · exact ⟨hl, rfl⟩
        · rename_i h' ha
          obtain ⟨xs, e, hxs⟩ := hl
          unfold Handler.append at ha
          dsimp only at ha
          rw [e] at ha
          cases ha
          refine ih { h with aux := (h.parse c add (strip v)).1, value := .list (xs ++ [x]) } ⟨_, rfl, ?_⟩
          intro y hy
          rcases List.mem_append.1 hy with hy | hy
          · exact hxs y hy
          · rw [List.mem_singleton.1 hy]
            exact ⟨c, add, h, _, hc, rfl, hx⟩

theorem brokenLoop_typed {env : Env} (c : Ctx) (hc : c.env = env) (rs : List (Str × Nat)) :
    ∀ (h : Handler) (acc vs : List Val), (∀ x ∈ acc, ParsedBy env h.fid x) → (h.brokenLoop c rs acc).2.res = .ok vs → ∀ x ∈ vs, ParsedBy env h.fid x := by
  induction rs with
  | nil => intro h acc vs ha hr; cases hr; exact ha
  | cons r rs ih =>
    obtain ⟨raw, o⟩ := r
    intro h acc vs ha hr
    unfold Handler.brokenLoop at hr
    dsimp only at hr
    split at hr
    · rename_i v hv
      refine ih { h with aux := (h.parse c (h.offsetAdd c.msg.defaults o) (strip raw)).1 } (acc ++ [v]) vs ?_ hr
      intro x hx
      rcases List.mem_append.1 hx with hx | hx
      · exact ha x hx
      · rw [List.mem_singleton.1 hx]; exact ⟨c, _, h, _, hc, rfl, hv⟩
    · split at hr
      · exact ih { h with aux := (h.parse c (h.offsetAdd c.msg.defaults o) (strip raw)).1 } acc vs ha hr
      · exact nomatch hr

theorem vary_parsed {env : Env} {x : Val} (h : ParsedBy env .vary_ x) : ∃ s, x = .str s := by
  obtain ⟨c, add, h, s, _, hf, hr⟩ := h
  unfold Handler.parse at hr
  rw [hf] at hr
  cases hr
  exact ⟨_, rfl⟩

/-- evaluating keeps a list a list -/
theorem evaluate_typed {env : Env} (c add) (h : Handler) (hk : h.fid ≠ .accept_query_) (hl : ListOf env h.fid h.value) :
    ListOf env h.fid (h.evaluate c add).1.value := by
  by_cases hv : h.fid = .vary_
  · unfold Handler.evaluate
    rw [hv] at hl ⊢
    dsimp only
    unfold Handler.assign
    split
    · rename_i v hr
      obtain ⟨xs, e, hx⟩ := hl
      have hs := evaluate_value c add h (by unfold Handler.evaluate; rw [hv]; dsimp only; unfold Handler.assign; rw [hr])
      have hs' : v = evaluated h.fid h.value := by
        rw [← hs]
        unfold Handler.evaluate; rw [hv]; dsimp only; unfold Handler.assign; rw [hr]
      refine ⟨(dedup (xs.map Val.asStr)).map .str, ?_, ?_⟩
      · show v = _
        rw [hs', hv, e]; rfl
      · intro x hx'
        obtain ⟨s, hs, rfl⟩ := List.mem_map.1 hx'
        rw [mem_dedup] at hs
        obtain ⟨y, hy, rfl⟩ := List.mem_map.1 hs
        obtain ⟨t, rfl⟩ := vary_parsed (hx y hy)
        exact hx _ hy
    · exact hl
  · rw [evaluate_keeps c add h hv hk]; exact hl

theorem evalAfter_typed {env : Env} (c add ns) (h : Handler) (hk : h.fid ≠ .accept_query_) (hl : ListOf env h.fid h.value) :
    ListOf env h.fid (h.evalAfter c add ns).1.value := by
  unfold Handler.evalAfter
  split
  · exact hl
  · exact evaluate_typed c add h hk hl

theorem evalAfter_single (c add ns) (h : Handler) (hk : h.fid.info.kind = .singleton) : (h.evalAfter c add ns).1.value = h.value := by
  unfold Handler.evalAfter
  split
  · rfl
  · exact evaluate_keeps c add h (by intro e; rw [e] at hk; exact nomatch hk) (by intro e; rw [e] at hk; exact nomatch hk)

theorem evaluate_raw (c add) (h : Handler) : (h.evaluate c add).1.raw = h.raw := by
  unfold Handler.evaluate
  split <;> first | rfl | (unfold Handler.assign; split <;> rfl) | (unfold Handler.appendVals; split <;> rfl)

theorem evalAfter_raw (c add ns) (h : Handler) : (h.evalAfter c add ns).1.raw = h.raw := by
  unfold Handler.evalAfter
  split
  · rfl
  · exact evaluate_raw c add h

theorem finishSingleton_raw (c add) (h : Handler) : (h.finishSingleton c add).1.raw = h.raw := by
  unfold Handler.finishSingleton
  split
  · rfl
  · dsimp only
    split
    · exact evalAfter_raw ..
    · split <;> rfl

theorem kind_unknown {f : FieldId} (h : f.info.kind = .unknown) : f = .unknownField := by
  revert h; cases f <;> intro h <;> first | rfl | exact nomatch h

theorem kind_query {f : FieldId} (h : f.info.kind = .list ∨ f.info.kind = .broken) : f ≠ .accept_query_ := by
  rintro rfl; rcases h with h | h <;> exact nomatch h

theorem finish_typed {env : Env} (c : Ctx) (hc : c.env = env) (add) (h : Handler)
    (hl : h.fid.info.kind = .list → ListOf env h.fid h.value) (hu : h.fid.info.kind = .unknown → h.value = .list [])
    (hs : h.fid.info.kind = .singleton → h.raw ≠ []) (hr : (h.finish c add).2.res = .ok ()) : Typed env h.fid (h.finish c add).1.value := by
  unfold Handler.finish at hr ⊢
  unfold Typed
  split at hr
  · rename_i hk
    rw [hk]
    dsimp only
    unfold Handler.finishSingleton at hr ⊢
    split at hr
    · rename_i hraw; exact absurd hraw (hs hk)
    · rename_i first o more hraw
      dsimp only at hr ⊢
      split at hr
      · rename_i v hv
        have he := fun ns => evalAfter_single c add ns { h with aux := (h.parse c add (strip first)).1, value := v } hk
        refine .inr ?_
        rw [he]
        exact ⟨c, add, h, _, hc, rfl, hv⟩
      · rename_i e he
        split at hr
        · rename_i hv; rw [if_pos hv]; exact .inl ⟨rfl, c, add, h, _, e, hc, rfl, he, hv⟩
        · exact nomatch hr
  · rename_i hk
    rw [hk]
    dsimp only
    unfold Handler.finishBroken at hr ⊢
    dsimp only at hr ⊢
    split at hr
    · exact nomatch hr
    · rename_i vs hv
      have hid := brokenLoop_id c h.raw h []
      have := evalAfter_typed (env := env) c add ((h.brokenLoop c h.raw []).2.notes) { (h.brokenLoop c h.raw []).1 with value := .list vs }
        (by rw [hid.fid]; exact kind_query (.inr hk)) ⟨vs, rfl, by rw [hid.fid]; exact brokenLoop_typed c hc h.raw h [] vs (by simp) hv⟩
      rw [hid.fid] at this
      exact this
  · rename_i t hk; rw [hk]; exact trivial
  · rename_i hk; rw [hk]; exact trivial
  · rename_i hk; rw [hk]; exact evalAfter_typed c add [] h (kind_query (.inl hk)) (hl hk)
  · rename_i hk
    rw [hk]
    dsimp only
    have hf := kind_unknown hk
    unfold Handler.evalAfter
    split
    · exact hu hk
    · rw [show (h.evaluate c add).1.value = h.value from evaluate_keeps c add h (by rw [hf]; decide) (by rw [hf]; decide)]
      exact hu hk

/-- recorded values are typed -/
def typeInv (env : Env) (kind : MsgKind) : Inv env where
  K k := k = kind
  I k h := (∃ name, lower name = k ∧ SameId h (mkHandler (classOf name) name)) ∧
    (h.fid.validIn kind = true → (h.fid.info.kind = .list → ListOf env h.fid h.value) ∧ (h.fid.info.kind = .unknown → h.value = .list []))
  J _ h := h.fid.validIn kind = true → h.fid.info.kind = .singleton → h.raw ≠ []
  V k n v := (∃ name, lower name = k ∧ n = lower (strip name)) ∧ ((classOf k).validIn kind = true → Typed env (classOf k) v)
  new name := ⟨⟨name, rfl, .refl _⟩, fun _ => ⟨fun _ => ⟨[], mkHandler_value _ _, by simp⟩, fun _ => mkHandler_value _ _⟩⟩
  pre k h kind' add hK hI := by
    subst hK
    refine ⟨let ⟨n, e, s⟩ := hI.1; ⟨n, e, (preCheck_id ..).trans s⟩, ?_⟩
    rw [(preCheck_id ..).fid]
    intro hv
    rw [preCheck_handler]
    unfold checked
    rw [if_pos hv]
    exact hI.2 hv
  refused k h kind' add hK hI hr := by
    subst hK
    rw [(preCheck_id ..).fid]
    intro hv hk
    obtain ⟨⟨n, e, s⟩, _⟩ := hI
    rw [(preCheck_shape h kind' add).1, hv, Bool.true_and, s.wire, mkHandler_wire] at hr
    rw [s.fid, mkHandler_fid, classOf_notToken hr] at hk
    exact nomatch hk
  inp k h kind' add c v o hK he hI _ hok := by
    subst hK
    refine ⟨?_, fun _ hk => ?_⟩
    rotate_left
    · rw [(handleInput_id c ((h.preCheck kind' add).1) v o).fid] at hk
      unfold Handler.handleInput
      rw [hk]
      simp
    have hid := (handleInput_id c ((h.preCheck kind' add).1) v o).trans (preCheck_id h kind' add)
    refine ⟨let ⟨n, e, s⟩ := hI.1; ⟨n, e, hid.trans s⟩, ?_⟩
    rw [hid.fid]
    intro hv
    have hp : (h.preCheck kind' add).1 = h := by rw [preCheck_handler]; unfold checked; rw [if_pos hv]
    rw [hp]
    refine ⟨fun hk => ?_, fun hk => ?_⟩
    · unfold Handler.handleInput
      rw [hk]
      exact (listLoop_typed c he _ _ h ((hI.2 hv).1 hk)).1
    · unfold Handler.handleInput
      rw [hk]
      exact (hI.2 hv).2 hk
  fin k h c add he hI hJ := by
    have hid := finish_id c add h
    refine ⟨⟨⟨let ⟨n, e, s⟩ := hI.1; ⟨n, e, hid.trans s⟩, ?_⟩, ?_⟩, fun hr => ⟨?_, ?_⟩⟩
    rotate_left
    · rw [hid.fid]
      intro hv hk
      rw [show (h.finish c add).1.raw = h.raw from ?_]
      · exact hJ hv hk
      · unfold Handler.finish
        rw [hk]
        exact finishSingleton_raw c add h
    rotate_right
    · rw [hid.fid]
      intro hv
      refine ⟨fun hk => ?_, fun hk => ?_⟩
      · unfold Handler.finish
        rw [hk]
        exact evalAfter_typed c add [] h (kind_query (.inl hk)) ((hI.2 hv).1 hk)
      · have hf := kind_unknown hk
        unfold Handler.finish
        rw [hk]
        dsimp only
        unfold Handler.evalAfter
        split
        · exact (hI.2 hv).2 hk
        · rw [show (h.evaluate c add).1.value = h.value from evaluate_keeps c add h (by rw [hf]; decide) (by rw [hf]; decide)]
          exact (hI.2 hv).2 hk
    · obtain ⟨n, e, s⟩ := hI.1
      exact ⟨n, e, by rw [hid.norm, s.norm, mkHandler_norm]⟩
    · intro hv
      obtain ⟨n, e, s⟩ := hI.1
      have hf : h.fid = classOf k := by
        rw [s.fid, mkHandler_fid]
        exact classOf_lower (by rw [← e, lower_lower])
      rw [← hf] at hv ⊢
      exact finish_typed c he add h (hI.2 hv).1 (hI.2 hv).2 (hJ hv) hr

/-- field names were sent without white space around them -/
def TidyNames (s : Section) : Prop := ∀ p ∈ s.text, strip p.1 = p.1

/-- the recorded values of a linter are those of their fields' classes -/
theorem recorded_typed {env : Env} {m : Msg} (hr : Reachable env m) (t : Bool) (hs : TidyNames (m.section t)) {n : Str} {v : Val}
    (hd : dget (m.section t).parsed n = some v) (hv : (classOf n).validIn m.kind = true) : Typed env (classOf n) v := by
  obtain ⟨q, hq, ⟨name, e, en⟩, ht⟩ := ((typeInv env m.kind).reachable hr rfl t).ps (n, v) (dget_mem hd)
  dsimp only at en ht
  have hn : lower q.1 = n := by
    rw [en, ← strip_lower, e, strip_lower, hs q hq]
  rw [hn] at ht
  exact ht hv

/-- each recorded header value is one that its class makes -/
def TypedHeaders (env : Env) (m : Msg) : Prop :=
  ∀ n v, dget m.headers.parsed n = some v → (classOf n).validIn m.kind = true → Typed env (classOf n) v

theorem typed_headers {env : Env} {m : Msg} (hr : Reachable env m) (hs : TidyNames m.headers) : TypedHeaders env m :=
  fun _ _ hd hv => recorded_typed hr false hs hd hv

end HL.Props
