import Verif.Props.FinishTotal

/-!
# C07: the checks made when a message is finished return
-/

namespace HL.Props

open HL.CacheIn

section
variable {env : Env}

/-- there is no `Age` that could not be understood, or one of the two times is not known -/
def AgeFine (m : Msg) (related : Option Msg) : Prop :=
  dget m.headers.parsed (str "age") ≠ some .none ∨ Facts.known (related.bind (·.startTime)) = none ∨ Facts.known m.startTime = none

theorem explicit_returns (i : CacheIn) (l age) : Returns (i.explicitNotes l age) := by
  unfold explicitNotes note
  tame

theorem freshness_returns (i : CacheIn) (l age) : Returns (i.freshnessNotes l age) := by
  unfold freshnessNotes
  tame
  all_goals first | exact explicit_returns .. | (unfold note; tame)

theorem stale_returns (i : CacheIn) (l age) : Returns (i.checkStale l age) := by
  unfold checkStale note
  tame

/-- the caching checks return -/
theorem cache_returns {c : Ctx} (hT : TypedHeaders c.env c.msg) (hk : c.msg.kind = .response) (ha : AgeFine c.msg c.related) :
    Returns (cacheCheck c).2.1 := by
  obtain ⟨f, hf⟩ := facts_exist (related := c.related) hT hk
  unfold cacheCheck
  cases hi : cacheInputs c with
  | error e =>
    exfalso
    unfold cacheInputs at hi
    dsimp only at hi
    have : (c.msg.headers.getD (str "cache-control") (.list [])).toDict = .ok (dupdate [] f.directives) := by
      unfold Section.getD
      rcases hf.directives with ⟨h, e⟩ | h
      · rw [h, e]; rfl
      · rw [h]; exact toDict_pairs _
    rw [this] at hi
    exact nomatch hi
  | ok i =>
    dsimp only
    have hm : Matches i f := matches_of (env := c.env) (m := c.msg) (related := c.related) hf hi
    have hag : i.age = c.msg.headers.getD (str "age") (.int 0) := by obtain ⟨_, _, rfl⟩ := cacheInputs_ok hi; rfl
    have hcorr : ∃ b, i.correctedAge = .ok b := by
      unfold CacheIn.correctedAge
      rw [hm.reqTime, hm.respTime, truthyTime_eq, hf.requestTime, hf.responseTime]
      rcases ha with ha | ha | ha
      · rcases hm.age with e | ⟨e, e'⟩
        · rw [e]
          split
          · exact ⟨_, rfl⟩
          · exact ⟨_, rfl⟩
        · exfalso
          rw [hag] at e
          unfold Section.getD at e
          cases hd : dget c.msg.headers.parsed (str "age") with
          | none => rw [hd] at e; cases e
          | some v => rw [hd] at e ha; exact ha (congrArg some e)
      · rw [ha]
        dsimp only
        rcases hm.age with e | ⟨e, e'⟩ <;> rw [e] <;> exact ⟨_, rfl⟩
      · rw [ha]
        have : ∀ x : Option Rat, ∃ b, (match x, (none : Option Rat) with
            | some q, some p => do
              let a ← i.age.number
              return a + (p - q)
            | _, _ => if i.age = .none then .ok 0 else i.age.number : Except Exn Rat) = .ok b := by
          intro x
          cases x <;> dsimp only <;> rcases hm.age with e | ⟨e, e'⟩ <;> rw [e] <;> exact ⟨_, rfl⟩
        exact this _
    obtain ⟨b, hb⟩ := hcorr
    have h1 := has_value (f := f) (d := str "max-age") fun p hp h => hf.integers p hp (.inl h)
    have h2 := has_value (f := f) (d := str "s-maxage") fun p hp h => hf.integers p hp (.inr h)
    obtain ⟨l, hl, _⟩ := lifetimes_eq hm h1 h2
    obtain ⟨hs1, _⟩ := storable_spec hm
    have key : Returns i.run.2.1 := by
      unfold CacheIn.run CacheIn.checkBasic
      rw [hm.star]
      cases decide (str "*" ∈ f.vary) with
      | true => exact ⟨_, rfl⟩
      | false =>
        dsimp only
        have hbasic : ∀ w : W Unit, Returns w → (do w; return true : W Bool).res = .ok true := by
          rintro w ⟨u, hu⟩
          rw [W.bind_ok hu]; rfl
        rw [hbasic _ (by unfold note; tame)]
        dsimp only
        generalize hst : i.checkStorable {} = r at hs1
        obtain ⟨st, sw, rn⟩ := r
        dsimp only at hs1 ⊢
        rcases hs1 with e | e
        · rw [e]
          dsimp only
          have hage : (i.checkAge st).2.res = .ok true := by
            unfold CacheIn.checkAge
            rw [apparentAge_eq hm, hb]
            dsimp only
            exact hbasic _ (by unfold note; tame)
          generalize i.checkAge st = r at hage
          obtain ⟨st', aw⟩ := r
          dsimp only at hage ⊢
          rw [hage]
          dsimp only
          rw [hl]
          dsimp only
          obtain ⟨bb, hbb⟩ := freshness_returns i l st'.age
          rw [hbb]
          cases bb
          · exact ⟨_, rfl⟩
          · exact stale_returns ..
        · rw [e]; exact ⟨_, rfl⟩
    exact key

/-- the recorded names in `Vary` -/
theorem vary_list {m : Msg} (hT : TypedHeaders env m) (hk : m.kind = .response) :
    dget m.headers.parsed (str "vary") = none ∨ ∃ l, dget m.headers.parsed (str "vary") = some (.list l) := by
  cases hd : dget m.headers.parsed (str "vary") with
  | none => exact .inl rfl
  | some v =>
    have hc : classOf (str "vary") = .vary_ := by decide +kernel
    have ht := hT _ _ hd (by rw [hc, hk]; rfl)
    unfold Typed at ht
    rw [hc] at ht
    obtain ⟨vs, rfl, hvs⟩ := ht
    exact .inr ⟨vs, rfl⟩

/-- the recorded codings -/
theorem codings_recorded {m : Msg} (hT : TypedHeaders env m) :
    dget m.headers.parsed (str "content-encoding") = none ∨ ∃ l, dget m.headers.parsed (str "content-encoding") = some (.list l) := by
  cases hd : dget m.headers.parsed (str "content-encoding") with
  | none => exact .inl rfl
  | some v =>
    have hc : classOf (str "content-encoding") = .content_encoding_ := by decide +kernel
    have ht := hT _ _ hd (by rw [hc]; cases m.kind <;> rfl)
    unfold Typed at ht
    rw [hc] at ht
    obtain ⟨vs, rfl, hvs⟩ := ht
    exact .inr ⟨vs, rfl⟩

theorem status_returns {c : Ctx} (hT : TypedHeaders c.env c.msg) (hk : c.msg.kind = .response) : Returns (Status.check c) := by
  have hnote : ∀ s n v, Returns (Status.note c s n v) := fun _ _ _ => .add ..
  have hp : ∀ code w, Status.method c code = some w → Returns w := by
    intro code w hw
    unfold Status.method at hw
    split at hw
    all_goals first | (injection hw with hw; subst hw) | exact nomatch hw
    all_goals try first | exact hnote _ _ _ | exact .pure _
    · unfold Status.s100; tame; exact hnote ..
    · unfold Status.s101; tame; exact hnote ..
    · unfold Status.s201; tame <;> exact hnote ..
    · unfold Status.s206; tame <;> exact hnote ..
    · unfold Status.redirect; tame; exact hnote ..
    · unfold Status.redirect; tame; exact hnote ..
    · unfold Status.redirect; tame; exact hnote ..
    · unfold Status.s304; tame <;> exact hnote ..
    · unfold Status.redirect; tame; exact hnote ..
    · unfold Status.redirect; tame; exact hnote ..
    · unfold Status.s405
      dsimp only
      split
      · rename_i m allow hm ha
        refine .ite (fun _ => hnote ..) fun _ => ?_
        rcases allow_list hT hk with h | ⟨ns, h⟩ <;> rw [ha] at h <;> cases h
        exact .bind ⟨_, rfl⟩ fun _ _ => .ite (fun _ => hnote ..) fun _ => hnote ..
      · exact hnote ..
    · unfold Status.s406; tame <;> exact hnote ..
    · unfold Status.s412; tame <;> exact hnote ..
    · unfold Status.s416; tame <;> exact hnote ..
    · unfold Status.s417; tame <;> exact hnote ..
  unfold Status.check
  split
  · rename_i w hw
    obtain ⟨code, _, h⟩ := Option.bind_eq_some_iff.1 hw
    exact hp code w h
  · exact hnote ..

theorem contentType_returns {c : Ctx} (hT : TypedHeaders c.env c.msg) : Returns (verifyContentType c) := by
  unfold verifyContentType
  dsimp only
  refine .ite (fun _ => .pure _) fun _ => .ite (fun _ => .pure _) fun _ => ?_
  rcases content_type_pair hT with h | ⟨t, cs, ps, h, _⟩
  · rw [h]; exact .pure _
  · rw [h]
    dsimp only
    refine .bind ⟨_, rfl⟩ fun _ _ => .ite (fun _ => .pure _) fun _ => ?_
    split
    · exact .pure _
    · tame

theorem canonical_returns {n : Str} (hU : Usable env n) : ∃ x, canonical env n = .ok x := by
  unfold canonical
  split
  · exact ⟨_, rfl⟩
  · rename_i e he
    rcases hU.lookup _ he with h | h
    · rw [if_pos (by rw [h]; rfl)]; exact ⟨_, rfl⟩
    · rw [if_pos (by rw [h]; rfl)]; exact ⟨_, rfl⟩

theorem tryDecode_returns {n s : Str} (hU : ∀ e, env.decode n s = .error e → e.isLookup = true ∨ e = .unicodeError) : ∃ x, tryDecode env n s = .ok x := by
  unfold tryDecode
  split
  · exact ⟨_, rfl⟩
  · rename_i e he
    rcases hU _ he with h | h
    · rw [if_pos (by rw [h]; rfl)]; exact ⟨_, rfl⟩
    · rw [if_pos (by rw [h]; rfl)]; exact ⟨_, rfl⟩

theorem compatible_ok {a b s : Str} (ha : ∀ e, env.decode a s = .error e → e.isLookup = true ∨ e = .unicodeError)
    (hb : ∀ e, env.decode b s = .error e → e.isLookup = true ∨ e = .unicodeError) : ∃ x, encodingsCompatible env a b s = .ok x := by
  unfold encodingsCompatible
  obtain ⟨x, hx⟩ := tryDecode_returns ha
  obtain ⟨y, hy⟩ := tryDecode_returns hb
  rw [hx, hy]
  cases x <;> cases y <;> exact ⟨_, rfl⟩

theorem canonical_some {n c : Str} (h : canonical env n = .ok (some c)) : env.codecsLookup n = .ok c := by
  unfold canonical at h
  split at h
  · rename_i n' e; cases h; exact e
  · split at h <;> cases h

theorem charsetChecks_returns {c : Ctx} (hC : Contract c.env) (mt : Val) {cs : Str} (hU : Usable c.env cs) (imp : Bool) : Returns (charsetChecks c mt cs imp) := by
  unfold charsetChecks
  dsimp only
  refine .bind (.lift (canonical_returns hU)) fun x hx => ?_
  split
  · exact .pure _
  · rename_i dcl
    refine .ite (fun _ => .pure _) fun _ => .ite (fun _ => .pure _) fun _ => .bind (.lift (tryDecode_returns (hU.decode _))) fun y _ => ?_
    split
    · rename_i r hr
      have hD : Usable c.env r := by
        obtain ⟨r', h1, h2⟩ := Option.bind_eq_some_iff.1 hr
        split at h2
        · cases h2
        · cases h2; exact hC.detected _ _ h1
      refine .bind (.lift (canonical_returns hD)) fun z hz => .ite (fun _ => .add ..) fun _ => ?_
      split
      · exact .pure _
      · refine .ite (fun _ => .bind (.lift (compatible_ok (hU.canonical _ (canonical_some hx) _) (hD.canonical _ (canonical_some hz) _))) fun _ _ => ?_) fun _ => .pure _
        tame
    · dsimp only [bind, W.bind, pure, W.pure]
      refine .ite (fun _ => .add ..) fun _ => .pure _

theorem charset_returns {c : Ctx} (hC : Contract c.env) (hT : TypedHeaders c.env c.msg)
    (hch : ∀ t cs, ContentType c.msg t (some cs) → Usable c.env cs) : Returns (verifyCharset c) := by
  unfold verifyCharset
  dsimp only
  refine .ite (fun _ => .pure _) fun _ => .ite (fun _ => .pure _) fun _ => ?_
  rcases content_type_pair hT with h | ⟨t, cs, ps, h, hcs⟩
  · rw [h]; exact .pure _
  · have hU : ∀ x, cs = some x → Usable c.env x := fun x e => hch t x ⟨ps, h, by rw [hcs, e]⟩
    rw [h]
    dsimp only
    refine .bind ⟨_, rfl⟩ fun d hd => .bind ⟨_, rfl⟩ fun p hp => .ite (fun _ => .pure _) fun _ => ?_
    cases hp
    rw [if_neg (by simp [Val.isDict])]
    split
    · exact .pure _
    · rename_i charset imp he
      refine charsetChecks_returns hC _ ?_ _
      unfold effectiveCharset at he
      dsimp only at he
      split at he
      · cases he; exact hC.utf8
      · split at he
        · rename_i ht
          cases he
          rw [hcs] at ht ⊢
          cases cs with
          | none => simp [Val.truthy] at ht
          | some x => exact hU x rfl
        · cases he

end

end HL.Props
