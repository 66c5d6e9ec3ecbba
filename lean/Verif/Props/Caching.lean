import Verif.Props.CacheProof

/-!
# C33 - C40: the caching verdict
-/

namespace HL.Props

open HL.CacheIn

/-! ### the pieces of the checker, in terms of the facts -/

theorem truthyTime_eq : truthyTime = Facts.known := by
  funext t; cases t <;> rfl

theorem apparentAge_eq {i f} (hm : Matches i f) : i.apparentAge = .ok f.apparentAge := by
  unfold CacheIn.apparentAge Facts.apparentAge
  rw [hm.respTime, hm.date, truthyTime_eq]
  cases Facts.known f.responseTime with
  | none => rfl
  | some t =>
    cases f.date with
    | none => rfl
    | some d =>
      by_cases h : d = 0
      · subst h; rfl
      · dsimp only
        rw [if_pos (by simpa [intVal, Val.truthy] using h)]
        show Except.ok _ = _
        have : ((d : Rat) > 0) ↔ d > 0 := Rat.intCast_pos
        simp only [this]

theorem correctedAge_eq {i f b} (hm : Matches i f) (h : i.correctedAge = .ok b) :
    b = f.age.getD 0 + f.responseDelay := by
  unfold CacheIn.correctedAge at h
  unfold Facts.responseDelay
  rw [hm.reqTime, hm.respTime, truthyTime_eq] at h
  cases hq : Facts.known f.requestTime <;> cases hp : Facts.known f.responseTime <;> rw [hq, hp] at h <;> dsimp only at h ⊢
  case some.some =>
    rcases hm.age with e | ⟨e, e'⟩
    · rw [e] at h
      exact (Except.ok.inj h).symm
    · rw [e] at h; exact nomatch h
  all_goals
    rw [Rat.add_zero]
    rcases hm.age with e | ⟨e, e'⟩
    · rw [e] at h
      exact (Except.ok.inj h).symm
    · rw [e] at h; rw [e']; exact (Except.ok.inj h).symm

theorem has_value {f : Facts} {d : Str} (h : ∀ p ∈ f.directives, p.1 = d → ∃ n, p.2 = .int n) :
    f.Has d ↔ (f.value d).isSome := by
  have := value_eq f d h
  have h2 : f.Has d ↔ (dget (dupdate [] f.directives) d).isSome := by
    rw [dget_isSome, dhas_dupdate]
    simp only [dhas, List.any_nil, Bool.or_false, List.any_eq_true, beq_iff_eq, Facts.Has, Prod.exists]
    exact ⟨fun ⟨v, h⟩ => ⟨d, v, h, rfl⟩, fun ⟨a, b, h, e⟩ => ⟨b, e ▸ h⟩⟩
  rw [h2, this]
  cases f.value d <;> simp

/-- the lifetimes by Expires alone -/
def expiresLifetime (f : Facts) : Option Rat :=
  match f.expiresSent, Facts.known f.responseTime with
  | true, some t => some ((f.expires.getD 0 : Int) - (match f.date with
    | some d => if d ≠ 0 then d else F.truncRat t
    | none => F.truncRat t : Int))
  | _, _ => none

theorem expires_eq {i f} (hm : Matches i f) : ∃ l, i.lifetimeExpires {} = .ok l ∧
    l.priv = (expiresLifetime f).getD 0 ∧ l.shared = (expiresLifetime f).getD 0 ∧ l.explicit = (expiresLifetime f).isSome := by
  unfold CacheIn.lifetimeExpires expiresLifetime
  rw [hm.respTime, hm.sent, hm.expires, hm.date, truthyTime_eq]
  cases Facts.known f.responseTime with
  | none => cases f.expiresSent <;> exact ⟨_, rfl, rfl, rfl, rfl⟩
  | some t =>
    cases f.expiresSent with
    | false => exact ⟨_, rfl, rfl, rfl, rfl⟩
    | true =>
      dsimp only
      rw [if_pos rfl]
      have hd : ∀ x : Option Int, ((intVal x).truthy = true ∧ ∃ e, x = some e ∧ e ≠ 0 ∧ (intVal x).number = .ok (e : Rat)) ∨
          ((intVal x).truthy = false ∧ (x = none ∨ x = some 0)) := by
        intro x
        cases x with
        | none => exact .inr ⟨rfl, .inl rfl⟩
        | some e =>
          by_cases h : e = 0
          · subst h; exact .inr ⟨rfl, .inr rfl⟩
          · exact .inl ⟨by simpa [intVal, Val.truthy] using h, e, rfl, h, rfl⟩
      rcases hd f.expires with ⟨a1, e, a2, a3, a4⟩ | ⟨a1, a2⟩ <;> rcases hd f.date with ⟨b1, d, b2, b3, b4⟩ | ⟨b1, b2⟩
      · rw [a1, b1, a4, b4]; rw [a2, b2]; exact ⟨_, rfl, by simp [b3], by simp [b3], rfl⟩
      · rw [a1, b1, a4]; rcases b2 with b2 | b2 <;> rw [a2, b2] <;> exact ⟨_, rfl, rfl, rfl, rfl⟩
      · rw [a1, b1, b4]
        rcases a2 with a2 | a2 <;> rw [a2, b2] <;> exact ⟨_, rfl, by simp [b3], by simp [b3], rfl⟩
      · rw [a1, b1]
        rcases a2 with a2 | a2 <;> rcases b2 with b2 | b2 <;> rw [a2, b2] <;> exact ⟨_, rfl, rfl, rfl, rfl⟩

theorem lifetimes_eq {i f} (hm : Matches i f) (h1 : f.Has (str "max-age") ↔ (f.value (str "max-age")).isSome)
    (h2 : f.Has (str "s-maxage") ↔ (f.value (str "s-maxage")).isSome) :
    ∃ l, i.lifetimes = .ok l ∧ l.priv = f.lifetimePrivate ∧ l.shared = f.lifetimeShared ∧ (l.explicit = true ↔ f.Explicit) := by
  obtain ⟨l, hl, hp, hs, he⟩ := expires_eq hm
  unfold CacheIn.lifetimes
  rw [hl]
  show ∃ l', (do let l ← i.lifetimeMaxAge l; i.lifetimeSMaxAge l) = .ok l' ∧ _
  unfold Facts.lifetimePrivate Facts.lifetimeShared Facts.lifetimePrivate Facts.Explicit
  rw [h1, h2]
  have hel : (f.expiresSent = true ∧ Facts.known f.responseTime ≠ none) ↔ (expiresLifetime f).isSome = true := by
    unfold expiresLifetime
    cases f.expiresSent <;> cases Facts.known f.responseTime <;> simp
  have hpe : (match f.expiresSent, Facts.known f.responseTime with
      | true, some t => ((f.expires.getD 0 : Int) : Rat) - ((match f.date with
        | some d => if d ≠ 0 then d else F.truncRat t
        | none => F.truncRat t : Int) : Rat)
      | _, _ => (0 : Rat)) = (expiresLifetime f).getD 0 := by
    unfold expiresLifetime
    cases f.expiresSent <;> cases Facts.known f.responseTime <;> rfl
  rw [hel]
  unfold CacheIn.lifetimeMaxAge
  rw [hm.maxage]
  cases hma : f.value (str "max-age") with
  | none =>
    show ∃ l', (i.lifetimeSMaxAge l) = .ok l' ∧ _
    unfold CacheIn.lifetimeSMaxAge
    rw [hm.smaxage]
    cases hsm : f.value (str "s-maxage") with
    | none => exact ⟨_, rfl, hp.trans hpe.symm, hs.trans hpe.symm, by simp [he]⟩
    | some n => exact ⟨_, rfl, hp.trans hpe.symm, rfl, by simp⟩
  | some k =>
    show ∃ l', (i.lifetimeSMaxAge _) = .ok l' ∧ _
    unfold CacheIn.lifetimeSMaxAge
    rw [hm.smaxage]
    cases hsm : f.value (str "s-maxage") with
    | none => exact ⟨_, rfl, rfl, rfl, by simp⟩
    | some n => exact ⟨_, rfl, rfl, rfl, by simp⟩

/-! ### storability -/

/-- the classes that say who may store the response -/
def isStore : NoteId → Bool
  | .STORE_NO_STORE | .STORE_PRIVATE_CC | .STORE_PRIVATE_AUTH | .STORE_PUBLIC_AUTH | .STORE_STORABLE
  | .STORE_STORABLE_SHARED_ONLY | .STORE_UNSTORABLE => true
  | _ => false

/-- the classes of the freshness verdict -/
def isFreshness : NoteId → Bool
  | .FRESHNESS_NO_CACHE | .FRESHNESS_NO_CACHE_NO_VALIDATOR | .FRESHNESS_SHARED_PRIVATE | .FRESHNESS_FRESH
  | .FRESHNESS_STALE_ALREADY | .FRESHNESS_HEURISTIC | .FRESHNESS_NONE => true
  | _ => false

/-- the classes of the verdict on serving stale responses -/
def isStale : NoteId → Bool
  | .STALE_IF_ERROR | .FRESH_MUST_REVALIDATE | .STALE_MUST_REVALIDATE | .FRESH_PROXY_REVALIDATE
  | .STALE_PROXY_REVALIDATE | .STALE_SERVABLE => true
  | _ => false

theorem isStore_cache : CacheOnly isStore := by intro c h; unfold isStore at h; split at h <;> first | rfl | exact nomatch h
theorem isFreshness_cache : CacheOnly isFreshness := by
  intro c h; unfold isFreshness at h; split at h <;> first | rfl | exact nomatch h
theorem isStale_cache : CacheOnly isStale := by intro c h; unfold isStale at h; split at h <;> first | rfl | exact nomatch h

/-- authenticated, and nothing allows a shared cache to store it -/
def Facts.AuthOnly (f : Facts) : Prop :=
  f.authorized = true ∧ ¬ f.Has (str "public") ∧ ¬ f.Has (str "must-revalidate") ∧ ¬ f.Has (str "s-maxage")

theorem badMethod_cases {i f} (hm : Matches i f) :
    (f.BadMethod ∧ ∃ r m, i.badMethod = some (r, m) ∧ i.request = some r ∧ r.method = some m) ∨ (¬ f.BadMethod ∧ i.badMethod = none) := by
  have h := hm.bad
  cases hb : i.badMethod with
  | none => rw [hb] at h; exact .inr ⟨fun x => (nomatch h.2 x), rfl⟩
  | some p =>
    rw [hb] at h
    refine .inl ⟨h.1 rfl, p.1, p.2, rfl, ?_⟩
    unfold CacheIn.badMethod at hb
    split at hb
    · exact nomatch hb
    · rename_i r hr
      split at hb
      · exact nomatch hb
      · rename_i me hme
        split at hb
        · exact nomatch hb
        · cases hb; exact ⟨hr, hme⟩

theorem truthy_intVal (x : Option Int) : (intVal x).truthy = true ↔ ∃ e, x = some e ∧ e ≠ 0 := by
  cases x with
  | none => simp [intVal, Val.truthy]
  | some e => simp [intVal, Val.truthy]

theorem note_bind {α} (i : CacheIn) (s c v) (x : W α) :
    (do i.note s c v; x) = ⟨(i.add.on s).mk1 c v :: x.notes, x.res⟩ := rfl

/-- everything about `check_storable` -/
theorem storable_spec {i f} (hm : Matches i f) :
    ((i.checkStorable {}).2.1.res = .ok true ∨ (i.checkStorable {}).2.1.res = .ok false) ∧
    ((i.checkStorable {}).2.1.res = .ok true ↔ ¬ f.BadMethod ∧ ¬ f.Has (str "no-store") ∧ f.StorageReason) ∧
    ((i.checkStorable {}).1.storePrivate = false ↔ f.BadMethod ∨ f.Has (str "no-store")) ∧
    ((i.checkStorable {}).1.storeShared = false ↔
      f.BadMethod ∨ f.Has (str "no-store") ∨ f.Has (str "private") ∨ f.AuthOnly) ∧
    (i.checkStorable {}).1.age = 0 := by
  unfold CacheIn.checkStorable Facts.StorageReason Facts.AuthOnly
  rcases badMethod_cases hm with ⟨hb, r, me, e, _⟩ | ⟨hb, e⟩
  · rw [e]; simp [hb, noStore]
  · rw [e]
    have he : (∃ e, f.expires = some e ∧ e ≠ 0) ↔ i.expires.truthy = true := by rw [hm.expires, truthy_intVal]
    simp only [← hm.has, ← hm.heur, ← hm.auth, he, hb, note_bind]
    generalize i.has (str "no-store") = a1
    generalize i.has (str "private") = a2
    generalize i.authorized = a3
    generalize i.has (str "public") = a4
    generalize i.has (str "must-revalidate") = a5
    generalize i.has (str "s-maxage") = a6
    generalize i.expires.truthy = a7
    generalize i.has (str "max-age") = a8
    generalize i.heuristic = a9
    cases a1
    · cases a2
      · cases a3
        · cases a4
          · cases a7
            · cases a8
              · cases a9
                · cases a6 <;> simp
                · simp
              · simp
            · simp
          · simp
        · cases a4
          · cases a5
            · cases a6 <;> simp
            · simp
          · simp
      · cases a4
        · simp [W.when]
        · simp only [W.when]
          simp
          exact ⟨.inl rfl, rfl⟩
    · simp [noStore]

/-- the notes of `check_storable` about who may store the response -/
theorem storable_notes {i f} (hm : Matches i f) (hb : ¬ f.BadMethod) :
    ∃ v, sel isStore (i.checkStorable {}).2.1.notes = [v] ∧
      (v.cls = .STORE_NO_STORE ↔ f.Has (str "no-store")) ∧
      (v.cls = .STORE_PRIVATE_CC ↔ ¬ f.Has (str "no-store") ∧ f.Has (str "private")) ∧
      (v.cls = .STORE_PRIVATE_AUTH ↔ ¬ f.Has (str "no-store") ∧ ¬ f.Has (str "private") ∧ f.AuthOnly) ∧
      (v.cls = .STORE_UNSTORABLE ↔ ¬ f.Has (str "no-store") ∧ ¬ f.StorageReason) := by
  unfold CacheIn.checkStorable Facts.StorageReason Facts.AuthOnly
  rcases badMethod_cases hm with ⟨hb', _⟩ | ⟨_, e⟩
  · exact absurd hb' hb
  · rw [e]
    have he : (∃ e, f.expires = some e ∧ e ≠ 0) ↔ i.expires.truthy = true := by rw [hm.expires, truthy_intVal]
    simp only [← hm.has, ← hm.heur, ← hm.auth, he, note_bind]
    generalize i.has (str "no-store") = a1
    generalize i.has (str "private") = a2
    generalize i.authorized = a3
    generalize i.has (str "public") = a4
    generalize i.has (str "must-revalidate") = a5
    generalize i.has (str "s-maxage") = a6
    generalize i.expires.truthy = a7
    generalize i.has (str "max-age") = a8
    generalize i.heuristic = a9
    cases a1
    · cases a2
      · cases a3
        · cases a4
          · cases a7
            · cases a8
              · cases a9
                · cases a6 <;> exact ⟨_, rfl, by simp, by simp, by simp, by simp⟩
                · exact ⟨_, rfl, by simp, by simp, by simp, by simp⟩
              · exact ⟨_, rfl, by simp, by simp, by simp, by simp⟩
            · exact ⟨_, rfl, by simp, by simp, by simp, by simp⟩
          · exact ⟨_, rfl, by simp, by simp, by simp, by simp⟩
        · cases a4
          · cases a5
            · cases a6 <;> exact ⟨_, rfl, by simp, by simp, by simp, by simp⟩
            · exact ⟨_, rfl, by simp, by simp, by simp, by simp⟩
          · exact ⟨_, rfl, by simp, by simp, by simp, by simp⟩
      · cases a4 <;> exact ⟨_, rfl, by simp, by simp, by simp, by simp⟩
    · exact ⟨_, rfl, by simp, by simp, by simp, by simp⟩

/-! ### freshness and staleness -/

/-- the class of the freshness verdict -/
structure FreshnessVerdict (f : Facts) (c : NoteId) : Prop where
  one : isFreshness c = true
  noCache : c = .FRESHNESS_NO_CACHE ↔ f.Has (str "no-cache") ∧ f.validator = true
  noValidator : c = .FRESHNESS_NO_CACHE_NO_VALIDATOR ↔ f.Has (str "no-cache") ∧ f.validator = false
  differ : c = .FRESHNESS_SHARED_PRIVATE ↔
    ¬ f.Has (str "no-cache") ∧ f.Explicit ∧ f.lifetimeShared ≠ f.lifetimePrivate
  fresh : c = .FRESHNESS_FRESH ↔
    ¬ f.Has (str "no-cache") ∧ f.Explicit ∧ f.lifetimeShared = f.lifetimePrivate ∧ f.currentAge < f.lifetimePrivate
  stale : c = .FRESHNESS_STALE_ALREADY ↔
    ¬ f.Has (str "no-cache") ∧ f.Explicit ∧ f.lifetimeShared = f.lifetimePrivate ∧ ¬ f.currentAge < f.lifetimePrivate
  heuristic : c = .FRESHNESS_HEURISTIC ↔ ¬ f.Has (str "no-cache") ∧ ¬ f.Explicit ∧ f.HeuristicStatus
  none : c = .FRESHNESS_NONE ↔ ¬ f.Has (str "no-cache") ∧ ¬ f.Explicit ∧ ¬ f.HeuristicStatus

theorem freshness_spec {i f l} (hm : Matches i f) (hp : l.priv = f.lifetimePrivate) (hs : l.shared = f.lifetimeShared)
    (he : l.explicit = true ↔ f.Explicit) :
    (∃ v, sel isFreshness (i.freshnessNotes l f.currentAge).notes = [v] ∧ FreshnessVerdict f v.cls) ∧
    ((i.freshnessNotes l f.currentAge).res = .ok true ↔ ¬ f.Has (str "no-cache")) := by
  have hv := hm.valid
  have hlt : l.priv - f.currentAge > 0 ↔ f.currentAge < f.lifetimePrivate := by rw [hp]; exact (Rat.lt_iff_sub_pos _ _).symm
  have hlt' : l.shared - f.currentAge > 0 ↔ f.currentAge < f.lifetimeShared := by rw [hs]; exact (Rat.lt_iff_sub_pos _ _).symm
  unfold CacheIn.freshnessNotes
  by_cases h1 : f.Has (str "no-cache")
  · have h1' := (hm.has _).2 h1
    rw [if_pos h1']
    by_cases h2 : i.lm = .none ∧ i.etag = .none
    · rw [if_pos h2]
      have h3 := hv.1 h2
      refine ⟨⟨_, rfl, ?_⟩, ?_⟩
      · constructor <;> simp [h1, h3, isFreshness]
      · exact ⟨fun e => (nomatch e), fun e => absurd h1 e⟩
    · rw [if_neg h2]
      have h3 : f.validator = true := by rw [← Bool.not_eq_false]; exact fun e => h2 (hv.2 e)
      refine ⟨⟨_, rfl, ?_⟩, ?_⟩
      · constructor <;> simp [h1, h3, isFreshness]
      · exact ⟨fun e => (nomatch e), fun e => absurd h1 e⟩
  · have h1' : ¬ i.has (str "no-cache") = true := fun e => h1 ((hm.has _).1 e)
    rw [if_neg h1']
    have hend : ∀ (w : W Unit), w.res = .ok () → ∀ c : Bool,
        sel isFreshness (do w; W.when c (i.note fcc .STORE_PUBLIC_UNNECESSARY); return true : W Bool).notes = sel isFreshness w.notes ∧
        (do w; W.when c (i.note fcc .STORE_PUBLIC_UNNECESSARY); return true : W Bool).res = .ok true := by
      intro w hw c
      rw [W.bind_ok hw]
      cases c
      · exact ⟨by simp [W.when], rfl⟩
      · refine ⟨?_, rfl⟩
        rw [sel_append]
        exact List.append_nil _
    by_cases h2 : f.Explicit
    · have h2' := he.2 h2
      rw [if_pos h2']
      have hx : (i.explicitNotes l f.currentAge).res = .ok () := by
        unfold CacheIn.explicitNotes
        dsimp only
        simp only [W.when]
        repeat' split
        all_goals rfl
      obtain ⟨e1, e2⟩ := hend _ hx (i.has (str "public") && (l.explicit || i.heuristic))
      rw [e1, e2]
      refine ⟨?_, by simp [h1]⟩
      unfold CacheIn.explicitNotes
      dsimp only
      have hlast : ∀ (a : Note) (c : Bool), isFreshness a.cls = true → sel isFreshness (a :: (W.when c (i.note (str "field-expires field-cache-control") .CC_AND_EXPIRES)).notes) = [a] := by
        intro a c ha
        cases c
        · show sel isFreshness [a] = _; exact sel_all (by simpa using ha)
        · show sel isFreshness ([a] ++ [_]) = _
          rw [sel_append, sel_all (by simpa using ha)]
          rfl
      by_cases h3 : l.shared = l.priv
      · have h3' : f.lifetimeShared = f.lifetimePrivate := by rw [← hs, ← hp, h3]
        rw [if_neg (not_not_intro h3)]
        by_cases h4 : f.currentAge < f.lifetimePrivate
        · rw [if_pos (.inl (hlt.2 h4))]
          refine ⟨_, hlast _ _ rfl, ?_⟩
          constructor <;> simp [h1, h2, h3', h4, isFreshness]
        · rw [if_neg (by rw [hlt, hlt', h3']; simpa using h4)]
          refine ⟨_, hlast _ _ rfl, ?_⟩
          constructor <;> simp [h1, h2, h3', h4, isFreshness]
      · have h3' : ¬ f.lifetimeShared = f.lifetimePrivate := by rw [← hs, ← hp]; exact h3
        rw [if_pos h3]
        refine ⟨_, hlast _ _ rfl, ?_⟩
        constructor <;> simp [h1, h2, h3', isFreshness]
    · have h2' : ¬ l.explicit = true := fun e => h2 (he.1 e)
      rw [if_neg h2']
      by_cases h5 : f.HeuristicStatus
      · rw [if_pos (hm.heur.2 h5)]
        obtain ⟨e1, e2⟩ := hend (i.note (str "field-last-modified") .FRESHNESS_HEURISTIC) rfl (i.has (str "public") && (l.explicit || i.heuristic))
        rw [e1, e2]
        refine ⟨⟨_, rfl, ?_⟩, by simp [h1]⟩
        constructor <;> simp [h1, h2, h5, isFreshness]
      · rw [if_neg fun e => h5 (hm.heur.1 e)]
        obtain ⟨e1, e2⟩ := hend (i.note [] .FRESHNESS_NONE) rfl (i.has (str "public") && (l.explicit || i.heuristic))
        rw [e1, e2]
        refine ⟨⟨_, rfl, ?_⟩, by simp [h1]⟩
        constructor <;> simp [h1, h2, h5, isFreshness]

/-- a cache of the kind that the revalidation directives bind -/
def Facts.MustRevalidate (f : Facts) : Prop := ¬ f.Has (str "stale-if-error") ∧ f.Has (str "must-revalidate")
def Facts.ProxyRevalidate (f : Facts) : Prop :=
  ¬ f.Has (str "stale-if-error") ∧ ¬ f.Has (str "must-revalidate") ∧ (f.Has (str "proxy-revalidate") ∨ f.Has (str "s-maxage"))

/-- the class of the verdict on serving the response stale, if there is one -/
structure StaleVerdict (f : Facts) (cs : List NoteId) : Prop where
  atMostOne : cs.length ≤ 1
  ifError : .STALE_IF_ERROR ∈ cs ↔ f.Has (str "stale-if-error")
  freshMust : .FRESH_MUST_REVALIDATE ∈ cs ↔ f.MustRevalidate ∧ f.currentAge < f.lifetimePrivate
  staleMust : .STALE_MUST_REVALIDATE ∈ cs ↔ f.MustRevalidate ∧ ¬ f.currentAge < f.lifetimePrivate ∧ f.Explicit
  freshProxy : .FRESH_PROXY_REVALIDATE ∈ cs ↔ f.ProxyRevalidate ∧ f.currentAge < f.lifetimeShared
  staleProxy : .STALE_PROXY_REVALIDATE ∈ cs ↔ f.ProxyRevalidate ∧ ¬ f.currentAge < f.lifetimeShared ∧ f.Explicit
  servable : .STALE_SERVABLE ∈ cs ↔ ¬ f.Has (str "stale-if-error") ∧ ¬ f.Has (str "must-revalidate") ∧
    ¬ f.Has (str "proxy-revalidate") ∧ ¬ f.Has (str "s-maxage")

theorem stale_spec {i f l} (hm : Matches i f) (hp : l.priv = f.lifetimePrivate) (hs : l.shared = f.lifetimeShared)
    (he : l.explicit = true ↔ f.Explicit) :
    StaleVerdict f ((sel isStale (i.checkStale l f.currentAge).notes).map (·.cls)) := by
  have hlt : l.priv - f.currentAge > 0 ↔ f.currentAge < f.lifetimePrivate := by rw [hp]; exact (Rat.lt_iff_sub_pos _ _).symm
  have hlt' : l.shared - f.currentAge > 0 ↔ f.currentAge < f.lifetimeShared := by rw [hs]; exact (Rat.lt_iff_sub_pos _ _).symm
  have hstart : ∀ (w : W Unit) (c : Bool), sel isStale (do W.when c (i.note fcc .STALE_WHILE_REVALIDATE); w : W Unit).notes =
      sel isStale w.notes := by
    intro w c
    cases c
    · rfl
    · show sel isStale ([_] ++ w.notes) = _
      rw [sel_append]; rfl
  unfold CacheIn.checkStale
  rw [hstart]
  by_cases h1 : f.Has (str "stale-if-error")
  · rw [if_pos ((hm.has _).2 h1)]
    show StaleVerdict f [.STALE_IF_ERROR]
    constructor <;> simp [h1, Facts.MustRevalidate, Facts.ProxyRevalidate]
  · rw [if_neg fun e => h1 ((hm.has _).1 e)]
    by_cases h2 : f.Has (str "must-revalidate")
    · rw [if_pos ((hm.has _).2 h2)]
      by_cases h3 : f.currentAge < f.lifetimePrivate
      · rw [if_pos (hlt.2 h3)]
        show StaleVerdict f [.FRESH_MUST_REVALIDATE]
        constructor <;> simp [h1, h2, h3, Facts.MustRevalidate, Facts.ProxyRevalidate]
      · rw [if_neg fun e => h3 (hlt.1 e)]
        by_cases h4 : f.Explicit
        · rw [he.2 h4]
          show StaleVerdict f [.STALE_MUST_REVALIDATE]
          constructor <;> simp [h1, h2, h3, h4, Facts.MustRevalidate, Facts.ProxyRevalidate]
        · rw [(Bool.not_eq_true _ ▸ (fun e => h4 (he.1 e)) : l.explicit = false)]
          show StaleVerdict f []
          constructor <;> simp [h1, h2, h3, h4, Facts.MustRevalidate, Facts.ProxyRevalidate]
    · rw [if_neg fun e => h2 ((hm.has _).1 e)]
      by_cases h5 : f.Has (str "proxy-revalidate") ∨ f.Has (str "s-maxage")
      · rw [if_pos (by rw [Bool.or_eq_true, hm.has, hm.has]; exact h5)]
        have h6 : ¬ (¬ f.Has (str "proxy-revalidate") ∧ ¬ f.Has (str "s-maxage")) := by
          rintro ⟨a, b⟩; exact h5.elim a b
        by_cases h3 : f.currentAge < f.lifetimeShared
        · rw [if_pos (hlt'.2 h3)]
          show StaleVerdict f [.FRESH_PROXY_REVALIDATE]
          constructor <;> simp [h1, h2, h3, h5, h6, Facts.MustRevalidate, Facts.ProxyRevalidate]
        · rw [if_neg fun e => h3 (hlt'.1 e)]
          by_cases h4 : f.Explicit
          · rw [he.2 h4]
            show StaleVerdict f [.STALE_PROXY_REVALIDATE]
            constructor <;> simp [h1, h2, h3, h4, h5, h6, Facts.MustRevalidate, Facts.ProxyRevalidate]
          · rw [(Bool.not_eq_true _ ▸ (fun e => h4 (he.1 e)) : l.explicit = false)]
            show StaleVerdict f []
            constructor <;> simp [h1, h2, h3, h4, h5, h6, Facts.MustRevalidate, Facts.ProxyRevalidate]
      · rw [if_neg (by rw [Bool.or_eq_true, hm.has, hm.has]; exact h5)]
        rw [not_or] at h5
        show StaleVerdict f [.STALE_SERVABLE]
        constructor <;> simp [h1, h2, h5, Facts.MustRevalidate, Facts.ProxyRevalidate]

/-! ### which check adds which notes -/

theorem note_quiet {i : CacheIn} {q : NoteId → Bool} {s c v} (h : q c = false) :
    Emits (fun n => q n.cls = false) (i.note s c v) := by
  intro n hn
  rw [List.mem_singleton.1 hn]
  exact h

theorem basic_quiet (i : CacheIn) {q : NoteId → Bool} (h1 : q .DATE_CLOCKLESS = false) (h2 : q .DATE_CLOCKLESS_BAD_HDR = false) :
    sel q (i.checkBasic {}).2.notes = [] := by
  refine sel_none ?_
  show Emits (fun n => q n.cls = false) _
  unfold CacheIn.checkBasic
  split
  · exact emits_throw _
  · exact emits_pure _
  · refine emits_bind (emits_when fun _ => emits_bind (note_quiet h1) fun _ => emits_when fun _ => note_quiet h2) fun _ => emits_pure _

theorem age_notes {i : CacheIn} {a b : Rat} (ha : i.apparentAge = .ok a) (hb : i.correctedAge = .ok b) (st : Caching) :
    (i.checkAge st).2.notes = if max a b ≥ 1 then [(i.add.on (str "field-age field-date")).mk1 .CURRENT_AGE [(str "age", rel0 (max a b))]] else [] := by
  unfold CacheIn.checkAge
  rw [ha, hb]
  dsimp only
  simp only [W.when, decide_eq_true_eq]
  split <;> rfl

theorem age_quiet {i : CacheIn} {a b : Rat} (ha : i.apparentAge = .ok a) (hb : i.correctedAge = .ok b) (st : Caching)
    {q : NoteId → Bool} (h : q .CURRENT_AGE = false) : sel q (i.checkAge st).2.notes = [] := by
  rw [age_notes ha hb]
  split
  · exact sel_none (by intro n hn; rw [List.mem_singleton.1 hn]; exact h)
  · rfl

theorem storable_quiet (i : CacheIn) {q : NoteId → Bool} (h1 : ∀ c, isStore c = true → q c = false)
    (h2 : q .STORE_PRIVATE_PUBLIC_CONFLICT = false) : sel q (i.checkStorable {}).2.1.notes = [] := by
  refine sel_none ?_
  show Emits (fun n => q n.cls = false) _
  unfold CacheIn.checkStorable
  split
  · exact emits_pure _
  · dsimp only
    repeat' (first | exact emits_bind (note_quiet (h1 _ rfl)) fun _ => emits_pure _ | split)
    exact emits_bind (note_quiet (h1 _ rfl)) fun _ => emits_bind (emits_when fun _ => note_quiet h2) fun _ => emits_pure _

theorem freshness_quiet (i : CacheIn) (l age) {q : NoteId → Bool} (h1 : ∀ c, isFreshness c = true → q c = false)
    (h2 : q .STORE_PUBLIC_UNNECESSARY = false) (h3 : q .CC_AND_EXPIRES = false) : sel q (i.freshnessNotes l age).notes = [] := by
  refine sel_none ?_
  show Emits (fun n => q n.cls = false) _
  unfold CacheIn.freshnessNotes
  split
  · split <;> exact emits_bind (note_quiet (h1 _ rfl)) fun _ => emits_pure _
  · have hend : Emits (fun n => q n.cls = false) (do
        W.when (i.has (str "public") && (l.explicit || i.heuristic)) (i.note fcc .STORE_PUBLIC_UNNECESSARY)
        return true : W Bool) := emits_bind (emits_when fun _ => note_quiet h2) fun _ => emits_pure _
    split
    · refine emits_bind ?_ fun _ => hend
      unfold CacheIn.explicitNotes
      dsimp only
      have hl : Emits (fun n => q n.cls = false) (W.when (i.has (str "max-age") && i.names.contains (str "expires"))
        (i.note (str "field-expires field-cache-control") .CC_AND_EXPIRES)) := emits_when fun _ => note_quiet h3
      repeat' (first | exact emits_bind (note_quiet (h1 _ rfl)) fun _ => hl | split)
    · split <;> exact emits_bind (note_quiet (h1 _ rfl)) fun _ => hend

theorem stale_quiet (i : CacheIn) (l age) {q : NoteId → Bool} (h1 : ∀ c, isStale c = true → q c = false)
    (h2 : q .STALE_WHILE_REVALIDATE = false) : sel q (i.checkStale l age).notes = [] := by
  refine sel_none ?_
  show Emits (fun n => q n.cls = false) _
  unfold CacheIn.checkStale
  refine emits_bind (emits_when fun _ => note_quiet h2) fun _ => ?_
  repeat' (first | exact note_quiet (h1 _ rfl) | exact emits_when fun _ => note_quiet (h1 _ rfl) | split)

/-! ### the theorems -/

/-- how a finished response relates to its facts, all in one -/
theorem finished {env related co ts} {m m' : Msg} {rn} {f : Facts} (hr : Reachable env m) (hk : m.kind = .response)
    (h : Finishes env related co ts m m' rn) (hf : FactsOf m related f) :
    ∃ i st w, Matches i f ∧ i.run = (st, w, rn) ∧ w.res = .ok () ∧ m'.caching = some st ∧ i.request = related ∧
      (∀ q, CacheOnly q → sel q m'.notes = sel q m.notes ++ sel q w.notes) ∧
      ((str "*" ∈ f.vary ∧ st = noStore {} ∧ w.notes = [] ∧ rn = []) ∨
       (str "*" ∉ f.vary ∧ rn = (i.checkStorable {}).2.2 ∧
        ((¬ f.Stored ∧ st = (i.checkStorable {}).1 ∧ (i.checkStorable {}).2.1.res = .ok false ∧
            w.notes = (i.checkBasic {}).2.notes ++ (i.checkStorable {}).2.1.notes) ∨
         (f.Stored ∧ ∃ l, l.priv = f.lifetimePrivate ∧ l.shared = f.lifetimeShared ∧ (l.explicit = true ↔ f.Explicit) ∧
            st = { (i.checkStorable {}).1 with age := f.currentAge, lifetimePrivate := f.lifetimePrivate, lifetimeShared := f.lifetimeShared } ∧
            (∃ b, i.apparentAge = .ok f.apparentAge ∧ i.correctedAge = .ok b ∧ max f.apparentAge b = f.currentAge) ∧
            w.notes = (i.checkBasic {}).2.notes ++ (i.checkStorable {}).2.1.notes ++ (i.checkAge (i.checkStorable {}).1).2.notes ++
              (i.freshnessNotes l f.currentAge).notes ++
              (if (i.freshnessNotes l f.currentAge).res = .ok true then (i.checkStale l f.currentAge).notes else []))))) := by
  obtain ⟨i, st, w, hi, hrun, hw, hc, hq⟩ := finish_cache hr hk h
  have hm := matches_of hf hi
  have hreq : i.request = related := by obtain ⟨_, _, rfl⟩ := cacheInputs_ok hi; rfl
  refine ⟨i, st, w, hm, hrun, hw, hc, hreq, hq, ?_⟩
  obtain ⟨hs1, hs2, _⟩ := storable_spec hm
  rcases run_cases hrun hw with ⟨hv, h1, h2, h3⟩ | ⟨hv, h1, h2⟩
  · rw [hm.star] at hv
    exact .inl ⟨by simpa using hv, h1, h2, h3⟩
  · rw [hm.star] at hv
    have hv : str "*" ∉ f.vary := by simpa using hv
    refine .inr ⟨hv, h1, ?_⟩
    rcases h2 with ⟨e, h4, h5⟩ | ⟨e, a, b, l, ha, hb, hl, hst, hn⟩
    · refine .inl ⟨?_, h4, e, h5⟩
      rintro ⟨n1, n2⟩
      have := hs2.2 ⟨fun x => n1 (.inr (.inl x)), fun x => n1 (.inr (.inr x)), n2⟩
      rw [e] at this
      exact nomatch this
    · have hsr := hs2.1 e
      have h1 := has_value (f := f) (d := str "max-age") fun p hp h => hf.integers p hp (.inl h)
      have h2 := has_value (f := f) (d := str "s-maxage") fun p hp h => hf.integers p hp (.inr h)
      obtain ⟨l', hl', l1, l2, l3⟩ := lifetimes_eq hm h1 h2
      rw [hl] at hl'
      cases hl'
      have ea : a = f.apparentAge := by rw [apparentAge_eq hm] at ha; exact (Except.ok.inj ha).symm
      have eb := correctedAge_eq hm hb
      have em : max f.apparentAge b = f.currentAge := by rw [eb]; rfl
      subst ea
      rw [em] at hst hn
      rw [l1, l2] at hst
      refine .inr ⟨⟨?_, hsr.2.2⟩, l, l1, l2, l3, hst, ⟨b, ha, hb, em⟩, hn⟩
      rintro (x | x | x)
      · exact hv x
      · exact hsr.1 x
      · exact hsr.2.1 x

section
variable {env : Env} {related : Option Msg} {co : Bool} {ts : List (Str × Str)} {m m' : Msg} {rn : List Note} {f : Facts}

/-- **C33**: when `finish_content` returns on a response that has `Vary: *` or `no-store`, or that answers a method
other than GET and HEAD, neither kind of cache may store it and there is no freshness verdict. -/
theorem C33_never_stored (hr : Reachable env m) (hk : m.kind = .response) (h : Finishes env related co ts m m' rn)
    (hf : FactsOf m related f) (hn : f.NeverStored) :
    ∃ st, m'.caching = some st ∧ st.storeShared = false ∧ st.storePrivate = false ∧
      sel isFreshness m'.notes = sel isFreshness m.notes := by
  obtain ⟨i, st, w, hm, hrun, hw, hc, hreq, hq, hcase⟩ := finished hr hk h hf
  refine ⟨st, hc, ?_⟩
  rw [hq _ isFreshness_cache]
  obtain ⟨_, _, hs3, hs4, _⟩ := storable_spec hm
  rcases hcase with ⟨hv, rfl, h2, h3⟩ | ⟨hv, h1, ⟨hns, h4, h5, h6⟩ | ⟨hs, _⟩⟩
  · rw [h2]; exact ⟨rfl, rfl, List.append_nil _⟩
  · subst h4
    have hor : f.BadMethod ∨ f.Has (str "no-store") := hn.resolve_left hv
    refine ⟨hs4.2 (hor.imp_right .inl), hs3.2 hor, ?_⟩
    rw [h6, sel_append, basic_quiet i rfl rfl, storable_quiet i ?_ rfl]
    · exact List.append_nil _
    · intro c hc; unfold isStore at hc; split at hc <;> first | rfl | exact nomatch hc
  · exact absurd hn hs.1

/-- **C34**: a shared cache may not store a response with `private`, nor the response to an authenticated request
without `public`, `must-revalidate` or `s-maxage`. -/
theorem C34_private_not_shared (hr : Reachable env m) (hk : m.kind = .response) (h : Finishes env related co ts m m' rn)
    (hf : FactsOf m related f)
    (hp : f.Has (str "private") ∨ (f.authorized = true ∧ ¬ f.Has (str "public") ∧ ¬ f.Has (str "must-revalidate") ∧ ¬ f.Has (str "s-maxage"))) :
    ∃ st, m'.caching = some st ∧ st.storeShared = false := by
  obtain ⟨i, st, w, hm, hrun, hw, hc, hreq, hq, hcase⟩ := finished hr hk h hf
  refine ⟨st, hc, ?_⟩
  obtain ⟨_, _, _, hs4, _⟩ := storable_spec hm
  have hsh : (i.checkStorable {}).1.storeShared = false := hs4.2 (.inr (.inr hp))
  rcases hcase with ⟨hv, rfl, h2, h3⟩ | ⟨hv, h1, ⟨hns, h4, h5, h6⟩ | ⟨hs, l, _, _, _, h7, _⟩⟩
  · rfl
  · rw [h4]; exact hsh
  · rw [h7]; exact hsh

/-- **C35**, what the flags are: `store_private` is off exactly when storing is ruled out, `store_shared` also for
`private` and for authenticated requests. -/
theorem C35_flags (hr : Reachable env m) (hk : m.kind = .response) (h : Finishes env related co ts m m' rn)
    (hf : FactsOf m related f) :
    ∃ st, m'.caching = some st ∧ (st.storePrivate = false ↔ f.NeverStored) ∧
      (st.storeShared = false ↔ f.NeverStored ∨ f.Has (str "private") ∨ f.AuthOnly) := by
  obtain ⟨i, st, w, hm, hrun, hw, hc, hreq, hq, hcase⟩ := finished hr hk h hf
  refine ⟨st, hc, ?_⟩
  obtain ⟨_, _, hs3, hs4, _⟩ := storable_spec hm
  rcases hcase with ⟨hv, rfl, h2, h3⟩ | ⟨hv, h1, hcase⟩
  · exact ⟨⟨fun _ => .inl hv, fun _ => rfl⟩, ⟨fun _ => .inl (.inl hv), fun _ => rfl⟩⟩
  · have e : st.storePrivate = (i.checkStorable {}).1.storePrivate ∧ st.storeShared = (i.checkStorable {}).1.storeShared := by
      rcases hcase with ⟨hns, h4, h5, h6⟩ | ⟨hs, l, _, _, _, h7, _⟩
      · rw [h4]; exact ⟨rfl, rfl⟩
      · rw [h7]; exact ⟨rfl, rfl⟩
    rw [e.1, e.2, hs3, hs4]
    unfold Facts.NeverStored
    have hv' : (str "*" ∈ f.vary) = False := eq_false hv
    rw [hv', false_or]
    exact ⟨Iff.rfl, by rw [or_assoc]⟩

/-- the storability note (see C35) -/
theorem store_note (hr : Reachable env m) (hk : m.kind = .response) (h : Finishes env related co ts m m' rn)
    (hf : FactsOf m related f) :
    ∃ vs, sel isStore m'.notes = sel isStore m.notes ++ vs ∧ (vs = [] ↔ (str "*" ∈ f.vary ∨ f.BadMethod)) ∧
      ∀ v ∈ vs, vs = [v] ∧ (v.cls = .STORE_NO_STORE ↔ f.Has (str "no-store")) ∧
        (v.cls = .STORE_PRIVATE_CC ↔ ¬ f.Has (str "no-store") ∧ f.Has (str "private")) ∧
        (v.cls = .STORE_PRIVATE_AUTH ↔ ¬ f.Has (str "no-store") ∧ ¬ f.Has (str "private") ∧ f.AuthOnly) ∧
        (v.cls = .STORE_UNSTORABLE ↔ ¬ f.Has (str "no-store") ∧ ¬ f.StorageReason) := by
  obtain ⟨i, st, w, hm, hrun, hw, hc, hreq, hq, hcase⟩ := finished hr hk h hf
  refine ⟨sel isStore w.notes, hq _ isStore_cache, ?_⟩
  have key : str "*" ∉ f.vary → sel isStore w.notes = sel isStore (i.checkStorable {}).2.1.notes →
      (sel isStore w.notes = [] ↔ (str "*" ∈ f.vary ∨ f.BadMethod)) ∧ ∀ v ∈ sel isStore w.notes, sel isStore w.notes = [v] ∧
        (v.cls = .STORE_NO_STORE ↔ f.Has (str "no-store")) ∧
        (v.cls = .STORE_PRIVATE_CC ↔ ¬ f.Has (str "no-store") ∧ f.Has (str "private")) ∧
        (v.cls = .STORE_PRIVATE_AUTH ↔ ¬ f.Has (str "no-store") ∧ ¬ f.Has (str "private") ∧ f.AuthOnly) ∧
        (v.cls = .STORE_UNSTORABLE ↔ ¬ f.Has (str "no-store") ∧ ¬ f.StorageReason) := by
    intro hv e
    rw [e]
    by_cases hb : f.BadMethod
    · rcases badMethod_cases hm with ⟨_, r, me, e', _⟩ | ⟨hb', _⟩
      · have : sel isStore (i.checkStorable {}).2.1.notes = [] := by unfold CacheIn.checkStorable; rw [e']; rfl
        rw [this]
        exact ⟨⟨fun _ => .inr hb, fun _ => rfl⟩, by simp⟩
      · exact absurd hb hb'
    · obtain ⟨v, e', hv1⟩ := storable_notes hm hb
      rw [e']
      refine ⟨⟨fun e => (nomatch e), fun e => (e.elim hv hb).elim⟩, ?_⟩
      intro v' hv'
      rw [List.mem_singleton.1 hv']
      exact ⟨rfl, hv1⟩
  rcases hcase with ⟨hv, _, h2, h3⟩ | ⟨hv, h1, ⟨hns, h4, h5, h6⟩ | ⟨hs, l, _, _, _, h7, ⟨b, ha, hb, _⟩, h8⟩⟩
  · rw [h2]
    exact ⟨⟨fun _ => .inl hv, fun _ => rfl⟩, by simp [sel]⟩
  · refine key hv ?_
    rw [h6, sel_append, basic_quiet i rfl rfl, List.nil_append]
  · refine key hv ?_
    have hfr : ∀ c, isFreshness c = true → isStore c = false := by
      intro c hc; unfold isFreshness at hc; split at hc <;> first | rfl | exact nomatch hc
    have hst : ∀ c, isStale c = true → isStore c = false := by
      intro c hc; unfold isStale at hc; split at hc <;> first | rfl | exact nomatch hc
    rw [h8, sel_append, sel_append, sel_append, sel_append, basic_quiet i rfl rfl, List.nil_append,
      age_quiet ha hb _ rfl, freshness_quiet i l _ hfr rfl rfl]
    have : sel isStore (if (i.freshnessNotes l f.currentAge).res = .ok true then (i.checkStale l f.currentAge).notes else []) = [] := by
      split
      · exact stale_quiet i l _ hst rfl
      · rfl
    rw [this]
    simp

/-- **C35** in part: when the response's note says that it cannot be stored because of `no-store`, or only by private
caches, the flags agree.  For STORE_UNSTORABLE and STORE_STORABLE_SHARED_ONLY the property is false of the code:
`C35_unstorable_flags_stay_on` and `C35_shared_only_flag_stays_on`. -/
theorem C35_flags_agree_partial (hr : Reachable env m) (hk : m.kind = .response) (h : Finishes env related co ts m m' rn)
    (hf : FactsOf m related f) {v : Note} {st : Caching} (hst : m'.caching = some st)
    (hv : sel isStore m'.notes = sel isStore m.notes ++ [v]) :
    (v.cls = .STORE_NO_STORE → st.storePrivate = false ∧ st.storeShared = false) ∧
    (v.cls = .STORE_PRIVATE_CC ∨ v.cls = .STORE_PRIVATE_AUTH → st.storeShared = false) := by
  obtain ⟨st', h1, h2, h3⟩ := C35_flags hr hk h hf
  rw [hst] at h1
  cases h1
  obtain ⟨vs, e, _, h4⟩ := store_note hr hk h hf
  rw [e, List.append_cancel_left_eq] at hv
  subst hv
  obtain ⟨_, a1, a2, a3, _⟩ := h4 v (List.mem_singleton.2 rfl)
  refine ⟨fun c => ?_, fun c => ?_⟩
  · have := a1.1 c
    exact ⟨h2.2 (.inr (.inr this)), h3.2 (.inl (.inr (.inr this)))⟩
  · rcases c with c | c
    · exact h3.2 (.inr (.inl (a2.1 c).2))
    · exact h3.2 (.inr (.inr (a3.1 c).2.2))

/-- **C36**: for a response that may be stored, `caching.age` is RFC 9111's corrected initial age, and CURRENT_AGE is
added exactly when that is at least one second. -/
theorem C36_age (hr : Reachable env m) (hk : m.kind = .response) (h : Finishes env related co ts m m' rn)
    (hf : FactsOf m related f) (hs : f.Stored) :
    ∃ st, m'.caching = some st ∧ st.age = max f.apparentAge (f.age.getD 0 + f.responseDelay) ∧
      (sel (· == .CURRENT_AGE) m'.notes).length = (sel (· == .CURRENT_AGE) m.notes).length + (if st.age ≥ 1 then 1 else 0) := by
  obtain ⟨i, st, w, hm, hrun, hw, hc, hreq, hq, hcase⟩ := finished hr hk h hf
  refine ⟨st, hc, ?_⟩
  rcases hcase with ⟨hv, _⟩ | ⟨hv, h1, ⟨hns, _⟩ | ⟨_, l, _, _, _, h7, ⟨b, ha, hb, em⟩, h8⟩⟩
  · exact absurd (.inl hv) hs.1
  · exact absurd hs hns
  · have e : st.age = f.currentAge := by rw [h7]
    refine ⟨e, ?_⟩
    have hfr : ∀ c, isFreshness c = true → (c == .CURRENT_AGE) = false := by
      intro c hc; unfold isFreshness at hc; split at hc <;> first | rfl | exact nomatch hc
    have hst : ∀ c, isStale c = true → (c == .CURRENT_AGE) = false := by
      intro c hc; unfold isStale at hc; split at hc <;> first | rfl | exact nomatch hc
    have hso : ∀ c, isStore c = true → (c == .CURRENT_AGE) = false := by
      intro c hc; unfold isStore at hc; split at hc <;> first | rfl | exact nomatch hc
    have hca : CacheOnly (· == .CURRENT_AGE) := by
      intro c hc; rw [eq_of_beq hc]; rfl
    have : sel (· == .CURRENT_AGE) (if (i.freshnessNotes l f.currentAge).res = .ok true then (i.checkStale l f.currentAge).notes else []) = [] := by
      split
      · exact stale_quiet i l _ hst rfl
      · rfl
    rw [hq _ hca, h8, sel_append, sel_append, sel_append, sel_append, basic_quiet i rfl rfl, storable_quiet i hso rfl,
      freshness_quiet i l _ hfr rfl rfl, this, age_notes ha hb, em, e, List.length_append]
    congr 1
    split <;> rfl

/-- **C37**: the freshness lifetimes follow RFC 9111's precedence. -/
theorem C37_lifetimes (hr : Reachable env m) (hk : m.kind = .response) (h : Finishes env related co ts m m' rn)
    (hf : FactsOf m related f) (hs : f.Stored) :
    ∃ st, m'.caching = some st ∧ st.lifetimeShared = f.lifetimeShared ∧ st.lifetimePrivate = f.lifetimePrivate := by
  obtain ⟨i, st, w, hm, hrun, hw, hc, hreq, hq, hcase⟩ := finished hr hk h hf
  refine ⟨st, hc, ?_⟩
  rcases hcase with ⟨hv, _⟩ | ⟨hv, h1, ⟨hns, _⟩ | ⟨_, l, _, _, _, h7, _⟩⟩
  · exact absurd (.inl hv) hs.1
  · exact absurd hs hns
  · rw [h7]; exact ⟨rfl, rfl⟩

/-- **C38**: a response that may be stored gets exactly one freshness verdict, the right one; any other gets none. -/
theorem C38_one_freshness_verdict (hr : Reachable env m) (hk : m.kind = .response)
    (h : Finishes env related co ts m m' rn) (hf : FactsOf m related f) :
    (f.Stored → ∃ v, sel isFreshness m'.notes = sel isFreshness m.notes ++ [v] ∧ FreshnessVerdict f v.cls) ∧
    (¬ f.Stored → sel isFreshness m'.notes = sel isFreshness m.notes) := by
  obtain ⟨i, st, w, hm, hrun, hw, hc, hreq, hq, hcase⟩ := finished hr hk h hf
  rw [hq _ isFreshness_cache]
  have hso : ∀ c, isStore c = true → isFreshness c = false := by
    intro c hc; unfold isStore at hc; split at hc <;> first | rfl | exact nomatch hc
  have hst : ∀ c, isStale c = true → isFreshness c = false := by
    intro c hc; unfold isStale at hc; split at hc <;> first | rfl | exact nomatch hc
  rcases hcase with ⟨hv, _, h2, _⟩ | ⟨hv, h1, ⟨hns, h4, h5, h6⟩ | ⟨hs, l, l1, l2, l3, h7, ⟨b, ha, hb, em⟩, h8⟩⟩
  · refine ⟨fun hs => absurd (.inl hv) hs.1, fun _ => ?_⟩
    rw [h2]; exact List.append_nil _
  · refine ⟨fun hs => absurd hs hns, fun _ => ?_⟩
    rw [h6, sel_append, basic_quiet i rfl rfl, storable_quiet i hso rfl]
    exact List.append_nil _
  · refine ⟨fun _ => ?_, fun hns => absurd hs hns⟩
    obtain ⟨⟨v, e, hv⟩, _⟩ := freshness_spec hm l1 l2 l3
    refine ⟨v, ?_, hv⟩
    have : sel isFreshness (if (i.freshnessNotes l f.currentAge).res = .ok true then (i.checkStale l f.currentAge).notes else []) = [] := by
      split
      · exact stale_quiet i l _ hst rfl
      · rfl
    rw [h8, sel_append, sel_append, sel_append, sel_append, basic_quiet i rfl rfl, storable_quiet i hso rfl,
      age_quiet ha hb _ rfl, this, e]
    rfl

/-- **C39**: a response that may be stored and used without validation gets at most one verdict on being served
stale, the right one; any other gets none. -/
theorem C39_stale_verdict (hr : Reachable env m) (hk : m.kind = .response)
    (h : Finishes env related co ts m m' rn) (hf : FactsOf m related f) :
    ∃ vs, sel isStale m'.notes = sel isStale m.notes ++ vs ∧
      (f.Stored ∧ ¬ f.Has (str "no-cache") → StaleVerdict f (vs.map (·.cls))) ∧
      (¬ (f.Stored ∧ ¬ f.Has (str "no-cache")) → vs = []) := by
  obtain ⟨i, st, w, hm, hrun, hw, hc, hreq, hq, hcase⟩ := finished hr hk h hf
  refine ⟨_, hq _ isStale_cache, ?_⟩
  have hso : ∀ c, isStore c = true → isStale c = false := by
    intro c hc; unfold isStore at hc; split at hc <;> first | rfl | exact nomatch hc
  have hfr : ∀ c, isFreshness c = true → isStale c = false := by
    intro c hc; unfold isFreshness at hc; split at hc <;> first | rfl | exact nomatch hc
  rcases hcase with ⟨hv, _, h2, _⟩ | ⟨hv, h1, ⟨hns, h4, h5, h6⟩ | ⟨hs, l, l1, l2, l3, h7, ⟨b, ha, hb, em⟩, h8⟩⟩
  · refine ⟨fun hs => absurd (.inl hv) hs.1.1, fun _ => ?_⟩
    rw [h2]; rfl
  · refine ⟨fun hs => absurd hs.1 hns, fun _ => ?_⟩
    rw [h6, sel_append, basic_quiet i rfl rfl, storable_quiet i hso rfl]
    rfl
  · obtain ⟨_, hres⟩ := freshness_spec hm l1 l2 l3
    rw [h8, sel_append, sel_append, sel_append, sel_append, basic_quiet i rfl rfl, storable_quiet i hso rfl,
      age_quiet ha hb _ rfl, freshness_quiet i l _ hfr rfl rfl]
    by_cases hnc : f.Has (str "no-cache")
    · rw [if_neg fun e => hres.1 e hnc]
      exact ⟨fun x => absurd hnc x.2, fun _ => rfl⟩
    · rw [if_pos (hres.2 hnc)]
      exact ⟨fun _ => stale_spec hm l1 l2 l3, fun x => absurd ⟨hs, hnc⟩ x⟩

/-- **C40**: finishing a message changes no parsed header and no header line of it, and adds nothing to the request but
STORE_METHOD_UNCACHEABLE, once, exactly when the request's method makes the response uncacheable (and the response
does not have `Vary: *`). -/
theorem C40_only_what_it_owns (hr : Reachable env m) (hk : m.kind = .response)
    (h : Finishes env related co ts m m' rn) (hf : FactsOf m related f) :
    m'.headers = m.headers ∧ m'.statusCode = m.statusCode ∧ m'.contentLength = m.contentLength ∧
      (str "*" ∉ f.vary ∧ f.BadMethod → ∃ n, rn = [n] ∧ n.cls = .STORE_METHOD_UNCACHEABLE ∧ n.subject = str "method" ∧
        dget n.vars (str "method") = f.method.map .str) ∧
      (¬ (str "*" ∉ f.vary ∧ f.BadMethod) → rn = []) := by
  have hv := finish_view hr.good h
  refine ⟨?_, ?_, ?_, ?_⟩
  · obtain ⟨_, _, _, _, _, _, rfl⟩ := hv; rfl
  · obtain ⟨_, _, _, _, _, _, rfl⟩ := hv; rfl
  · obtain ⟨_, _, _, _, _, _, rfl⟩ := hv; rfl
  · obtain ⟨i, st, w, hm, hrun, hw, hc, hreq, hq, hcase⟩ := finished hr hk h hf
    rcases hcase with ⟨hv, _, _, h3⟩ | ⟨hv, h1, _⟩
    · exact ⟨fun x => absurd hv x.1, fun _ => h3⟩
    · rw [h1]
      rcases badMethod_cases hm with ⟨hb, r, me, e, e1, e2⟩ | ⟨hb, e⟩
      · refine ⟨fun _ => ?_, fun x => absurd ⟨hv, hb⟩ x⟩
        unfold CacheIn.checkStorable
        rw [e]
        refine ⟨_, rfl, rfl, rfl, ?_⟩
        have hme : f.method = some me := by rw [hf.method, ← hreq, e1]; exact e2
        rw [hme, dget_mk1_nobase rfl]
        rfl
      · refine ⟨fun x => absurd x.2 hb, fun _ => ?_⟩
        unfold CacheIn.checkStorable
        rw [e]
        dsimp only
        repeat' (first | rfl | split)
end

end HL.Props
