import Verif.Props.CacheSpec

/-!
# How the caching checker's inputs relate to the facts
-/

namespace HL.Props

/-- an integer, or `None` -/
def intVal : Option Int → Val
  | some d => .int d
  | none => .none

/-- the checker's inputs say what the facts say -/
structure Matches (i : CacheIn) (f : Facts) : Prop where
  has : ∀ d, i.has d = true ↔ f.Has d
  star : i.vary.contains (.str (str "*")) = .ok (decide (str "*" ∈ f.vary))
  age : i.age = .int (f.age.getD 0) ∨ (i.age = .none ∧ f.age = none)
  date : i.date = intVal f.date
  expires : i.expires = intVal f.expires
  sent : i.names.contains (str "expires") = f.expiresSent
  valid : (i.lm = .none ∧ i.etag = .none) ↔ f.validator = false
  bad : i.badMethod.isSome = true ↔ f.BadMethod
  auth : i.authorized = f.authorized
  heur : i.heuristic = true ↔ f.HeuristicStatus
  maxage : dget i.cc (str "max-age") = (f.value (str "max-age")).map .int
  smaxage : dget i.cc (str "s-maxage") = (f.value (str "s-maxage")).map .int
  reqTime : i.requestTime = f.requestTime
  respTime : i.responseTime = f.responseTime

theorem foldlM_pairs (ds : List (Str × Val)) (acc : Dict Val) :
    (ds.map fun p => Val.tuple [.str p.1, p.2]).foldlM (m := Except Exn) (fun d x => do
      let (k, y) ← x.unpack2
      return dset d (k.text?.getD []) y) acc = .ok (dupdate acc ds) := by
  induction ds generalizing acc with
  | nil => rfl
  | cons p ds ih =>
    rw [List.map_cons, List.foldlM_cons]
    exact ih (dset acc p.1 p.2)

theorem toDict_pairs (ds : List (Str × Val)) :
    (Val.list (ds.map fun p => Val.tuple [.str p.1, p.2])).toDict = .ok (dupdate [] ds) := by
  unfold Val.toDict
  exact foldlM_pairs ds []

theorem dget_find {β} (d : Dict β) (k : Str) : dget d k = (d.find? fun p => p.1 = k).map (·.2) := by
  induction d with
  | nil => rfl
  | cons p d ih =>
    rw [dget_cons, List.find?_cons]
    by_cases h : p.1 = k
    · simp [h]
    · simp [h, ih]

theorem value_eq (f : Facts) (d : Str) (h : ∀ p ∈ f.directives, p.1 = d → ∃ n, p.2 = .int n) :
    dget (dupdate [] f.directives) d = (f.value d).map .int := by
  rw [dget_dupdate, dget_find]
  unfold Facts.value
  cases hf : f.directives.reverse.find? (fun p => p.1 = d) with
  | none => rfl
  | some p =>
    have hm := List.mem_of_find?_eq_some hf
    have hp := List.find?_some hf
    obtain ⟨n, hn⟩ := h p (List.mem_reverse.1 hm) (by simpa using hp)
    obtain ⟨a, b⟩ := p
    dsimp only at hn
    subst hn
    rfl

theorem getD_hasInt {m : Msg} {name : Str} {x : Option Int} (h : HasInt m name x) :
    m.headers.getD name .none = intVal x := by
  unfold Section.getD
  cases h with
  | absent h => rw [h]; rfl
  | invalid h => rw [h]; rfl
  | valid n h => rw [h]; rfl

theorem getD_age {m : Msg} {x : Option Int} (h : HasInt m (str "age") x) :
    m.headers.getD (str "age") (.int 0) = .int (x.getD 0) ∨ (m.headers.getD (str "age") (.int 0) = .none ∧ x = none) := by
  unfold Section.getD
  cases h with
  | absent h => rw [h]; exact .inl rfl
  | invalid h => rw [h]; exact .inr ⟨rfl, rfl⟩
  | valid n h => rw [h]; exact .inl rfl

theorem sent_iff (m : Msg) (name : Str) : m.headers.names.contains name = true ↔ Sent m name := by
  unfold Section.names Sent
  simp

theorem bool_eq_of_iff {a b : Bool} (h : a = true ↔ b = true) : a = b := by
  cases a <;> cases b <;> simp_all

theorem matches_of {env m related} {f : Facts} {i : CacheIn} (hf : FactsOf m related f)
    (hi : cacheInputs ⟨env, m, related⟩ = .ok i) : Matches i f := by
  obtain ⟨cc, hcc, rfl⟩ := cacheInputs_ok hi
  have hcc' : cc = dupdate [] f.directives := by
    have : (m.headers.getD (str "cache-control") (.list [])).toDict = .ok (dupdate [] f.directives) := by
      unfold Section.getD
      rcases hf.directives with ⟨h, e⟩ | h
      · rw [h, e]; rfl
      · rw [h]; exact toDict_pairs _
    exact (Except.ok.inj (hcc.symm.trans this))
  subst hcc'
  constructor
  · intro d
    show dhas (dupdate [] f.directives) d = true ↔ _
    rw [dhas_dupdate]
    simp only [dhas, List.any_nil, Bool.or_false, List.any_eq_true, beq_iff_eq, Facts.Has, Prod.exists]
    exact ⟨fun ⟨a, b, h, e⟩ => ⟨b, e ▸ h⟩, fun ⟨v, h⟩ => ⟨d, v, h, rfl⟩⟩
  · show (m.headers.getD (str "vary") (.set [])).contains _ = _
    have : (m.headers.getD (str "vary") (.set [])).contains (.str (str "*")) =
        (Val.list (f.vary.map .str)).contains (.str (str "*")) := by
      unfold Section.getD
      rcases hf.vary with ⟨h, e⟩ | h
      · rw [h, e]; rfl
      · rw [h]; rfl
    rw [this]
    show Except.ok _ = _
    congr 1
    refine bool_eq_of_iff ?_
    simp only [List.any_map, List.any_eq_true, decide_eq_true_eq]
    refine ⟨fun ⟨x, hx, h⟩ => ?_, fun h => ⟨_, h, ?_⟩⟩
    · have h : (str "*" == x) = true := h
      exact (beq_iff_eq.1 h) ▸ hx
    · exact beq_self_eq_true (str "*")
  · exact getD_age hf.age
  · exact getD_hasInt hf.date
  · exact getD_hasInt hf.expires
  · exact bool_eq_of_iff ((sent_iff m _).trans hf.expiresSent.symm)
  · have hv := hf.validator
    show (m.headers.getD (str "last-modified") .none = .none ∧ m.headers.getD (str "etag") .none = .none) ↔ _
    have key : ∀ n, m.headers.getD n .none = .none ↔ ¬ ∃ v, dget m.headers.parsed n = some v ∧ v ≠ .none := by
      intro n
      unfold Section.getD
      cases dget m.headers.parsed n with
      | none => simp
      | some v => simp
    rw [key, key]
    rw [← Bool.not_eq_true, hv]
    simp only [List.mem_cons, List.not_mem_nil, or_false, exists_eq_or_imp, exists_eq_left]
    exact ⟨fun ⟨a, b⟩ => fun h => h.elim a b, fun h => ⟨fun a => h (.inl a), fun a => h (.inr a)⟩⟩
  · unfold Facts.BadMethod
    rw [hf.method]
    show (CacheIn.badMethod _).isSome = true ↔ _
    unfold CacheIn.badMethod Ctx.request
    cases related with
    | none => simp
    | some r =>
      dsimp only [Option.bind]
      cases r.method with
      | none => simp
      | some me =>
        simp only [Option.some.injEq, exists_eq_left']
        by_cases h : me = []
        · simp [h]
        · by_cases h1 : me = str "GET"
          · subst h1; simp [cacheableMethods]
          · by_cases h2 : me = str "HEAD"
            · subst h2; simp [cacheableMethods]
            · simp [h, h1, h2, cacheableMethods]
  · refine bool_eq_of_iff (Iff.trans ?_ hf.authorized.symm)
    show CacheIn.authorized _ = true ↔ _
    unfold CacheIn.authorized Ctx.request
    cases related with
    | none => simp
    | some r =>
      dsimp only
      rw [sent_iff]
      simp
  · show CacheIn.heuristic _ = true ↔ _
    unfold CacheIn.heuristic Facts.HeuristicStatus
    rw [hf.status]
    cases m.statusCode with
    | none => simp
    | some s =>
      rw [List.contains_iff_mem]
      exact ⟨fun h => ⟨s, h, rfl⟩, fun ⟨t, h, e⟩ => (Option.some.inj e) ▸ h⟩
  · exact value_eq f _ fun p hp h => hf.integers p hp (.inl h)
  · exact value_eq f _ fun p hp h => hf.integers p hp (.inr h)
  · exact hf.requestTime.symm
  · exact hf.responseTime.symm

/-! ### a finished response and the run of the checker -/

/-- classes of cache.py only -/
def CacheOnly (q : NoteId → Bool) : Prop := ∀ c, q c = true → c.origin = .cache

theorem finish_cache {env related co ts} {m m' : Msg} {rn} (hr : Reachable env m) (hk : m.kind = .response)
    (h : Finishes env related co ts m m' rn) :
    ∃ i st w, cacheInputs ⟨env, m, related⟩ = .ok i ∧ i.run = (st, w, rn) ∧ w.res = .ok () ∧ m'.caching = some st ∧
      ∀ q, CacheOnly q → sel q m'.notes = sel q m.notes ++ sel q w.notes := by
  have hg := hr.good
  obtain ⟨_, _, _, _, _, _, hc, hs, hrn⟩ := finish_response env related co ts m m' rn hg hk h
  have hv : ∀ q, CacheOnly q → sel q m'.notes = sel q m.notes ++ sel q (cacheCheck ⟨env, m, related⟩).2.1.notes := by
    intro q hq
    rw [finish_verdicts hg hk h (q := q), verdicts_cache hg.mt hq]
    intro c ho
    cases e : q c with
    | false => rfl
    | true => rcases ho with ho | ho <;> (rw [hq c e] at ho; exact nomatch ho)
  rw [hc] at hs
  rw [hc]
  unfold cacheCheck at *
  cases hi : cacheInputs ⟨env, m, related⟩ with
  | error e => rw [hi] at hs; exact nomatch hs
  | ok i =>
    rw [hi] at hs hv hrn
    dsimp only at hs hv hrn ⊢
    generalize hrun : i.run = r at *
    obtain ⟨st, w, rn'⟩ := r
    dsimp only at hs hv hrn ⊢
    cases hw : w.res with
    | error e => rw [hw] at hs; exact nomatch hs
    | ok u => exact ⟨i, st, w, rfl, by rw [hrun, hrn], hw, rfl, hv⟩

/-- the ways in which a run of the checker can end without an exception -/
theorem run_cases {i : CacheIn} {st w rn} (h : i.run = (st, w, rn)) (hw : w.res = .ok ()) :
    (i.vary.contains (.str (str "*")) = .ok true ∧ st = CacheIn.noStore {} ∧ w.notes = [] ∧ rn = []) ∨
    (i.vary.contains (.str (str "*")) = .ok false ∧ rn = (i.checkStorable {}).2.2 ∧
      (((i.checkStorable {}).2.1.res = .ok false ∧ st = (i.checkStorable {}).1 ∧
        w.notes = (i.checkBasic {}).2.notes ++ (i.checkStorable {}).2.1.notes) ∨
       ((i.checkStorable {}).2.1.res = .ok true ∧ ∃ a b l, i.apparentAge = .ok a ∧ i.correctedAge = .ok b ∧
        i.lifetimes = .ok l ∧
        st = { (i.checkStorable {}).1 with age := max a b, lifetimePrivate := l.priv, lifetimeShared := l.shared } ∧
        w.notes = (i.checkBasic {}).2.notes ++ (i.checkStorable {}).2.1.notes ++
          (i.checkAge (i.checkStorable {}).1).2.notes ++ (i.freshnessNotes l (max a b)).notes ++
          (if (i.freshnessNotes l (max a b)).res = .ok true then (i.checkStale l (max a b)).notes else [])))) := by
  unfold CacheIn.run at h
  cases hv : i.vary.contains (.str (str "*")) with
  | error e =>
    have hb : i.checkBasic {} = ({}, W.throw e) := by unfold CacheIn.checkBasic; rw [hv]
    rw [hb] at h
    simp [W.throw] at h
    obtain ⟨_, rfl, _⟩ := h
    exact nomatch hw
  | ok b =>
    cases b with
    | true =>
      have hb : i.checkBasic {} = (CacheIn.noStore {}, pure false) := by unfold CacheIn.checkBasic; rw [hv]
      rw [hb] at h
      simp at h
      obtain ⟨rfl, rfl, rfl⟩ := h
      exact .inl ⟨rfl, rfl, rfl, rfl⟩
    | false =>
      right
      have hb1 : (i.checkBasic {}).1 = {} := by unfold CacheIn.checkBasic; rw [hv]
      have hb2 : (i.checkBasic {}).2.res = .ok true := by
        unfold CacheIn.checkBasic; rw [hv]
        simp only [W.when]
        split <;> (try split) <;> rfl
      refine ⟨rfl, ?_⟩
      generalize i.checkBasic {} = bb at *
      obtain ⟨b1, b2⟩ := bb
      dsimp only at hb1 hb2 h ⊢
      subst hb1
      rw [hb2] at h
      dsimp only at h
      generalize i.checkStorable {} = ss at *
      obtain ⟨s1, s2, s3⟩ := ss
      dsimp only at h ⊢
      cases hs : s2.res with
      | error e =>
        rw [hs] at h; simp at h; obtain ⟨_, rfl, _⟩ := h; exact nomatch hw
      | ok b =>
        rw [hs] at h
        cases b with
        | false =>
          simp at h
          obtain ⟨rfl, rfl, rfl⟩ := h
          exact ⟨rfl, .inl ⟨rfl, rfl, rfl⟩⟩
        | true =>
          dsimp only at h
          have hca : ∀ e, i.checkAge s1 = (s1, W.throw e) → False := by
            intro e he
            rw [he] at h; simp [W.throw] at h; obtain ⟨_, rfl, _⟩ := h; exact nomatch hw
          cases ha : i.apparentAge with
          | error e => exact (hca e (by unfold CacheIn.checkAge; rw [ha])).elim
          | ok a =>
            cases hc : i.correctedAge with
            | error e => exact (hca e (by unfold CacheIn.checkAge; rw [ha, hc])).elim
            | ok b =>
              have hc1 : (i.checkAge s1).1 = { s1 with age := max a b } := by unfold CacheIn.checkAge; rw [ha, hc]
              have hc2 : (i.checkAge s1).2.res = .ok true := by
                unfold CacheIn.checkAge; rw [ha, hc]
                simp only [W.when]
                split <;> rfl
              generalize i.checkAge s1 = cc at *
              obtain ⟨c1, c2⟩ := cc
              dsimp only at h hc1 hc2 ⊢
              subst hc1
              rw [hc2] at h
              dsimp only at h
              cases hl : i.lifetimes with
              | error e => rw [hl] at h; simp at h; obtain ⟨_, rfl, _⟩ := h; exact nomatch hw
              | ok l =>
                rw [hl] at h
                dsimp only at h
                cases hff : (i.freshnessNotes l (max a b)).res with
                | error e => rw [hff] at h; simp at h; obtain ⟨_, rfl, _⟩ := h; exact nomatch hw
                | ok b =>
                  rw [hff] at h
                  cases b with
                  | false =>
                    simp at h
                    obtain ⟨rfl, rfl, rfl⟩ := h
                    exact ⟨rfl, .inr ⟨rfl, a, _, l, rfl, rfl, rfl, rfl, by simp [hff, List.append_assoc]⟩⟩
                  | true =>
                    simp at h
                    obtain ⟨rfl, rfl, rfl⟩ := h
                    exact ⟨rfl, .inr ⟨rfl, a, _, l, rfl, rfl, rfl, rfl, by simp [hff, List.append_assoc]⟩⟩

end HL.Props
