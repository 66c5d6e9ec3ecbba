import Verif.Props.Chunks

/-!
# C122: the order of the calls on the two linters of an exchange
-/

namespace HL.Props

/-! ### what a check can see of the related message, and of the list of notes -/

/-- the parts of a request that checks of its response look at -/
def glance (r : Msg) : Msg :=
  { kind := r.kind, defaults := r.defaults, startTime := r.startTime, method := r.method, uri := r.uri, headers := r.headers }

/-- the same linter with other notes -/
def withNotes (ns : List Note) (m : Msg) : Msg := { m with notes := ns }

/-- Strict-Transport-Security is judged by the notes its lines have got: what it looks for is the same in both lists. -/
def HstsAlike (a b : List Note) : Prop :=
  a.any (fun n => F.hstsInvalidating.contains n.cls) = b.any (fun n => F.hstsInvalidating.contains n.cls)

section
variable {env : Env} {related : Option Msg} (ns : List Note) (m : Msg)

theorem contentEncoding_framed (add : AddNote) (v : Str) :
    F.content_encoding.parse ⟨env, withNotes ns m, related.map glance⟩ add v = F.content_encoding.parse ⟨env, m, related⟩ add v := by
  cases related with
  | none => rfl
  | some r =>
    have hi : Ctx.isRequest ⟨env, withNotes ns m, (some r).map glance⟩ = Ctx.isRequest ⟨env, m, some r⟩ := rfl
    have hr : Ctx.request ⟨env, withNotes ns m, (some r).map glance⟩ = some (glance r) := rfl
    have hr' : Ctx.request ⟨env, m, some r⟩ = some r := rfl
    have hk : (glance r).kind = r.kind := rfl
    have hh : (glance r).headers = r.headers := rfl
    unfold F.content_encoding.parse
    rw [hi, hr, hr']
    generalize Ctx.isRequest ⟨env, m, some r⟩ = b
    cases b
    · simp only [hk, hh]
    · rfl

theorem transferEncoding_framed (add : AddNote) (h : Handler) :
    F.transfer_encoding.evaluate ⟨env, withNotes ns m, related.map glance⟩ add h = F.transfer_encoding.evaluate ⟨env, m, related⟩ add h := by
  cases related with
  | none => rfl
  | some r =>
    have hi : Ctx.isRequest ⟨env, withNotes ns m, (some r).map glance⟩ = Ctx.isRequest ⟨env, m, some r⟩ := rfl
    have hr : Ctx.request ⟨env, withNotes ns m, (some r).map glance⟩ = some (glance r) := rfl
    have hr' : Ctx.request ⟨env, m, some r⟩ = some r := rfl
    have hk : (glance r).kind = r.kind := rfl
    have hh : (glance r).headers = r.headers := rfl
    unfold F.transfer_encoding.evaluate
    rw [hi, hr, hr']
    generalize Ctx.isRequest ⟨env, m, some r⟩ = b
    cases b
    · simp only [hk, hh]
    · rfl

variable {ns m} in
theorem hsts_framed (hN : HstsAlike ns m.notes) (add : AddNote) (h : Handler) :
    F.hsts.evaluate ⟨env, withNotes ns m, related.map glance⟩ add h = F.hsts.evaluate ⟨env, m, related⟩ add h := by
  have h1 : ∀ x kids, F.hsts.isValid ⟨env, withNotes ns m, related.map glance⟩ x kids = F.hsts.isValid ⟨env, m, related⟩ x kids := by
    intro x kids
    unfold F.hsts.isValid
    have : (Ctx.msg ⟨env, withNotes ns m, related.map glance⟩).notes.any (fun n => F.hstsInvalidating.contains n.cls) =
      m.notes.any (fun n => F.hstsInvalidating.contains n.cls) := hN
    rw [this]; rfl
  unfold F.hsts.evaluate
  simp only [h1]
  rfl

theorem badMethod_framed (i : CacheIn) :
    CacheIn.badMethod { i with request := i.request.map glance } = (i.badMethod).map fun x => (glance x.1, x.2) := by
  obtain ⟨add, request⟩ := i
  cases request with
  | none => rfl
  | some r =>
    unfold CacheIn.badMethod
    simp only [Option.map_some]
    have : (glance r).method = r.method := rfl
    rw [this]
    cases r.method with
    | none => rfl
    | some x => dsimp only; split <;> rfl

theorem storable_framed (i : CacheIn) (st : Caching) :
    CacheIn.checkStorable { i with request := i.request.map glance } st = i.checkStorable st := by
  unfold CacheIn.checkStorable
  rw [badMethod_framed]
  have ha : CacheIn.authorized { i with request := i.request.map glance } = i.authorized := by
    unfold CacheIn.authorized
    cases i.request <;> rfl
  cases i.badMethod with
  | some x => rfl
  | none =>
    simp only [Option.map_none]
    rw [ha]
    rfl

theorem cacheRun_framed (i : CacheIn) : CacheIn.run { i with request := i.request.map glance } = i.run := by
  unfold CacheIn.run
  have hb : CacheIn.checkBasic { i with request := i.request.map glance } {} = i.checkBasic {} := rfl
  rw [hb]
  simp only [storable_framed]
  rfl

theorem cacheInputs_framed : cacheInputs ⟨env, withNotes ns m, related.map glance⟩ =
    (cacheInputs ⟨env, m, related⟩).map fun i => { i with request := i.request.map glance } := by
  unfold cacheInputs
  have hm : (withNotes ns m).headers = m.headers := rfl
  simp only [hm]
  cases (m.headers.getD (str "cache-control") (.list [])).toDict with
  | error e => rfl
  | ok cc =>
    cases related <;> rfl

theorem parse_framed (h : Handler) (add : AddNote) (v : Str) :
    h.parse ⟨env, withNotes ns m, related.map glance⟩ add v = h.parse ⟨env, m, related⟩ add v := by
  unfold Handler.parse; split <;> first | rfl | (rw [contentEncoding_framed]) | (cases related <;> rfl)

theorem linkTokens_framed (lv : Str) (ts : List Str) :
    F.link.tokens ⟨env, withNotes ns m, related.map glance⟩ lv ts = F.link.tokens ⟨env, m, related⟩ lv ts := by
  induction ts with
  | nil => rfl
  | cons t ts ih => unfold F.link.tokens; rw [ih]; rfl

theorem linkHints_framed (xs : List Val) :
    F.link.hints ⟨env, withNotes ns m, related.map glance⟩ xs = F.link.hints ⟨env, m, related⟩ xs := by
  induction xs with
  | nil => rfl
  | cons x xs ih => unfold F.link.hints; simp only [ih, linkTokens_framed]

theorem link_framed (add : AddNote) (h : Handler) :
    F.link.evaluate ⟨env, withNotes ns m, related.map glance⟩ add h = F.link.evaluate ⟨env, m, related⟩ add h := by
  unfold F.link.evaluate; simp only [linkHints_framed]

theorem features_framed (xs : List (Val × Val)) :
    F.permissions_policy.features ⟨env, withNotes ns m, related.map glance⟩ xs = F.permissions_policy.features ⟨env, m, related⟩ xs := by
  induction xs with
  | nil => rfl
  | cons x xs ih => unfold F.permissions_policy.features; rw [ih]; rfl

theorem policy_framed (add : AddNote) (h : Handler) :
    F.permissions_policy.evaluate ⟨env, withNotes ns m, related.map glance⟩ add h = F.permissions_policy.evaluate ⟨env, m, related⟩ add h := by
  unfold F.permissions_policy.evaluate; simp only [features_framed]

variable {ns m} in
theorem evaluate_framed (hN : HstsAlike ns m.notes) (h : Handler) (add : AddNote) :
    h.evaluate ⟨env, withNotes ns m, related.map glance⟩ add = h.evaluate ⟨env, m, related⟩ add := by
  unfold Handler.evaluate; split <;> first
    | rfl
    | (rw [link_framed])
    | (rw [policy_framed])
    | (rw [hsts_framed hN])
    | (rw [transferEncoding_framed])
    | (cases related <;> rfl)

theorem acceptCh_framed (add : AddNote) (h : Handler) :
    F.accept_ch.postCheck ⟨env, withNotes ns m, related.map glance⟩ add h = F.accept_ch.postCheck ⟨env, m, related⟩ add h := by
  unfold F.accept_ch.postCheck
  simp only [acceptChMissing_rel (c := ⟨env, m, related⟩) (c' := ⟨env, withNotes ns m, related.map glance⟩) rfl]
  cases related <;> rfl

theorem postCheck_framed (h : Handler) (add : AddNote) (xs : List Note) :
    h.postCheck ⟨env, withNotes ns m, related.map glance⟩ add xs = h.postCheck ⟨env, m, related⟩ add xs := by
  unfold Handler.postCheck; split <;> first | rfl | (rw [acceptCh_framed]) | (cases related <;> rfl)

theorem listLoop_framed (add : AddNote) (vs : List Str) :
    ∀ h : Handler, h.listLoop ⟨env, withNotes ns m, related.map glance⟩ add vs = h.listLoop ⟨env, m, related⟩ add vs := by
  induction vs with
  | nil => intro h; rfl
  | cons v vs ih =>
    intro h
    unfold Handler.listLoop
    dsimp only
    rw [parse_framed]
    split
    · rfl
    · split
      · split
        · rw [ih]
        · rfl
      · split
        · rfl
        · rw [ih]

theorem handleInput_framed (h : Handler) (v : Str) (o : Nat) :
    h.handleInput ⟨env, withNotes ns m, related.map glance⟩ v o = h.handleInput ⟨env, m, related⟩ v o := by
  unfold Handler.handleInput
  dsimp only
  rw [listLoop_framed]
  rfl

variable {ns m} in
theorem evalAfter_framed (hN : HstsAlike ns m.notes) (add : AddNote) (xs : List Note) (h : Handler) :
    h.evalAfter ⟨env, withNotes ns m, related.map glance⟩ add xs = h.evalAfter ⟨env, m, related⟩ add xs := by
  unfold Handler.evalAfter; rw [evaluate_framed hN]

theorem brokenLoop_framed (rs : List (Str × Nat)) : ∀ (h : Handler) (acc : List Val),
    h.brokenLoop ⟨env, withNotes ns m, related.map glance⟩ rs acc = h.brokenLoop ⟨env, m, related⟩ rs acc := by
  induction rs with
  | nil => intro h acc; rfl
  | cons r rs ih =>
    intro h acc
    obtain ⟨raw, o⟩ := r
    unfold Handler.brokenLoop
    dsimp only
    simp only [parse_framed, ih]
    rfl

variable {ns m} in
theorem finish_framed (hN : HstsAlike ns m.notes) (add : AddNote) (h : Handler) :
    h.finish ⟨env, withNotes ns m, related.map glance⟩ add = h.finish ⟨env, m, related⟩ add := by
  unfold Handler.finish Handler.finishSingleton Handler.finishBroken Handler.finishSf Handler.finishJson
  simp only [parse_framed, brokenLoop_framed, evalAfter_framed hN]

theorem status_framed : Status.check ⟨env, withNotes ns m, related.map glance⟩ = Status.check ⟨env, m, related⟩ := by
  cases related <;> rfl
theorem cacheCheck_framed : cacheCheck ⟨env, withNotes ns m, related.map glance⟩ = cacheCheck ⟨env, m, related⟩ := by
  unfold cacheCheck
  rw [cacheInputs_framed]
  cases cacheInputs ⟨env, m, related⟩ with
  | error e => rfl
  | ok i => simp only [Except.map, cacheRun_framed]
theorem verifyContentType_framed : verifyContentType ⟨env, withNotes ns m, related.map glance⟩ = verifyContentType ⟨env, m, related⟩ := rfl
theorem verifyCharset_framed : verifyCharset ⟨env, withNotes ns m, related.map glance⟩ = verifyCharset ⟨env, m, related⟩ := rfl
theorem preflightResponse_framed (add : AddNote) :
    F.checkPreflightResponse ⟨env, withNotes ns m, related.map glance⟩ add = F.checkPreflightResponse ⟨env, m, related⟩ add := by
  cases related <;> rfl
theorem requestPostChecks_framed :
    requestPostChecks env (related.map glance) (withNotes ns m) = requestPostChecks env related m := by
  cases related <;> rfl
end

/-! ### whole calls -/

/-- a relation between lists of notes that linting does not disturb -/
structure Tolerant (K : List Note → List Note → Prop) : Prop where
  app : ∀ {a b} x, K a b → K (a ++ x) (b ++ x)
  hsts : ∀ {a b}, K a b → HstsAlike b a
  csp : ∀ kid {a b}, K a b → (F.addToFirstCsp kid a = none ∧ F.addToFirstCsp kid b = none) ∨
    ∃ a' b', F.addToFirstCsp kid a = some a' ∧ F.addToFirstCsp kid b = some b' ∧ K a' b'

/-- the same linter, but for notes that are related -/
def Alike (K : List Note → List Note → Prop) (m m' : Msg) : Prop := ∃ ns, K m.notes ns ∧ m' = withNotes ns m

/-- the same outcome, too -/
def RunAlike {α} (K : List Note → List Note → Prop) (r r' : Run α) : Prop := Alike K r.1 r'.1 ∧ r.2 = r'.2

section
variable {K : List Note → List Note → Prop} (hK : Tolerant K) {env : Env} {related : Option Msg}
include hK

theorem Alike.add {m m' : Msg} (h : Alike K m m') (x : List Note) : Alike K (m.addNotes x) (m'.addNotes x) := by
  obtain ⟨ns, hk, rfl⟩ := h
  exact ⟨ns ++ x, hK.app x hk, rfl⟩

omit hK in
theorem Alike.set {m m' : Msg} (h : Alike K m m') (t : Bool) (s : Section) : Alike K (m.setSection t s) (m'.setSection t s) := by
  obtain ⟨ns, hk, rfl⟩ := h
  cases t <;> exact ⟨ns, hk, rfl⟩

omit hK in
theorem Alike.section {m m' : Msg} (h : Alike K m m') (t : Bool) : m'.section t = m.section t := by
  obtain ⟨ns, hk, rfl⟩ := h
  rfl

theorem andThen_alike {α β} {r r' : Run α} {f f' : Msg → α → Run β} (h : RunAlike K r r')
    (hf : ∀ m m' a, Alike K m m' → RunAlike K (f m a) (f' m' a)) : RunAlike K (Run.andThen r f) (Run.andThen r' f') := by
  obtain ⟨m, x⟩ := r
  obtain ⟨m', x'⟩ := r'
  obtain ⟨h1, h2⟩ := h
  simp only at h1 h2
  subst h2
  cases x with
  | error e => exact ⟨h1, rfl⟩
  | ok a => exact hf m m' a h1

theorem runW_alike {α} {m m' : Msg} (h : Alike K m m') (w : W α) : RunAlike K (m.runW w) (m'.runW w) :=
  ⟨h.add hK _, rfl⟩

theorem processLine_alike {m m' : Msg} (h : Alike K m m') (t : Bool) (o : Nat) (l : Str × Str) :
    RunAlike K (processLine env related t m o l) (processLine env (related.map glance) t m' o l) := by
  obtain ⟨name, value⟩ := l
  have h0 := h
  obtain ⟨ns, hk, rfl⟩ := h
  rw [processLine_eq, processLine_eq]
  have hc : lineCheck t (withNotes ns m) o name = lineCheck t m o name := rfl
  have hm : ∃ ns', lineMid t (withNotes ns m) o name value = withNotes ns' (lineMid t m o name value) ∧ K (lineMid t m o name value).notes ns' := by
    have : Alike K (lineMid t m o name value) (lineMid t (withNotes ns m) o name value) := by
      unfold lineMid
      rw [hc]
      exact (h0.set t _).add hK _
    obtain ⟨ns', h1, h2⟩ := this
    exact ⟨ns', h2, h1⟩
  obtain ⟨ns', hm, hk'⟩ := hm
  have hi : lineInput env (related.map glance) t (withNotes ns m) o name value = lineInput env related t m o name value := by
    unfold lineInput; rw [hc, hm, handleInput_framed]
  rw [hc, hm, hi]
  split
  · exact ⟨⟨ns', hk', rfl⟩, rfl⟩
  · dsimp only
    have h1 := (h0.set t (recorded (m.section t) name value (lineInput env related t m o name value).1)).add hK
      (encNotes m o name value ++ (lineCheck t m o name).2.2 ++ (lineInput env related t m o name value).2.notes)
    split
    · exact ⟨h1, rfl⟩
    · exact ⟨h1.add hK _, rfl⟩

theorem processLines_alike (t : Bool) (ls : List (Str × Str)) : ∀ (o : Nat) (m m' : Msg), Alike K m m' →
    RunAlike K (processLines env related t ls o m) (processLines env (related.map glance) t ls o m') := by
  induction ls with
  | nil => intro o m m' h; exact ⟨h, rfl⟩
  | cons l ls ih =>
    intro o m m' h
    unfold processLines
    have h1 := processLine_alike hK (env := env) (related := related) h t o l
    revert h1
    generalize processLine env related t m o l = r
    generalize processLine env (related.map glance) t m' o l = r'
    obtain ⟨m1, x⟩ := r
    obtain ⟨m1', x'⟩ := r'
    rintro ⟨h1, h2⟩
    simp only at h1 h2
    subst h2
    cases x with
    | error e => exact ⟨h1, rfl⟩
    | ok o' => exact ih _ _ _ h1

theorem finishHandler_alike {m m' : Msg} (h : Alike K m m') (t : Bool) (k : Str) :
    RunAlike K (finishHandler env related t m k) (finishHandler env (related.map glance) t m' k) := by
  have h0 := h
  obtain ⟨ns, hk, rfl⟩ := h
  unfold finishHandler
  have hs : (withNotes ns m).section t = m.section t := rfl
  rw [hs]
  split
  · exact ⟨h0, rfl⟩
  · rename_i hd _
    have hf : (withNotes ns m).fieldAdder t hd = m.fieldAdder t hd := rfl
    dsimp only
    rw [hf, finish_framed (hK.hsts hk)]
    generalize hd.finish ⟨env, m, related⟩ (m.fieldAdder t hd) = r
    obtain ⟨h', w⟩ := r
    dsimp only
    have h1 := h0.add hK w.notes
    rw [h1.section t]
    have h2 := fun s => h1.set t s
    split
    · exact ⟨h2 _, rfl⟩
    · exact ⟨h2 _, rfl⟩

theorem finishHandlers_alike (t : Bool) (ks : List Str) : ∀ m m' : Msg, Alike K m m' →
    RunAlike K (finishHandlers env related t ks m) (finishHandlers env (related.map glance) t ks m') := by
  induction ks with
  | nil => intro m m' h; exact ⟨h, rfl⟩
  | cons k ks ih =>
    intro m m' h
    unfold finishHandlers
    have h1 := finishHandler_alike hK (env := env) (related := related) h t k
    revert h1
    generalize finishHandler env related t m k = r
    generalize finishHandler env (related.map glance) t m' k = r'
    obtain ⟨m1, x⟩ := r
    obtain ⟨m1', x'⟩ := r'
    rintro ⟨h1, h2⟩
    simp only at h1 h2
    subst h2
    cases x with
    | error e => exact ⟨h1, rfl⟩
    | ok u => exact ih _ _ h1

theorem processSection_alike {m m' : Msg} (h : Alike K m m') (t : Bool) (ls : List (Str × Str)) :
    RunAlike K (processSection env related t ls m) (processSection env (related.map glance) t ls m') := by
  unfold processSection
  have h1 := processLines_alike hK (env := env) (related := related) t ls 0 m m' h
  revert h1
  generalize processLines env related t ls 0 m = r
  generalize processLines env (related.map glance) t ls 0 m' = r'
  obtain ⟨m1, x⟩ := r
  obtain ⟨m1', x'⟩ := r'
  rintro ⟨h1, h2⟩
  simp only at h1 h2
  subst h2
  cases x with
  | error e => exact ⟨h1, rfl⟩
  | ok u =>
    have hn : sectionSizeNotes t m1' = sectionSizeNotes t m1 := by
      obtain ⟨ns, -, rfl⟩ := h1; cases t <;> rfl
    have h2 := h1.add hK (sectionSizeNotes t m1)
    have hs := h2.section t
    dsimp only
    rw [hn, hs]
    exact finishHandlers_alike hK t _ _ _ h2

theorem foldl_alike (xs : List Str) (f : List Note → Str → List Note) (hf : ∀ a b e, K a b → K (f a e) (f b e)) :
    ∀ a b, K a b → K (xs.foldl f a) (xs.foldl f b) := by
  induction xs with
  | nil => intro a b h; exact h
  | cons x xs ih => intro a b h; exact ih _ _ (hf a b x h)

theorem cspPost_alike (c : Ctx) (add : AddNote) (ro : F.ReportOnly) (hd : Handler) {a b : List Note} (h : K a b) :
    K (F.csp.postCheck c add ro hd a).1 (F.csp.postCheck c add ro hd b).1 ∧
      (F.csp.postCheck c add ro hd a).2 = (F.csp.postCheck c add ro hd b).2 := by
  unfold F.csp.postCheck
  split
  · exact ⟨h, rfl⟩
  · split
    · exact ⟨h, rfl⟩
    · refine ⟨foldl_alike hK _ _ (fun a b e h => ?_) _ _ h, rfl⟩
      dsimp only
      rcases hK.csp (.CSP_REPORT_TO_MISSING, [(str "endpoint", .str e), (str "report_only_text", .str ro.text)]) h with
        ⟨h1, h2⟩ | ⟨a', b', h1, h2, h3⟩
      · rw [h1, h2]
        exact hK.app _ h
      · rw [h1, h2]
        exact h3

theorem postCheck_alike (c : Ctx) (add : AddNote) (hd : Handler) {a b : List Note} (h : K a b) :
    K (hd.postCheck c add a).1 (hd.postCheck c add b).1 ∧ (hd.postCheck c add a).2 = (hd.postCheck c add b).2 := by
  unfold Handler.postCheck
  split
  all_goals first
    | exact ⟨hK.app _ h, rfl⟩
    | exact cspPost_alike hK _ _ _ _ h
    | exact ⟨h, rfl⟩

theorem postCheckHandlers_alike (t : Bool) (hs : List Handler) : ∀ m m' : Msg, Alike K m m' →
    RunAlike K (postCheckHandlers env related t hs m) (postCheckHandlers env (related.map glance) t hs m') := by
  induction hs with
  | nil => intro m m' h; exact ⟨h, rfl⟩
  | cons hd hs ih =>
    intro m m' h
    unfold postCheckHandlers
    split
    · exact ih m m' h
    · obtain ⟨ns, hk, rfl⟩ := h
      have hf : (withNotes ns m).fieldAdder t hd = m.fieldAdder t hd := rfl
      have hn : (withNotes ns m).notes = ns := rfl
      dsimp only
      rw [postCheck_framed, hf, hn]
      have h1 := postCheck_alike hK ⟨env, m, related⟩ (m.fieldAdder t hd) hd hk
      revert h1
      generalize hd.postCheck ⟨env, m, related⟩ (m.fieldAdder t hd) m.notes = r
      generalize hd.postCheck ⟨env, m, related⟩ (m.fieldAdder t hd) ns = r'
      obtain ⟨n1, x⟩ := r
      obtain ⟨n2, x'⟩ := r'
      rintro ⟨h1, h2⟩
      simp only at h1 h2
      subst h2
      have h3 : Alike K { m with notes := n1 } { withNotes ns m with notes := n2 } := ⟨n2, h1, rfl⟩
      cases x with
      | error e => exact ⟨h3, rfl⟩
      | ok u => exact ih _ _ h3

theorem responsePostChecks_alike {m m' : Msg} (h : Alike K m m') :
    RunAlike K (responsePostChecks env related m).1 (responsePostChecks env (related.map glance) m').1 ∧
      (responsePostChecks env related m).2 = (responsePostChecks env (related.map glance) m').2 := by
  unfold responsePostChecks
  have h0 : F.checkPreflightResponse ⟨env, m', related.map glance⟩ (m'.adder []) = F.checkPreflightResponse ⟨env, m, related⟩ (m.adder []) := by
    obtain ⟨ns, hk, rfl⟩ := h
    exact preflightResponse_framed ns m _
  rw [h0]
  have h1 := runW_alike hK h (F.checkPreflightResponse ⟨env, m, related⟩ (m.adder []))
  revert h1
  generalize m.runW _ = r
  generalize m'.runW _ = r'
  obtain ⟨m1, x⟩ := r
  obtain ⟨m1', x'⟩ := r'
  rintro ⟨h1, h2⟩
  simp only at h1 h2
  subst h2
  cases x with
  | error e => exact ⟨⟨h1, rfl⟩, rfl⟩
  | ok u =>
    dsimp only
    have hcc : cacheCheck ⟨env, m1', related.map glance⟩ = cacheCheck ⟨env, m1, related⟩ := by
      obtain ⟨ns, hk, rfl⟩ := h1
      exact cacheCheck_framed ns m1
    rw [hcc]
    generalize cacheCheck ⟨env, m1, related⟩ = cc
    obtain ⟨ca, w, rn⟩ := cc
    dsimp only
    refine ⟨?_, rfl⟩
    have key : ∀ m2 m2' : Msg, Alike K m2 m2' → RunAlike K (Run.andThen (m2.runW w) fun m _ =>
        Run.andThen (m.runW (Status.check ⟨env, m, related⟩)) fun m _ =>
          if m.noContent then (m, .ok ())
          else Run.andThen (m.runW (verifyContentType ⟨env, m, related⟩)) fun m _ =>
            m.runW (verifyCharset ⟨env, m, related⟩))
        (Run.andThen (m2'.runW w) fun m _ =>
        Run.andThen (m.runW (Status.check ⟨env, m, related.map glance⟩)) fun m _ =>
          if m.noContent then (m, .ok ())
          else Run.andThen (m.runW (verifyContentType ⟨env, m, related.map glance⟩)) fun m _ =>
            m.runW (verifyCharset ⟨env, m, related.map glance⟩)) := by
      intro m2 m2' h2
      refine andThen_alike hK (runW_alike hK h2 w) fun m3 m3' _ h3 => ?_
      have e3 : Status.check ⟨env, m3', related.map glance⟩ = Status.check ⟨env, m3, related⟩ := by
        obtain ⟨ns, hk, rfl⟩ := h3; exact status_framed ns m3
      rw [e3]
      refine andThen_alike hK (runW_alike hK h3 _) fun m4 m4' _ h4 => ?_
      have hn : m4'.noContent = m4.noContent := by obtain ⟨ns, hk, rfl⟩ := h4; rfl
      rw [hn]
      split
      · exact ⟨h4, rfl⟩
      · have e4 : verifyContentType ⟨env, m4', related.map glance⟩ = verifyContentType ⟨env, m4, related⟩ := by
          obtain ⟨ns, hk, rfl⟩ := h4; rfl
        rw [e4]
        refine andThen_alike hK (runW_alike hK h4 _) fun m5 m5' _ h5 => ?_
        have e5 : verifyCharset ⟨env, m5', related.map glance⟩ = verifyCharset ⟨env, m5, related⟩ := by
          obtain ⟨ns, hk, rfl⟩ := h5; rfl
        rw [e5]
        exact runW_alike hK h5 _
    cases ca with
    | none => exact key m1 m1' h1
    | some st =>
      refine key { m1 with caching := some st } { m1' with caching := some st } ?_
      obtain ⟨ns, hk, rfl⟩ := h1
      exact ⟨ns, hk, rfl⟩

theorem postChecks_alike {m m' : Msg} (h : Alike K m m') :
    RunAlike K (postChecks env related m).1 (postChecks env (related.map glance) m').1 ∧
      (postChecks env related m).2 = (postChecks env (related.map glance) m').2 := by
  unfold postChecks
  have hk : m'.kind = m.kind := by obtain ⟨ns, hk, rfl⟩ := h; rfl
  rw [hk]
  cases m.kind with
  | request =>
    have h0 : requestPostChecks env (related.map glance) m' = requestPostChecks env related m := by
      obtain ⟨ns, hk, rfl⟩ := h; exact requestPostChecks_framed ns m
    dsimp only
    rw [h0]
    exact ⟨runW_alike hK h _, rfl⟩
  | response => exact responsePostChecks_alike hK h

theorem finishContent_alike {m m' : Msg} (h : Alike K m m') (c : Bool) (ts : List (Str × Str)) :
    RunAlike K (m.finishContent env related c ts).1 (m'.finishContent env (related.map glance) c ts).1 ∧
      (m.finishContent env related c ts).2 = (m'.finishContent env (related.map glance) c ts).2 := by
  unfold Msg.finishContent
  dsimp only
  have h1 : Alike K { m with complete := c, contentHash := some (env.md5 m.hashed) }
      { m' with complete := c, contentHash := some (env.md5 m'.hashed) } := by
    obtain ⟨ns, hk, rfl⟩ := h; exact ⟨ns, hk, rfl⟩
  have h2 : RunAlike K (if ts.isEmpty then ({ m with complete := c, contentHash := some (env.md5 m.hashed) }, .ok ()) else processSection env related true ts { m with complete := c, contentHash := some (env.md5 m.hashed) } : Run Unit)
      (if ts.isEmpty then ({ m' with complete := c, contentHash := some (env.md5 m'.hashed) }, .ok ()) else processSection env (related.map glance) true ts { m' with complete := c, contentHash := some (env.md5 m'.hashed) } : Run Unit) := by
    split
    · exact ⟨h1, rfl⟩
    · exact processSection_alike hK h1 true ts
  revert h2
  generalize (if ts.isEmpty then _ else processSection env related true ts _ : Run Unit) = r
  generalize (if ts.isEmpty then _ else processSection env (related.map glance) true ts _ : Run Unit) = r'
  obtain ⟨m1, x⟩ := r
  obtain ⟨m1', x'⟩ := r'
  rintro ⟨h2, h3⟩
  simp only at h2 h3
  subst h3
  cases x with
  | error e => exact ⟨⟨h2, rfl⟩, rfl⟩
  | ok u =>
    dsimp only
    have h4 : Alike K (Msg.addNotes { m1 with decoded := { m1.decoded with hash := some (env.md5 m1.decoded.hashed) } }
        (lengthNotes { m1 with decoded := { m1.decoded with hash := some (env.md5 m1.decoded.hashed) } }))
      (Msg.addNotes { m1' with decoded := { m1'.decoded with hash := some (env.md5 m1'.decoded.hashed) } }
        (lengthNotes { m1' with decoded := { m1'.decoded with hash := some (env.md5 m1'.decoded.hashed) } })) := by
      obtain ⟨ns, hk, rfl⟩ := h2
      exact ⟨_, hK.app _ hk, rfl⟩
    have h5 := postChecks_alike hK (env := env) (related := related) h4
    revert h5
    generalize postChecks env related _ = pc
    generalize postChecks env (related.map glance) _ = pc'
    obtain ⟨r, rn⟩ := pc
    obtain ⟨r', rn'⟩ := pc'
    rintro ⟨h5, h6⟩
    simp only at h5 h6
    subst h6
    refine ⟨?_, rfl⟩
    dsimp only
    refine andThen_alike hK h5 fun m2 m2' _ h7 => ?_
    have e2 : m2'.headers = m2.headers := by obtain ⟨ns, hk, rfl⟩ := h7; rfl
    rw [e2]
    refine andThen_alike hK (postCheckHandlers_alike hK false _ _ _ h7) fun m3 m3' _ h8 => ?_
    have e3 : m3'.trailers = m3.trailers := by obtain ⟨ns, hk, rfl⟩ := h8; rfl
    rw [e3]
    exact postCheckHandlers_alike hK true _ _ _ h8
end

end HL.Props
