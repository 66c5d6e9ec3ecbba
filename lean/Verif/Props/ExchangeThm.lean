import Verif.Props.Exchange
import Verif.Props.Reach
import Verif.Props.Toy

/-!
# C122: the order of the calls on the two linters of an exchange

`response.request = request` (message.py:276-282) lets the checks of a response see its request; the two linters are
fed by whoever reads the two messages, and their calls may come in any order.
-/

namespace HL.Props

/-! ### the specification -/

/-- a request linter, and the linter of its response -/
structure Exchange where
  request : Msg
  response : Msg
  deriving DecidableEq

/-- a call on one of the two -/
inductive Turn where
  | request (op : Op)
  | response (op : Op)
  deriving DecidableEq

/-- what came of the calls: what those on the request linter returned, what those on the response linter returned,
and the notes that the latter added to the request -/
structure Outcome2 where
  request : List (Except Exn Unit) := []
  response : List (Except Exn Unit) := []
  added : List Note := []

/-- The calls, one after the other; whoever calls may go on after an exception.  No check of a request looks at its
response, so the request linter is given none. -/
def play (env : Env) : List Turn → Exchange → Exchange × Outcome2
  | [], x => (x, {})
  | .request op :: ts, x =>
    let c := op.run env ⟨x.request, none⟩
    let r := play env ts { x with request := c.1.msg }
    (r.1, { r.2 with request := c.2 :: r.2.request })
  | .response op :: ts, x =>
    let c := op.run env ⟨x.response, some x.request⟩
    let q := c.1.related.getD x.request
    let r := play env ts ⟨q, c.1.msg⟩
    (r.1, { r.2 with response := c.2 :: r.2.response, added := q.notes.drop x.request.notes.length ++ r.2.added })

/-- the calls on the request linter, in order -/
def callsOnRequest (ts : List Turn) : List Op := ts.filterMap fun | .request op => some op | .response _ => none

/-- the calls on the response linter, in order -/
def callsOnResponse (ts : List Turn) : List Op := ts.filterMap fun | .response op => some op | .request _ => none

/-- the top line or the headers of the request -/
def isHead : Turn → Bool
  | .request (.requestTopline _ _ _) => true
  | .request (.responseTopline _ _ _) => true
  | .request (.headers _) => true
  | _ => false

/-- a call that looks at the request: the response's headers, or its end -/
def looksAt : Turn → Bool
  | .response (.headers _) => true
  | .response (.finish _ _) => true
  | _ => false

/-- the request's top line and headers are not processed after the response's headers or end -/
def HeadFirst (ts : List Turn) : Prop := ts.Pairwise fun a b => ¬(looksAt a = true ∧ isHead b = true)

/-- a request linter without the notes that its response adds -/
def own (m : Msg) : Msg := { m with notes := m.notes.filter fun n => decide (n.cls ≠ .STORE_METHOD_UNCACHEABLE) }

/-! ### notes that may be there or not -/

def keepOwn (ns : List Note) : List Note := ns.filter fun n => decide (n.cls ≠ .STORE_METHOD_UNCACHEABLE)

def OwnAlike (a b : List Note) : Prop := keepOwn a = keepOwn b

theorem keepOwn_any (p : Note → Bool) (hp : ∀ n, p n = true → n.cls ≠ .STORE_METHOD_UNCACHEABLE) (ns : List Note) :
    ns.any p = (keepOwn ns).any p := by
  induction ns with
  | nil => rfl
  | cons n ns ih =>
    unfold keepOwn at ih ⊢
    rw [List.filter_cons]
    by_cases h : n.cls = .STORE_METHOD_UNCACHEABLE
    · have : p n = false := by
        cases hpn : p n with
        | false => rfl
        | true => exact absurd h (hp n hpn)
      simp only [List.any_cons, this, h, ih]
      simp
    · simp only [List.any_cons, ih]
      simp [h]

theorem addToFirst_keep (kid : NoteId × Dict Val) (ns : List Note) :
    F.addToFirstCsp kid (keepOwn ns) = (F.addToFirstCsp kid ns).map keepOwn := by
  induction ns with
  | nil => rfl
  | cons n ns ih =>
    have hc : (n.addChild kid.1 kid.2).cls = n.cls := rfl
    by_cases h : n.cls = .CONTENT_SECURITY_POLICY
    · have h1 : keepOwn (n :: ns) = n :: keepOwn ns := by
        unfold keepOwn; rw [List.filter_cons]; simp [h]
      have h2 : keepOwn (n.addChild kid.1 kid.2 :: ns) = n.addChild kid.1 kid.2 :: keepOwn ns := by
        unfold keepOwn; rw [List.filter_cons]; simp [hc, h]
      rw [h1, F.addToFirstCsp, F.addToFirstCsp, if_pos h, if_pos h, Option.map_some, h2]
    · rw [F.addToFirstCsp, if_neg h]
      by_cases hs : n.cls = .STORE_METHOD_UNCACHEABLE
      · have h1 : ∀ l, keepOwn (n :: l) = keepOwn l := by
          intro l; unfold keepOwn; rw [List.filter_cons]; simp [hs]
        rw [h1, ih]
        cases F.addToFirstCsp kid ns with
        | none => rfl
        | some l => simp only [Option.map_some, h1]
      · have h1 : ∀ l, keepOwn (n :: l) = n :: keepOwn l := by
          intro l; unfold keepOwn; rw [List.filter_cons]; simp [hs]
        rw [h1, F.addToFirstCsp, if_neg h, ih]
        cases F.addToFirstCsp kid ns with
        | none => rfl
        | some l => simp only [Option.map_some, h1]

theorem ownAlike_tolerant : Tolerant OwnAlike where
  app x h := by unfold OwnAlike keepOwn at *; rw [List.filter_append, List.filter_append, h]
  hsts h := by
    unfold HstsAlike
    have hp : ∀ n : Note, F.hstsInvalidating.contains n.cls = true → n.cls ≠ .STORE_METHOD_UNCACHEABLE := by
      intro n h e; rw [e] at h; revert h; decide
    exact ((keepOwn_any _ hp _).trans (by rw [show keepOwn _ = keepOwn _ from h])).trans (keepOwn_any _ hp _).symm
  csp kid a b h := by
    have ha := addToFirst_keep kid a
    have hb := addToFirst_keep kid b
    unfold OwnAlike at h
    rw [h, hb] at ha
    cases h1 : F.addToFirstCsp kid a with
    | none =>
      rw [h1] at ha
      cases h2 : F.addToFirstCsp kid b with
      | none => exact .inl ⟨rfl, rfl⟩
      | some l => rw [h2] at ha; cases ha
    | some l1 =>
      rw [h1] at ha
      cases h2 : F.addToFirstCsp kid b with
      | none => rw [h2] at ha; cases ha
      | some l2 =>
        rw [h2] at ha
        exact .inr ⟨l1, l2, rfl, rfl, (Option.some.inj ha).symm⟩

theorem eq_tolerant : Tolerant Eq where
  app x h := by rw [h]
  hsts h := by subst h; rfl
  csp kid a b h := by
    subst h
    cases h1 : F.addToFirstCsp kid a with
    | none => exact .inl ⟨rfl, rfl⟩
    | some l => exact .inr ⟨l, l, rfl, rfl, rfl⟩

theorem alike_eq {m m' : Msg} : Alike Eq m m' ↔ m = m' := by
  constructor
  · rintro ⟨ns, h, rfl⟩; subst h; rfl
  · rintro rfl; exact ⟨m.notes, rfl, rfl⟩

theorem alike_own {m m' : Msg} : Alike OwnAlike m m' ↔ own m = own m' := by
  constructor
  · rintro ⟨ns, h, rfl⟩
    unfold OwnAlike keepOwn at h
    unfold own withNotes
    rw [h]
  · intro h
    refine ⟨m'.notes, congrArg Msg.notes h, ?_⟩
    have h1 : withNotes m'.notes (own m) = withNotes m'.notes (own m') := by rw [h]
    exact h1.symm

/-! ### the calls -/

/-- the only note that a cache check puts on the request -/
theorem cacheCheck_store (c : Ctx) : ∀ n ∈ (cacheCheck c).2.2, n.cls = .STORE_METHOD_UNCACHEABLE := by
  unfold cacheCheck
  cases hi : cacheInputs c with
  | error e => exact mem_none
  | ok i =>
    have hs : ∀ st, ∀ n ∈ (i.checkStorable st).2.2, n.cls = .STORE_METHOD_UNCACHEABLE := by
      intro st
      unfold CacheIn.checkStorable
      split
      · exact mem_one rfl
      · repeat' (first | exact mem_none | split)
    show ∀ n ∈ i.run.2.2, _
    unfold CacheIn.run
    dsimp only
    generalize i.checkBasic {} = b
    obtain ⟨st, basic⟩ := b
    dsimp only
    split
    · exact mem_none
    · exact mem_none
    · have := hs st
      generalize i.checkStorable st = b at *
      obtain ⟨st, storable, rn⟩ := b
      dsimp only at *
      repeat' (first | exact this | split)

theorem finish_adds_store (env related co ts) (m : Msg) :
    ∀ n ∈ (m.finishContent env related co ts).2, n.cls = .STORE_METHOD_UNCACHEABLE := by
  unfold Msg.finishContent
  dsimp only
  split
  · exact mem_none
  · dsimp only
    unfold postChecks
    split
    · exact mem_none
    · unfold responsePostChecks
      split
      · exact mem_none
      · rename_i m1 _
        exact cacheCheck_store ⟨env, m1, related⟩

theorem own_addNotes {ns : List Note} (h : ∀ n ∈ ns, n.cls = .STORE_METHOD_UNCACHEABLE) (m : Msg) : own (m.addNotes ns) = own m := by
  have hf : ns.filter (fun n => decide (n.cls ≠ .STORE_METHOD_UNCACHEABLE)) = [] := by
    rw [List.filter_eq_nil_iff]
    intro n hn
    simp [h n hn]
  unfold own Msg.addNotes
  dsimp only
  rw [List.filter_append, hf, List.append_nil]

/-- the response's calls see of the request what `glance` keeps -/
theorem run_glance (env : Env) (op : Op) (m r : Msg) :
    (op.run env ⟨m, some r⟩).1.msg = (op.run env ⟨m, some (glance r)⟩).1.msg ∧
      (op.run env ⟨m, some r⟩).2 = (op.run env ⟨m, some (glance r)⟩).2 ∧
      ∃ ns, (op.run env ⟨m, some r⟩).1.related = some (r.addNotes ns) ∧
        (op.run env ⟨m, some (glance r)⟩).1.related = some ((glance r).addNotes ns) ∧
        ∀ n ∈ ns, n.cls = .STORE_METHOD_UNCACHEABLE := by
  have nil : ∀ q : Msg, some q = some (q.addNotes []) := fun q => by rw [addNotes_nil]
  cases op with
  | requestTopline a b c => exact ⟨rfl, rfl, [], nil _, nil _, mem_none⟩
  | responseTopline a b c => exact ⟨rfl, rfl, [], nil _, nil _, mem_none⟩
  | feed c => exact ⟨rfl, rfl, [], nil _, nil _, mem_none⟩
  | headers ls =>
    have h1 := processSection_alike eq_tolerant (env := env) (related := some r) (alike_eq.mpr (rfl : m = m)) false ls
    have h2 : processSection env (some r) false ls m = processSection env (some (glance r)) false ls m :=
      Prod.ext (alike_eq.mp h1.1) h1.2
    have h3 : m.processHeaders env (some r) ls = m.processHeaders env (some (glance r)) ls := by
      unfold Msg.processHeaders; rw [h2]
    refine ⟨?_, ?_, [], nil _, nil _, mem_none⟩
    · show (m.processHeaders env (some r) ls).1 = _; rw [h3]; rfl
    · show (m.processHeaders env (some r) ls).2 = _; rw [h3]; rfl
  | finish c ts =>
    have h1 := finishContent_alike eq_tolerant (env := env) (related := some r) (alike_eq.mpr (rfl : m = m)) c ts
    have h2 : m.finishContent env (some r) c ts = m.finishContent env (some (glance r)) c ts :=
      Prod.ext (Prod.ext (alike_eq.mp h1.1.1) h1.1.2) h1.2
    refine ⟨?_, ?_, (m.finishContent env (some r) c ts).2, rfl, ?_, finish_adds_store env _ c ts m⟩
    · show (m.finishContent env (some r) c ts).1.1 = _; rw [h2]; rfl
    · show (m.finishContent env (some r) c ts).1.2 = _; rw [h2]; rfl
    · rw [h2]; rfl

theorem setUri_alike {K} (hK : Tolerant K) (env : Env) (iri : Str) {m m' : Msg} (h : Alike K m m') :
    RunAlike K (m.setUri env iri) (m'.setUri env iri) := by
  obtain ⟨ns, hk, rfl⟩ := h
  have hadd : ∀ q : Msg, (withNotes ns q).adder (str "uri") = q.adder (str "uri") := fun _ => rfl
  unfold Msg.setUri
  dsimp only
  cases env.iriToUri iri with
  | error e =>
    dsimp only
    split
    · exact ⟨⟨_, hK.app _ hk, rfl⟩, rfl⟩
    · exact ⟨⟨_, hk, rfl⟩, rfl⟩
  | ok uri =>
    dsimp only
    exact ⟨⟨_, hK.app _ (hK.app _ hk), rfl⟩, rfl⟩

theorem sinks_alike {K} (xs : List Str) : ∀ {m m' : Msg}, Alike K m m' → Alike K (xs.foldl Msg.sink m) (xs.foldl Msg.sink m') := by
  induction xs with
  | nil => intro m m' h; exact h
  | cons x xs ih =>
    intro m m' h
    refine ih ?_
    obtain ⟨ns, hk, rfl⟩ := h
    exact ⟨ns, hk, rfl⟩

theorem decodeFeed_alike {K} (hK : Tolerant K) (env : Env) (chunk : Str) {m m' : Msg} (h : Alike K m m') :
    RunAlike K (m.decodeFeed env chunk) (m'.decodeFeed env chunk) := by
  have h0 := h
  obtain ⟨ns, hk, rfl⟩ := h
  unfold Msg.decodeFeed
  have hd : (withNotes ns m).decoded = m.decoded := rfl
  have he : (withNotes ns m).decoders = m.decoders := rfl
  rw [hd, he]
  split
  · exact ⟨h0, rfl⟩
  · generalize m.decoders = x
    cases x with
    | error e => exact ⟨⟨ns, hk, rfl⟩, rfl⟩
    | ok p =>
      dsimp only
      have hdf : (withNotes ns m).defaults = m.defaults := rfl
      have hl : (withNotes ns m).contentLength = m.contentLength := rfl
      rw [hdf, hl]
      generalize feedPipe _ p.length p chunk = r
      obtain ⟨ns', hk', he'⟩ := sinks_alike (K := K) r.out (h0.add hK r.notes)
      rw [he']
      exact ⟨⟨ns', hk', rfl⟩, rfl⟩

theorem feed_alike {K} (hK : Tolerant K) (env : Env) (chunk : Str) {m m' : Msg} (h : Alike K m m') :
    RunAlike K (m.feedContent env chunk) (m'.feedContent env chunk) := by
  obtain ⟨ns, hk, rfl⟩ := h
  unfold Msg.feedContent
  dsimp only
  have hn : (withNotes ns m).noContent = m.noContent := rfl
  rw [hn]
  split
  · exact ⟨⟨ns, hk, rfl⟩, rfl⟩
  · exact decodeFeed_alike hK env chunk ⟨ns, hk, rfl⟩

/-- the request's calls do not care about the notes its response adds -/
theorem run_alike {K} (hK : Tolerant K) (env : Env) (op : Op) {m m' : Msg} (h : Alike K m m') :
    Alike K (op.run env ⟨m, none⟩).1.msg (op.run env ⟨m', none⟩).1.msg ∧ (op.run env ⟨m, none⟩).2 = (op.run env ⟨m', none⟩).2 := by
  have hkind : m'.kind = m.kind := by obtain ⟨ns, hk, rfl⟩ := h; rfl
  cases op with
  | requestTopline a b c =>
    show RunAlike K (m.requestTopline env a b c) (m'.requestTopline env a b c)
    unfold Msg.requestTopline
    rw [hkind]
    cases m.kind with
    | response => exact ⟨h, rfl⟩
    | request =>
      refine andThen_alike hK (setUri_alike hK env _ ?_) fun m1 m1' _ h1 => ?_
      · obtain ⟨ns, hk, rfl⟩ := h; exact ⟨ns, hk, rfl⟩
      · obtain ⟨ns, hk, rfl⟩ := h1; exact ⟨⟨ns, hk, rfl⟩, rfl⟩
  | responseTopline v s ph =>
    show RunAlike K (m.responseTopline v s ph) (m'.responseTopline v s ph)
    unfold Msg.responseTopline
    rw [hkind]
    cases m.kind with
    | request => exact ⟨h, rfl⟩
    | response =>
      obtain ⟨ns, hk, rfl⟩ := h
      dsimp only
      cases pyInt (asciiReplace s) with
      | some n =>
        dsimp only
        cases ph with
        | none => exact ⟨⟨_, hk, rfl⟩, rfl⟩
        | some p =>
          dsimp only
          split
          · exact ⟨⟨_, hk, rfl⟩, rfl⟩
          · exact ⟨⟨_, hK.app _ hk, rfl⟩, rfl⟩
      | none =>
        dsimp only
        cases ph with
        | none => exact ⟨⟨_, hK.app _ hk, rfl⟩, rfl⟩
        | some p =>
          dsimp only
          split
          · exact ⟨⟨_, hK.app _ hk, rfl⟩, rfl⟩
          · exact ⟨⟨_, hK.app _ (hK.app _ hk), rfl⟩, rfl⟩
  | feed c => exact feed_alike hK env c h
  | headers ls =>
    show RunAlike K (m.processHeaders env none ls) (m'.processHeaders env none ls)
    unfold Msg.processHeaders
    refine andThen_alike hK (processSection_alike hK (related := none) h false ls) fun m1 m1' _ h1 => ?_
    obtain ⟨ns, hk, rfl⟩ := h1
    unfold Msg.setCharset
    have hh : (withNotes ns m1).headers = m1.headers := rfl
    rw [hh]
    split
    · exact ⟨⟨ns, hk, rfl⟩, rfl⟩
    · split
      · exact ⟨⟨ns, hk, rfl⟩, rfl⟩
      · split
        · exact ⟨⟨ns, hk, rfl⟩, rfl⟩
        · split
          · split
            · exact ⟨⟨ns, hk, rfl⟩, rfl⟩
            · split <;> exact ⟨⟨ns, hk, rfl⟩, rfl⟩
          · exact ⟨⟨ns, hk, rfl⟩, rfl⟩
  | finish c ts =>
    have h1 := finishContent_alike hK (env := env) (related := none) h c ts
    exact h1.1

/-! ### what the response can see stays -/

theorem glance_own {m m' : Msg} (h : own m = own m') : glance m = glance m' := by
  have : glance (own m) = glance (own m') := by rw [h]
  exact this

theorem glance_andThen {α β} {r : Run α} {f : Msg → α → Run β} (hf : ∀ m a, glance (f m a).1 = glance m) :
    glance (Run.andThen r f).1 = glance r.1 := by
  obtain ⟨m, x⟩ := r
  cases x with
  | error e => rfl
  | ok a => exact hf m a

theorem glance_trailers (env related ls) (m : Msg) : glance (processSection env related true ls m).1 = glance m := by
  obtain ⟨ns, s, h⟩ := processSection_ext env related true ls m
  rw [h]
  rfl

theorem glance_postCheckHandlers (env related t) (hs : List Handler) : ∀ m : Msg, glance (postCheckHandlers env related t hs m).1 = glance m := by
  induction hs with
  | nil => intro m; rfl
  | cons h hs ih =>
    intro m
    unfold postCheckHandlers
    split
    · exact ih m
    · dsimp only
      split
      · rfl
      · exact ih _

theorem glance_postChecks (env related) (m : Msg) : glance (postChecks env related m).1.1 = glance m := by
  unfold postChecks
  split
  · rfl
  · unfold responsePostChecks
    have h0 : glance (m.runW (F.checkPreflightResponse ⟨env, m, related⟩ (m.adder []))).1 = glance m := rfl
    revert h0
    generalize m.runW (F.checkPreflightResponse ⟨env, m, related⟩ (m.adder [])) = r
    obtain ⟨m1, x⟩ := r
    intro h1
    cases x with
    | error e => exact h1
    | ok u =>
      dsimp only at h1 ⊢
      generalize cacheCheck ⟨env, m1, related⟩ = cc
      obtain ⟨ca, w, rn⟩ := cc
      dsimp only
      have key : ∀ m2 : Msg, glance (Run.andThen (m2.runW w) fun m _ =>
        Run.andThen (m.runW (Status.check ⟨env, m, related⟩)) fun m _ =>
          if m.noContent then (m, .ok ())
          else Run.andThen (m.runW (verifyContentType ⟨env, m, related⟩)) fun m _ =>
            m.runW (verifyCharset ⟨env, m, related⟩)).1 = glance m2 := by
        intro m2
        refine (glance_andThen fun m3 _ => ?_).trans rfl
        refine (glance_andThen fun m4 _ => ?_).trans rfl
        split
        · rfl
        · exact (glance_andThen fun m5 _ => rfl).trans rfl
      cases ca with
      | none => exact (key m1).trans h1
      | some st => exact (key _).trans h1

theorem glance_finish (env related c ts) (m : Msg) : glance (m.finishContent env related c ts).1.1 = glance m := by
  unfold Msg.finishContent
  dsimp only
  have h0 : glance (if ts.isEmpty then ({ m with complete := c, contentHash := some (env.md5 m.hashed) }, .ok ()) else processSection env related true ts { m with complete := c, contentHash := some (env.md5 m.hashed) } : Run Unit).1 = glance m := by
    split
    · rfl
    · rw [glance_trailers]; rfl
  revert h0
  generalize (if ts.isEmpty then _ else processSection env related true ts _ : Run Unit) = r
  obtain ⟨m1, x⟩ := r
  intro h0
  cases x with
  | error e => exact h0
  | ok u =>
    dsimp only
    have h1 := glance_postChecks env related (Msg.addNotes { m1 with decoded := { m1.decoded with hash := some (env.md5 m1.decoded.hashed) } }
        (lengthNotes { m1 with decoded := { m1.decoded with hash := some (env.md5 m1.decoded.hashed) } }))
    revert h1
    generalize postChecks env related _ = pc
    obtain ⟨r, rn⟩ := pc
    intro h1
    dsimp only
    refine (glance_andThen fun m2 _ => ?_).trans (h1.trans h0)
    refine (glance_andThen fun m3 _ => ?_).trans (glance_postCheckHandlers env related false _ m2)
    exact glance_postCheckHandlers env related true _ m3

theorem glance_sinks (xs : List Str) : ∀ m : Msg, glance (xs.foldl Msg.sink m) = glance m := by
  induction xs with
  | nil => intro m; rfl
  | cons x xs ih => intro m; exact ih _

theorem glance_feed (env : Env) (chunk : Str) (m : Msg) : glance (m.feedContent env chunk).1 = glance m := by
  unfold Msg.feedContent
  dsimp only
  split
  · rfl
  · unfold Msg.decodeFeed
    dsimp only
    split
    · rfl
    · split
      · rfl
      · dsimp only
        exact glance_sinks _ _

theorem glance_run (env : Env) (op : Op) (m : Msg) (h : isHead (.request op) = false) :
    glance (op.run env ⟨m, none⟩).1.msg = glance m := by
  cases op with
  | feed c => exact glance_feed env c m
  | finish c ts => exact glance_finish env none c ts m
  | _ => cases h

/-! ### the calls on each of the two, by themselves -/

/-- the request's calls by themselves -/
def reqAlone (env : Env) : List Op → Msg → Msg × List (Except Exn Unit)
  | [], m => (m, [])
  | op :: ops, m =>
    let c := op.run env ⟨m, none⟩
    let r := reqAlone env ops c.1.msg
    (r.1, c.2 :: r.2)

/-- the response's calls, when the request always looks the same -/
def respAlone (env : Env) (g : Msg) : List Op → Msg → Msg × List (Except Exn Unit) × List Note
  | [], m => (m, [], [])
  | op :: ops, m =>
    let c := op.run env ⟨m, some g⟩
    let r := respAlone env g ops c.1.msg
    (r.1, c.2 :: r.2.1, (c.1.related.getD g).notes.drop g.notes.length ++ r.2.2)

theorem reqAlone_alike (env : Env) (ops : List Op) : ∀ {m m' : Msg}, own m = own m' →
    own (reqAlone env ops m).1 = own (reqAlone env ops m').1 ∧ (reqAlone env ops m).2 = (reqAlone env ops m').2 := by
  induction ops with
  | nil => intro m m' h; exact ⟨h, rfl⟩
  | cons op ops ih =>
    intro m m' h
    obtain ⟨h1, h2⟩ := run_alike ownAlike_tolerant env op (alike_own.mpr h)
    obtain ⟨h3, h4⟩ := ih (alike_own.mp h1)
    refine ⟨h3, ?_⟩
    show _ :: _ = _ :: _
    rw [h2, h4]

theorem glance_reqAlone (env : Env) (ops : List Op) : ∀ (m : Msg), (∀ op ∈ ops, isHead (.request op) = false) →
    glance (reqAlone env ops m).1 = glance m := by
  induction ops with
  | nil => intro m _; rfl
  | cons op ops ih =>
    intro m h
    exact (ih _ fun o ho => h o (List.mem_cons_of_mem _ ho)).trans (glance_run env op m (h op List.mem_cons_self))

theorem drop_added (r : Msg) (ns : List Note) : (r.addNotes ns).notes.drop r.notes.length = ns := by
  show (r.notes ++ ns).drop r.notes.length = ns
  simp

theorem looks_not (env : Env) (op : Op) (m : Msg) (r g : Msg) (h : looksAt (.response op) = false) :
    (op.run env ⟨m, some r⟩).1.msg = (op.run env ⟨m, some g⟩).1.msg ∧ (op.run env ⟨m, some r⟩).2 = (op.run env ⟨m, some g⟩).2 ∧
      (op.run env ⟨m, some r⟩).1.related = some r ∧ (op.run env ⟨m, some g⟩).1.related = some g := by
  cases op with
  | headers ls => cases h
  | finish c ts => cases h
  | _ => exact ⟨rfl, rfl, rfl, rfl⟩

theorem mem_callsOnRequest {ts : List Turn} {op : Op} (h : op ∈ callsOnRequest ts) : Turn.request op ∈ ts := by
  unfold callsOnRequest at h
  rw [List.mem_filterMap] at h
  obtain ⟨t, ht, he⟩ := h
  cases t with
  | request o => cases he; exact ht
  | response o => cases he

/-- in any order in which the request's head comes first, each linter ends as by itself -/
theorem play_alone (env : Env) (ts : List Turn) : ∀ (x : Exchange), HeadFirst ts →
    own (play env ts x).1.request = own (reqAlone env (callsOnRequest ts) x.request).1 ∧
    (play env ts x).2.request = (reqAlone env (callsOnRequest ts) x.request).2 ∧
    (play env ts x).1.response = (respAlone env (glance (reqAlone env (callsOnRequest ts) x.request).1) (callsOnResponse ts) x.response).1 ∧
    (play env ts x).2.response = (respAlone env (glance (reqAlone env (callsOnRequest ts) x.request).1) (callsOnResponse ts) x.response).2.1 ∧
    (play env ts x).2.added = (respAlone env (glance (reqAlone env (callsOnRequest ts) x.request).1) (callsOnResponse ts) x.response).2.2 := by
  induction ts with
  | nil => intro x _; exact ⟨rfl, rfl, rfl, rfl, rfl⟩
  | cons t ts ih =>
    intro x h
    obtain ⟨h1, h2⟩ := List.pairwise_cons.mp h
    cases t with
    | request op =>
      obtain ⟨a, b, c, d, e⟩ := ih { x with request := (op.run env ⟨x.request, none⟩).1.msg } h2
      exact ⟨a, congrArg (List.cons (op.run env ⟨x.request, none⟩).2) b, c, d, e⟩
    | response op =>
      -- the request after this call
      have hq : ∃ ns, ((op.run env ⟨x.response, some x.request⟩).1.related.getD x.request) = x.request.addNotes ns ∧
          own (x.request.addNotes ns) = own x.request ∧
          (let g := glance (reqAlone env (callsOnRequest ts) x.request).1
          (op.run env ⟨x.response, some x.request⟩).1.msg = (op.run env ⟨x.response, some g⟩).1.msg ∧
            (op.run env ⟨x.response, some x.request⟩).2 = (op.run env ⟨x.response, some g⟩).2 ∧
            ((op.run env ⟨x.response, some g⟩).1.related.getD g) = g.addNotes ns) := by
        cases hl : looksAt (.response op) with
        | false =>
          obtain ⟨e1, e2, e3, e4⟩ := looks_not env op x.response x.request (glance (reqAlone env (callsOnRequest ts) x.request).1) hl
          exact ⟨[], by rw [e3, addNotes_nil]; rfl, by rw [addNotes_nil], e1, e2, by rw [e4, addNotes_nil]; rfl⟩
        | true =>
          have hg : glance (reqAlone env (callsOnRequest ts) x.request).1 = glance x.request := by
            refine glance_reqAlone env _ _ fun o ho => ?_
            cases hh : isHead (.request o) with
            | false => rfl
            | true => exact absurd ⟨hl, hh⟩ (h1 _ (mem_callsOnRequest ho))
          obtain ⟨e1, e2, ns, e3, e4, e5⟩ := run_glance env op x.response x.request
          refine ⟨ns, by rw [e3]; rfl, ?_, by rw [hg]; exact e1, by rw [hg]; exact e2, by rw [hg, e4]; rfl⟩
          exact own_addNotes e5 _
      obtain ⟨ns, hq1, hq2, hq3, hq4, hq5⟩ := hq
      have IH := ih ⟨(op.run env ⟨x.response, some x.request⟩).1.related.getD x.request, (op.run env ⟨x.response, some x.request⟩).1.msg⟩ h2
      simp only [hq1] at IH
      obtain ⟨a, b, c, d, e⟩ := IH
      obtain ⟨k1, k2⟩ := reqAlone_alike env (callsOnRequest ts) hq2
      have kg := glance_own k1
      rw [kg] at c d e
      have hR : callsOnRequest (.response op :: ts) = callsOnRequest ts := rfl
      have hS : callsOnResponse (.response op :: ts) = op :: callsOnResponse ts := rfl
      rw [hR, hS]
      simp only [play, respAlone, hq1]
      rw [drop_added, hq5, drop_added, ← hq3, ← hq4]
      exact ⟨a.trans k1, b.trans k2, c, congrArg (List.cons _) d, congrArg (ns ++ ·) e⟩

/-- in any order whatever, the request linter's own part is what its calls alone make it -/
theorem play_request (env : Env) (ts : List Turn) : ∀ (x : Exchange),
    own (play env ts x).1.request = own (reqAlone env (callsOnRequest ts) x.request).1 ∧
    (play env ts x).2.request = (reqAlone env (callsOnRequest ts) x.request).2 := by
  induction ts with
  | nil => intro x; exact ⟨rfl, rfl⟩
  | cons t ts ih =>
    intro x
    cases t with
    | request op =>
      obtain ⟨a, b⟩ := ih { x with request := (op.run env ⟨x.request, none⟩).1.msg }
      exact ⟨a, congrArg (List.cons (op.run env ⟨x.request, none⟩).2) b⟩
    | response op =>
      obtain ⟨_, _, ns, e3, _, e5⟩ := run_glance env op x.response x.request
      have hq1 : ((op.run env ⟨x.response, some x.request⟩).1.related.getD x.request) = x.request.addNotes ns := by rw [e3]; rfl
      have IH := ih ⟨(op.run env ⟨x.response, some x.request⟩).1.related.getD x.request, (op.run env ⟨x.response, some x.request⟩).1.msg⟩
      simp only [hq1] at IH
      obtain ⟨k1, k2⟩ := reqAlone_alike env (callsOnRequest ts) (own_addNotes e5 x.request)
      have hR : callsOnRequest (.response op :: ts) = callsOnRequest ts := rfl
      rw [hR]
      simp only [play, hq1]
      exact ⟨IH.1.trans k1, IH.2.trans k2⟩

/-! ### the claims -/

/-- **C122**: two orders of the same calls on a request linter and on the linter of its response, with the request's
top line and headers never processed after the response's headers or end: the response linter ends the same, each call
returns or raises the same, the response adds the same notes to the request, and apart from these the request linter
ends the same. -/
theorem C122_order (env : Env) (σ τ : List Turn) (x : Exchange)
    (hq : callsOnRequest σ = callsOnRequest τ) (hr : callsOnResponse σ = callsOnResponse τ) (hσ : HeadFirst σ) (hτ : HeadFirst τ) :
    (play env σ x).1.response = (play env τ x).1.response ∧
    own (play env σ x).1.request = own (play env τ x).1.request ∧
    (play env σ x).2.request = (play env τ x).2.request ∧
    (play env σ x).2.response = (play env τ x).2.response ∧
    (play env σ x).2.added = (play env τ x).2.added := by
  obtain ⟨a, b, c, d, e⟩ := play_alone env σ x hσ
  obtain ⟨a', b', c', d', e'⟩ := play_alone env τ x hτ
  rw [hq] at a b c d e
  rw [hr] at c d e
  exact ⟨c.trans c'.symm, a.trans a'.symm, b.trans b'.symm, d.trans d'.symm, e.trans e'.symm⟩

/-- **C122**: in any order at all, and with or without a response, the same calls on the request linter return or raise
the same and leave it the same, apart from the notes that its response adds. -/
theorem C122_request (env : Env) (σ τ : List Turn) (x y : Exchange) (hx : x.request = y.request) (hq : callsOnRequest σ = callsOnRequest τ) :
    own (play env σ x).1.request = own (play env τ y).1.request ∧ (play env σ x).2.request = (play env τ y).2.request := by
  obtain ⟨a, b⟩ := play_request env σ x
  obtain ⟨a', b'⟩ := play_request env τ y
  rw [hq, hx] at a b
  exact ⟨a.trans a'.symm, b.trans b'.symm⟩

/-- All notes that calls on the response linter add to the request are `STORE_METHOD_UNCACHEABLE`. -/
theorem C122_added (env : Env) (ts : List Turn) (x : Exchange) : ∀ n ∈ (play env ts x).2.added, n.cls = .STORE_METHOD_UNCACHEABLE := by
  induction ts generalizing x with
  | nil => exact mem_none
  | cons t ts ih =>
    cases t with
    | request op => exact ih _
    | response op =>
      obtain ⟨_, _, ns, e3, _, e5⟩ := run_glance env op x.response x.request
      have hq1 : ((op.run env ⟨x.response, some x.request⟩).1.related.getD x.request) = x.request.addNotes ns := by rw [e3]; rfl
      simp only [play, hq1, drop_added]
      intro n hn
      rcases List.mem_append.mp hn with h | h
      · exact e5 n h
      · exact ih _ n h

/-! ### a case -/

instance (ts : List Turn) : Decidable (HeadFirst ts) := by unfold HeadFirst; infer_instance

/-- two new linters -/
def newExchange : Exchange := ⟨fresh toyEnv .request none false false, fresh toyEnv .response none false false⟩

def postTop : Turn := .request (.requestTopline (str "POST") (str "/") (str "HTTP/1.1"))
def postHeaders : Turn := .request (.headers [(str "Host", str "a"), (str "Accept-Encoding", str "foo")])
def postBody : Turn := .request (.feed (str "abc"))
def postEnd : Turn := .request (.finish true [])
def okTop : Turn := .response (.responseTopline (str "HTTP/1.1") (str "200") (str "OK"))
def okHeaders : Turn := .response (.headers [(str "Content-Encoding", str "foo"), (str "Cache-Control", str "max-age=5")])
def okEnd : Turn := .response (.finish true [])

/-- the response ends before the request's content has arrived -/
def earlyAnswer : List Turn := [okTop, postTop, postHeaders, okHeaders, postBody, okEnd, postEnd]

/-- the one message after the other -/
def lateAnswer : List Turn := [postTop, postHeaders, postBody, postEnd, okTop, okHeaders, okEnd]

/-- the request's headers are processed after the response's -/
def lateHead : List Turn := [postTop, okTop, okHeaders, postHeaders, postBody, postEnd, okEnd]

/-- what the two linters say, and what the response says on the request -/
def said2 (ts : List Turn) : List NoteId × List NoteId × List NoteId :=
  ((play toyEnv ts newExchange).1.request.notes.map (·.cls), (play toyEnv ts newExchange).1.response.notes.map (·.cls),
    (play toyEnv ts newExchange).2.added.map (·.cls))

/-- the hypotheses of `C122_order` -/
example : callsOnRequest earlyAnswer = callsOnRequest lateAnswer ∧ callsOnResponse earlyAnswer = callsOnResponse lateAnswer ∧
    HeadFirst earlyAnswer ∧ HeadFirst lateAnswer := by decide

example : said2 earlyAnswer = ([.URI_BAD_SYNTAX, .STORE_METHOD_UNCACHEABLE, .MISSING_USER_AGENT], [.DATE_CLOCKLESS], [.STORE_METHOD_UNCACHEABLE]) ∧
    said2 lateAnswer = ([.URI_BAD_SYNTAX, .MISSING_USER_AGENT, .STORE_METHOD_UNCACHEABLE], [.DATE_CLOCKLESS], [.STORE_METHOD_UNCACHEABLE]) := by
  constructor <;> decide +kernel

/-- `HeadFirst` is needed: the same calls, but a response coded as its request asks for is told otherwise. -/
theorem C122_head_needed : callsOnRequest lateHead = callsOnRequest lateAnswer ∧ callsOnResponse lateHead = callsOnResponse lateAnswer ∧
    (said2 lateHead).2.1 = [.ENCODING_UNWANTED, .DATE_CLOCKLESS] ∧ (said2 lateAnswer).2.1 = [.DATE_CLOCKLESS] := by
  refine ⟨by decide, by decide, by decide +kernel, by decide +kernel⟩

end HL.Props
