import Verif.Props.SectionEmits
import Verif.Props.History

/-! # What notes each API call adds -/

namespace HL.Props
open HL.F

/-! ### the message-level checks -/

theorem cacheNote_emits {i : CacheIn} {ks} (h : AddGood i.add ks) {s : Str} {cls : NoteId} {vrs : Dict Val}
    (hc : covers cls ([str "message_type"] ++ vrs.map (·.1)) = true) (hl : cls.origin = .cache)
    (hi : inert cls vrs = true) : Emits (NoteFrom .cache) (i.note s cls vrs) := emits_addOn h hc hl hi

macro "emits_cache" : tactic => `(tactic| repeat' (first
  | ((with_reducible refine cacheNote_emits (by assumption) ?_ ?_ ?_) <;> rfl)
  | emits_step))

theorem checkBasic_emits (i : CacheIn) (h : AddGood i.add [str "message_type"]) (st) :
    Emits (NoteFrom .cache) (i.checkBasic st).2 := by
  unfold CacheIn.checkBasic
  emits_cache

theorem checkStorable_emits (i : CacheIn) (h : AddGood i.add [str "message_type"]) (st) :
    Emits (NoteFrom .cache) (i.checkStorable st).2.1 := by
  unfold CacheIn.checkStorable
  emits_cache

theorem checkAge_emits (i : CacheIn) (h : AddGood i.add [str "message_type"]) (st) :
    Emits (NoteFrom .cache) (i.checkAge st).2 := by
  unfold CacheIn.checkAge
  emits_cache

theorem explicitNotes_emits (i : CacheIn) (h : AddGood i.add [str "message_type"]) (l age) :
    Emits (NoteFrom .cache) (i.explicitNotes l age) := by
  unfold CacheIn.explicitNotes
  emits_cache

theorem freshnessNotes_emits (i : CacheIn) (h : AddGood i.add [str "message_type"]) (l age) :
    Emits (NoteFrom .cache) (i.freshnessNotes l age) := by
  unfold CacheIn.freshnessNotes
  have := explicitNotes_emits i h l age
  emits_cache

theorem checkStale_emits (i : CacheIn) (h : AddGood i.add [str "message_type"]) (l age) :
    Emits (NoteFrom .cache) (i.checkStale l age) := by
  unfold CacheIn.checkStale
  emits_cache

theorem cacheRun_emits (i : CacheIn) (h : AddGood i.add [str "message_type"]) :
    Emits (NoteFrom .cache) i.run.2.1 := by
  unfold CacheIn.run
  dsimp only
  have h1 := checkBasic_emits i h {}
  generalize i.checkBasic {} = b at *
  obtain ⟨st, basic⟩ := b
  dsimp only at *
  split
  · exact emits_notes h1
  · exact emits_notes h1
  · have h2 := checkStorable_emits i h st
    generalize i.checkStorable st = b at *
    obtain ⟨st, storable, rn⟩ := b
    dsimp only at *
    have h12 := mem_append_of h1 h2
    split
    · exact emits_notes h12
    · exact emits_notes h12
    · have h3 := checkAge_emits i h st
      generalize i.checkAge st = b at *
      obtain ⟨st, aged⟩ := b
      dsimp only at *
      have h123 := mem_append_of h12 h3
      split
      · exact emits_notes h123
      · exact emits_notes h123
      · split
        · exact emits_notes h123
        · rename_i l _
          have h4 := mem_append_of h123 (freshnessNotes_emits i h l st.age)
          split
          · exact emits_notes h4
          · exact emits_notes h4
          · exact emits_notes (mem_append_of h4 (checkStale_emits i h l st.age))

/-- what the checker reads, given Cache-Control as a dict -/
theorem cacheInputs_ok {c : Ctx} {i : CacheIn} (hi : cacheInputs c = .ok i) :
    ∃ cc, (c.msg.headers.getD (str "cache-control") (.list [])).toDict = .ok cc ∧ i =
      { add := c.msg.adder []
        request := c.request
        status := c.msg.statusCode
        names := c.msg.headers.names
        age := c.msg.headers.getD (str "age") (.int 0)
        date := c.msg.headers.getD (str "date") .none
        expires := c.msg.headers.getD (str "expires") .none
        lm := c.msg.headers.getD (str "last-modified") .none
        etag := c.msg.headers.getD (str "etag") .none
        vary := c.msg.headers.getD (str "vary") (.set [])
        cc
        requestTime := c.request.bind (·.startTime)
        responseTime := c.msg.startTime } := by
  unfold cacheInputs at hi
  dsimp only at hi
  cases hd : (c.msg.headers.getD (str "cache-control") (.list [])).toDict with
  | error e => rw [hd] at hi; exact nomatch hi
  | ok cc => rw [hd] at hi; cases hi; exact ⟨cc, rfl, rfl⟩

theorem cacheCheck_emits (c : Ctx) (hm : HasMT c.msg.defaults) : Emits (NoteFrom .cache) (cacheCheck c).2.1 := by
  unfold cacheCheck
  cases hi : cacheInputs c with
  | error e => exact emits_throw _
  | ok i =>
    have hadd : i.add = c.msg.adder [] := by obtain ⟨cc, _, rfl⟩ := cacheInputs_ok hi; rfl
    exact cacheRun_emits i (hadd ▸ adder_good hm _ [] _ rfl)

/-- the note added to the request -/
theorem cacheCheck_request (c : Ctx) (hm : ∀ r, c.request = some r → HasMT r.defaults) :
    ∀ n ∈ (cacheCheck c).2.2, NoteFrom .cache n ∧ n.cls = .STORE_METHOD_UNCACHEABLE := by
  unfold cacheCheck
  cases hi : cacheInputs c with
  | error e => exact mem_none
  | ok i =>
    have hreq : i.request = c.request := by obtain ⟨cc, _, rfl⟩ := cacheInputs_ok hi; rfl
    have hs : ∀ st, ∀ n ∈ (i.checkStorable st).2.2, NoteFrom .cache n ∧ n.cls = .STORE_METHOD_UNCACHEABLE := by
      intro st
      unfold CacheIn.checkStorable
      split
      · rename_i r m hb
        refine mem_one ⟨?_, rfl⟩
        have hr : i.request = some r := by
          unfold CacheIn.badMethod at hb
          repeat' (split at hb; first | contradiction | skip)
          simp_all
        exact fieldNote_mkG (adder_good (hm r (hreq ▸ hr)) _ [] [str "message_type"] rfl) rfl rfl
      · repeat' (first | exact mem_none | split)
    show ∀ n ∈ i.run.2.2, _
    unfold CacheIn.run
    dsimp only
    generalize i.checkBasic {} = b
    obtain ⟨st, basic⟩ := b
    dsimp only
    split
    · exact mem_none
    · exact mem_none
    · have := hs st
      generalize i.checkStorable st = b at *
      obtain ⟨st, storable, rn⟩ := b
      dsimp only at *
      repeat' (first | exact this | split)

theorem statusNote_emits {c : Ctx} (hm : HasMT c.msg.defaults) {s : Str} {cls : NoteId} {vrs : Dict Val}
    (hc : covers cls ([str "message_type", str "status"] ++ vrs.map (·.1)) = true) (hl : cls.origin = .status)
    (hi : inert cls ([(str "status", .int (c.msg.statusCode.getD 0))] ++ vrs) = true) :
    Emits (NoteFrom .status) (Status.note c s cls vrs) := by
  intro n hn
  unfold Status.note at hn
  simp at hn
  subst hn
  exact ⟨noteOK_mk1 (adder_good hm s [(str "status", .int (c.msg.statusCode.getD 0))] [str "message_type", str "status"] rfl).ok hc hi, hl⟩

macro "emits_status" : tactic => `(tactic| repeat' (first
  | ((with_reducible refine statusNote_emits (by assumption) ?_ ?_ ?_) <;> first | rfl | calm_leaf | (exact inert_one rfl rfl (calm_among (by assumption) (by decide +kernel))))
  | emits_step))

theorem statusMethod_emits (c : Ctx) (hm : HasMT c.msg.defaults) (code : Int) (w : W Unit)
    (h : Status.method c code = some w) : Emits (NoteFrom .status) w := by
  unfold Status.method at h
  split at h
  all_goals first
    | contradiction
    | (simp only [Option.some.injEq] at h; subst h)
  all_goals (try unfold Status.s100)
  all_goals (try unfold Status.s101)
  all_goals (try unfold Status.s201)
  all_goals (try unfold Status.s206)
  all_goals (try unfold Status.redirect)
  all_goals (try unfold Status.s304)
  all_goals (try unfold Status.s405)
  all_goals (try unfold Status.s406)
  all_goals (try unfold Status.s412)
  all_goals (try unfold Status.s414)
  all_goals (try unfold Status.s416)
  all_goals (try unfold Status.s417)
  all_goals emits_status

theorem statusCheck_emits (c : Ctx) (hm : HasMT c.msg.defaults) : Emits (NoteFrom .status) (Status.check c) := by
  unfold Status.check
  split
  · rename_i w hw
    cases hc : c.msg.statusCode with
    | none => simp [hc] at hw
    | some code => exact statusMethod_emits c hm code w (by simpa [hc] using hw)
  · emits_status

theorem verifyContentType_emits (c : Ctx) (hm : HasMT c.msg.defaults) :
    Emits (NoteFrom .contentType) (verifyContentType c) := by
  have hg := adder_good hm (str "content-type") [] [str "message_type"] rfl
  unfold verifyContentType
  emits

theorem charsetChecks_emits (c : Ctx) (hm : HasMT c.msg.defaults) (a b d) :
    Emits (NoteFrom .charset) (charsetChecks c a b d) := by
  have hg := adder_good hm (str "content-type") [] [str "message_type"] rfl
  unfold charsetChecks
  emits

theorem verifyCharset_emits (c : Ctx) (hm : HasMT c.msg.defaults) : Emits (NoteFrom .charset) (verifyCharset c) := by
  have := charsetChecks_emits c hm
  unfold verifyCharset
  repeat' (first | exact this _ _ _ | emits_step)

/-! ### decoders -/

theorem decAdd_good {c : DecCtx} (hm : HasMT c.defaults) : AddGood c.add [str "message_type"] :=
  addGood_base hm _ _ _ rfl

theorem gzipPayload_emits {c : DecCtx} (hm : HasMT c.defaults) (d : Decoder) (x : Str) :
    ∀ n ∈ (d.gzipPayload c x).notes, NoteFrom .encoding n := by
  have hg := decAdd_good hm
  unfold Decoder.gzipPayload
  dsimp only
  split
  · exact mem_none
  · exact mem_one (fieldNote_mkG hg rfl rfl)
  · exact mem_one (fieldNote_mkG hg rfl rfl)

theorem decStep_emits {c : DecCtx} (hm : HasMT c.defaults) (d : Decoder) (x : Str) :
    ∀ n ∈ (d.step c x).notes, NoteFrom .encoding n := by
  have hg := decAdd_good hm
  unfold Decoder.step Decoder.gzipStep Decoder.brotliStep
  dsimp only
  repeat' (first
    | exact mem_none
    | exact gzipPayload_emits hm _ _
    | exact mem_one (fieldNote_mkG hg rfl rfl)
    | split)

theorem feedPipe_emits {c : DecCtx} (hm : HasMT c.defaults) (k : Nat) (ds : List Decoder) (x : Str) :
    ∀ n ∈ (feedPipe c k ds x).notes, NoteFrom .encoding n := by
  induction k generalizing ds x with
  | zero => cases ds <;> exact mem_none
  | succ k ih =>
    cases ds with
    | nil => exact mem_none
    | cons d ds =>
      unfold feedPipe
      dsimp only
      refine mem_append_of ?_ (decStep_emits hm d x)
      suffices key : ∀ (ps : List Str) (acc : PipeOut), (∀ n ∈ acc.notes, NoteFrom .encoding n) →
          ∀ n ∈ (ps.foldl (fun acc p =>
            ({ decs := (feedPipe c k acc.decs p).decs, out := acc.out ++ (feedPipe c k acc.decs p).out,
               notes := acc.notes ++ (feedPipe c k acc.decs p).notes } : PipeOut)) acc).notes, NoteFrom .encoding n from
        key _ _ mem_none
      intro ps
      induction ps with
      | nil => intro acc h; exact h
      | cons p ps ihp => intro acc h; exact ihp _ (mem_append_of h (ih _ _))

/-! ### adding to a list of notes -/

/-- a note is unchanged, or it is a CONTENT_SECURITY_POLICY note with more sub-notes that can be rendered -/
def Upd (n n' : Note) : Prop :=
  n' = n ∨ (n.cls = .CONTENT_SECURITY_POLICY ∧ (∃ ks, n' = { n with subnotes := n.subnotes ++ ks }) ∧ (NoteOK n → NoteOK n'))

theorem Upd.cls {n n'} (h : Upd n n') : n'.cls = n.cls := by
  rcases h with rfl | ⟨_, ⟨ks, rfl⟩, _⟩ <;> rfl

theorem Upd.ok {n n'} (h : Upd n n') (hn : NoteOK n) : NoteOK n' := by
  rcases h with rfl | ⟨_, _, h⟩
  · exact hn
  · exact h hn

theorem Upd.trans {a b c} (h1 : Upd a b) (h2 : Upd b c) : Upd a c := by
  rcases h1 with rfl | ⟨e1, ⟨k1, rfl⟩, o1⟩
  · exact h2
  · rcases h2 with rfl | ⟨_, ⟨k2, rfl⟩, o2⟩
    · exact .inr ⟨e1, ⟨k1, rfl⟩, o1⟩
    · exact .inr ⟨e1, ⟨k1 ++ k2, by simp⟩, fun h => o2 (o1 h)⟩

/-- `new` is `old`, up to sub-notes of CSP notes, followed by notes that satisfy `P` -/
inductive Adds (P : Note → Prop) : List Note → List Note → Prop
  | done (added : List Note) : (∀ n ∈ added, P n) → Adds P [] added
  | cons {n n' : Note} {old new : List Note} : Upd n n' → Adds P old new → Adds P (n :: old) (n' :: new)

theorem Adds.append {P} (l : List Note) {ns : List Note} (h : ∀ n ∈ ns, P n) : Adds P l (l ++ ns) := by
  induction l with
  | nil => exact .done _ h
  | cons n l ih => exact .cons (.inl rfl) ih

theorem Adds.refl {P} (l : List Note) : Adds P l l := by simpa using Adds.append l (P := P) mem_none

theorem Adds.mono {P Q : Note → Prop} (hpq : ∀ n, P n → Q n) {a b} (h : Adds P a b) : Adds Q a b := by
  induction h with
  | done ns hn => exact .done _ fun n h => hpq n (hn n h)
  | cons hu _ ih => exact .cons hu ih

/-- a property of notes that more sub-notes on a CSP note do not destroy -/
def Stable (P : Note → Prop) : Prop := ∀ n n', P n → Upd n n' → P n'

theorem Adds.all {P} (hP : Stable P) {a b} (h : Adds P a b) (ha : ∀ n ∈ a, P n) : ∀ n ∈ b, P n := by
  induction h with
  | done ns hn => exact hn
  | cons hu _ ih =>
    intro n hn
    rcases List.mem_cons.1 hn with rfl | hn
    · exact hP _ _ (ha _ (List.mem_cons_self ..)) hu
    · exact ih (fun n h => ha n (List.mem_cons_of_mem _ h)) n hn

theorem Adds.trans {P} (hP : Stable P) {a b c} (h1 : Adds P a b) (h2 : Adds P b c) : Adds P a c := by
  induction h1 generalizing c with
  | done ns hn => exact .done _ (h2.all hP hn)
  | cons hu _ ih =>
    cases h2 with
    | cons hu' h2 => exact .cons (hu.trans hu') (ih h2)

theorem stable_from (o) : Stable (NoteFrom o) := fun _ _ hn hu => ⟨hu.ok hn.1, hu.cls ▸ hn.2⟩

/-- `message_type` is bound in the note and its sub-notes, and what the linter shows outside code adds no markup -/
structure MTBound (n : Note) : Prop where
  own : HasMT n.vars
  subs : ∀ s ∈ n.subnotes, HasMT s.vars
  tame : Unmarked n

theorem NoteOK.mtBound {n} (h : NoteOK n) : MTBound n :=
  ⟨h.1 _ (List.mem_cons_self ..), fun s hs => h.2 s hs _ (List.mem_cons_self ..), h.3⟩

/-- a note of one of the modules `os`; it can be rendered, unless it is CONTENT_NOT_ALLOWED -/
def NoteOf (os : List Origin) (n : Note) : Prop :=
  (n.cls ≠ .CONTENT_NOT_ALLOWED → NoteOK n) ∧ n.cls.origin ∈ os ∧ MTBound n

theorem stable_of (os) : Stable (NoteOf os) := by
  intro n n' hn hu
  refine ⟨fun h => hu.ok (hn.1 (hu.cls ▸ h)), hu.cls ▸ hn.2.1, ?_⟩
  rcases hu with rfl | ⟨hc, _, h⟩
  · exact hn.2.2
  · exact (h (hn.1 (by rw [hc]; decide))).mtBound

theorem NoteFrom.of {o os n} (h : NoteFrom o n) (ho : o ∈ os) : NoteOf os n := ⟨fun _ => h.1, h.2 ▸ ho, h.1.mtBound⟩

theorem NoteOf.mono {os os' n} (h : NoteOf os n) (ho : ∀ o ∈ os, o ∈ os') : NoteOf os' n := ⟨h.1, ho _ h.2.1, h.2.2⟩

/-- selecting notes by a class other than CSP: the selection only grows at the end -/
theorem Adds.filter {P} (q : NoteId → Bool) (hq : q .CONTENT_SECURITY_POLICY = false) {a b} (h : Adds P a b) :
    ∃ ns, b.filter (fun n => q n.cls) = a.filter (fun n => q n.cls) ++ ns ∧ ∀ n ∈ ns, P n ∧ q n.cls = true := by
  induction h with
  | done ns hn =>
    refine ⟨ns.filter fun n => q n.cls, by simp, fun n h => ?_⟩
    have := List.mem_filter.1 h
    exact ⟨hn n this.1, this.2⟩
  | @cons n n' old new hu _ ih =>
    obtain ⟨ns, he, hn⟩ := ih
    refine ⟨ns, ?_, hn⟩
    rcases hu with rfl | ⟨hc, ⟨ks, rfl⟩, _⟩
    · by_cases h : q n'.cls <;> simp [h, he]
    · have h : q n.cls = false := by rw [hc]; exact hq
      simp [h, he]

/-- no notes of the selected classes are added by something that only adds notes that are not of them -/
theorem Adds.filter_none {P} (q : NoteId → Bool) (hq : q .CONTENT_SECURITY_POLICY = false)
    (hP : ∀ n, P n → q n.cls = false) {a b} (h : Adds P a b) :
    b.filter (fun n => q n.cls) = a.filter (fun n => q n.cls) := by
  obtain ⟨ns, he, hn⟩ := h.filter q hq
  cases ns with
  | nil => simpa using he
  | cons n ns =>
    have := hn n (List.mem_cons_self ..)
    rw [hP n this.1] at this
    exact nomatch this.2

/-! ### `post_check` -/

theorem addToFirstCsp_adds {P} (kid : NoteId × Dict Val)
    (hk : covers kid.1 ([str "message_type"] ++ kid.2.map (·.1)) = true) (hi : inert kid.1 kid.2 = true)
    (ns ns' : List Note)
    (h : addToFirstCsp kid ns = some ns') : Adds P ns ns' := by
  induction ns generalizing ns' with
  | nil => simp [addToFirstCsp] at h
  | cons n ns ih =>
    unfold addToFirstCsp at h
    split at h
    · simp only [Option.some.injEq] at h
      subst h
      refine .cons (.inr ⟨‹_›, ⟨_, rfl⟩, fun hn => ⟨hn.1, ?_, hn.3.1, ?_⟩⟩) (Adds.refl _)
      rotate_left
      · intro s hs
        simp only [Note.addChild, List.mem_append, List.mem_singleton] at hs
        rcases hs with hs | rfl
        · exact hn.3.2 s hs
        · exact quiet_dupdate hi
      intro s hs x hx
      simp only [Note.addChild, List.mem_append, List.mem_singleton] at hs
      rcases hs with hs | rfl
      · exact hn.2 s hs x hx
      · show dhas (HL.dupdate n.vars kid.2) x = true
        rw [dhas_dupdate]
        have := (List.all_eq_true.1 hk) x hx
        simp only [List.contains_iff_mem, List.mem_append, List.mem_singleton] at this
        rcases this with rfl | hm
        · simp [hn.1 _ (List.mem_cons_self ..)]
        · simp [(dhas_iff_mem_keys kid.2 x).2 hm]
    · cases hr : addToFirstCsp kid ns with
      | none => simp [hr] at h
      | some r =>
        simp only [hr, Option.map_some, Option.some.injEq] at h
        subst h
        exact .cons (.inl rfl) (ih _ hr)

theorem cspPostCheck_adds (c) {add : AddNote} (hg : AddGood add keys1) (ro h) (ns : List Note)
    (hro : calm (.str ro.text) = true) :
    Adds FieldNote ns (csp.postCheck c add ro h ns).1 := by
  unfold csp.postCheck
  split
  · exact Adds.refl _
  · split
    · exact Adds.refl _
    · rename_i missing hm
      clear hm
      dsimp only
      induction missing generalizing ns with
      | nil => exact Adds.refl _
      | cons e es ih =>
        simp only [List.foldl_cons]
        refine Adds.trans (stable_from _) ?_ (ih _)
        split
        · exact addToFirstCsp_adds _ rfl (inert_one rfl rfl hro) _ _ ‹_›
        · exact Adds.append _ (mem_one (fieldNote_mkG hg rfl rfl (inert_one rfl rfl hro)))

theorem postCheck_adds (c) {add : AddNote} (hg : AddGood add keys1) (h : Handler) (ns : List Note) :
    Adds FieldNote ns (h.postCheck c add ns).1 := by
  unfold Handler.postCheck appendW
  split
  · exact Adds.append _ (accept_ch_post_emits hg _ _)
  · exact Adds.append _ (available_dictionary_post_emits hg _)
  · exact Adds.append _ (content_encoding_post_emits hg _)
  · exact cspPostCheck_adds _ hg _ _ _ rfl
  · exact cspPostCheck_adds _ hg _ _ _ rfl
  · exact Adds.append _ (tokenPolicyPostCheck_emits hg _ _ _ _ rfl rfl rfl)
  · exact Adds.append _ (tokenPolicyPostCheck_emits hg _ _ _ _ rfl rfl rfl)
  · exact Adds.append _ (tokenPolicyPostCheck_emits hg _ _ _ _ rfl rfl rfl)
  · exact Adds.append _ (tokenPolicyPostCheck_emits hg _ _ _ _ rfl rfl rfl)
  · exact Adds.append _ (nel_post_emits hg _ _)
  · exact Adds.refl _

/-! ### whole calls -/

/-- what stays true of a linter: `message_type` is bound, and the handlers keep only notes that can be rendered -/
structure Good (m : Msg) : Prop where
  mt : HasMT m.defaults
  hs : SecOK m.headers
  ts : SecOK m.trailers

theorem Good.sec {m} (h : Good m) (t : Bool) : SecOK (m.section t) := by
  cases t
  · exact h.hs
  · exact h.ts

theorem SecRun.good {t m m'} (h : SecRun t m m') (hg : Good m) : Good m' := by
  obtain ⟨ns, s, rfl, o, _⟩ := h
  cases t
  · exact ⟨hg.mt, o, hg.ts⟩
  · exact ⟨hg.mt, hg.hs, o⟩

theorem SecRun.adds {t m m'} (h : SecRun t m m') : Adds SecNote m.notes m'.notes := by
  obtain ⟨ns, s, rfl, o, p⟩ := h
  cases t <;> exact Adds.append _ p

theorem postCheckHandlers_adds (env related t) (hs : List Handler) (m : Msg) (hm : HasMT m.defaults) :
    ∃ ns, (postCheckHandlers env related t hs m).1 = { m with notes := ns } ∧ Adds FieldNote m.notes ns := by
  induction hs generalizing m with
  | nil => exact ⟨m.notes, rfl, Adds.refl _⟩
  | cons h hs ih =>
    unfold postCheckHandlers
    split
    · exact ih m hm
    · have hp := postCheck_adds ⟨env, m, related⟩ (fieldAdder_good hm t h) h m.notes
      generalize h.postCheck _ _ _ = p at hp
      obtain ⟨notes, r⟩ := p
      dsimp only at *
      cases r with
      | error e => exact ⟨notes, rfl, hp⟩
      | ok u =>
        obtain ⟨ns, e, ha⟩ := ih { m with notes := notes } hm
        exact ⟨ns, by rw [e], hp.trans (stable_from _) ha⟩

/-- the message as the checks of `finish_content` see it: only these attributes can differ -/
def FinishView (m m' : Msg) : Prop :=
  ∃ ns tr co ha de ca,
    m' = { m with notes := ns, trailers := tr, complete := co, contentHash := ha, decoded := de, caching := ca }

theorem FinishView.refl (m) : FinishView m m := ⟨_, _, _, _, _, _, rfl⟩
theorem FinishView.trans {a b c} : FinishView a b → FinishView b c → FinishView a c := by
  rintro ⟨_, _, _, _, _, _, rfl⟩ ⟨_, _, _, _, _, _, rfl⟩; exact ⟨_, _, _, _, _, _, rfl⟩

theorem andThen_ok {α β} {r : Run α} {f : Msg → α → Run β} {m' : Msg} {b : β} (h : Run.andThen r f = (m', .ok b)) :
    ∃ m1 a, r = (m1, .ok a) ∧ f m1 a = (m', .ok b) := by
  obtain ⟨m1, x⟩ := r
  cases x with
  | error e => simp [Run.andThen] at h
  | ok a => exact ⟨m1, a, rfl, h⟩

theorem runW_ok {α} {m m' : Msg} {w : W α} {a : α} (h : m.runW w = (m', .ok a)) : m' = m.addNotes w.notes ∧ w.res = .ok a := by
  unfold Msg.runW at h
  simp only [Prod.mk.injEq] at h
  exact ⟨h.1.symm, h.2⟩

theorem contentChecks_ok (env related) (m m' : Msg) (h : (if m.noContent then (m, .ok ())
    else Run.andThen (m.runW (verifyContentType ⟨env, m, related⟩)) fun m _ =>
      m.runW (verifyCharset ⟨env, m, related⟩) : Run Unit) = (m', .ok ())) :
    m' = m.addNotes (if m.noContent then [] else
      (verifyContentType ⟨env, m, related⟩).notes ++ (verifyCharset ⟨env, m, related⟩).notes) ∧
    (m.noContent = false → (verifyContentType ⟨env, m, related⟩).res = .ok () ∧ (verifyCharset ⟨env, m, related⟩).res = .ok ()) := by
  split at h
  · rw [if_pos ‹_›, addNotes_nil]; exact ⟨(Prod.mk.inj h).1.symm, fun hn => by rename_i hx; rw [hn] at hx; exact nomatch hx⟩
  · rw [if_neg ‹_›]
    obtain ⟨m8, _, h10, h11⟩ := andThen_ok h
    obtain ⟨rfl, r1⟩ := runW_ok h10
    obtain ⟨rfl, r2⟩ := runW_ok h11
    rw [addNotes_addNotes]
    exact ⟨rfl, fun _ => ⟨r1, r2⟩⟩

/-- the verdicts a response gets at the end besides those of its fields, in order -/
def responseVerdicts (env : Env) (related : Option Msg) (m : Msg) : List Note :=
  (cacheCheck ⟨env, m, related⟩).2.1.notes ++ (Status.check ⟨env, m, related⟩).notes ++
  (if m.noContent then [] else
    (verifyContentType ⟨env, { m with contentHash := some (env.md5 m.hashed) }, related⟩).notes ++
    (verifyCharset ⟨env, { m with contentHash := some (env.md5 m.hashed) }, related⟩).notes)

/-- the checks that ran to completion when `finish_content` returns -/
def ChecksRan (env : Env) (related : Option Msg) (m : Msg) : Prop :=
  (F.checkPreflightResponse ⟨env, m, related⟩ (m.adder [])).res = .ok () ∧
  (Status.check ⟨env, m, related⟩).res = .ok () ∧
  (m.noContent = false →
    (verifyContentType ⟨env, { m with contentHash := some (env.md5 m.hashed) }, related⟩).res = .ok () ∧
    (verifyCharset ⟨env, { m with contentHash := some (env.md5 m.hashed) }, related⟩).res = .ok ())

/-- the notes a finished response has gained, when `finish_content` returns: field notes, the verdict on the
length, that on CORS preflights, the verdicts on caching, status, content type and charset, field notes -/
theorem finish_response_full (env : Env) (related : Option Msg) (co : Bool) (ts : List (Str × Str)) (m m' : Msg)
    (rn : List Note) (hg : Good m) (hk : m.kind = .response)
    (h : m.finishContent env related co ts = ((m', .ok ()), rn)) :
    ∃ na, Adds SecNote m.notes na ∧ (∀ n ∈ (F.checkPreflightResponse ⟨env, m, related⟩ (m.adder [])).notes, NoteFrom .cors n) ∧
      Adds FieldNote (na ++ lengthNotes m ++ (F.checkPreflightResponse ⟨env, m, related⟩ (m.adder [])).notes ++
        responseVerdicts env related m) m'.notes ∧
      FinishView m m' ∧ m'.caching = (cacheCheck ⟨env, m, related⟩).1 ∧ m'.caching.isSome ∧
      rn = (cacheCheck ⟨env, m, related⟩).2.2 ∧ ChecksRan env related m := by
  unfold Msg.finishContent at h
  dsimp only at h
  have hr : SecRun true ({ m with complete := co, contentHash := some (env.md5 m.hashed) } : Msg)
      (if ts.isEmpty then (({ m with complete := co, contentHash := some (env.md5 m.hashed) } : Msg), .ok ())
        else processSection env related true ts { m with complete := co, contentHash := some (env.md5 m.hashed) } : Run Unit).1 := by
    split
    · exact SecRun.refl hg.ts
    · exact processSection_run env related true ts _ hg.mt hg.ts
  generalize (if ts.isEmpty then (({ m with complete := co, contentHash := some (env.md5 m.hashed) } : Msg), .ok ())
        else processSection env related true ts { m with complete := co, contentHash := some (env.md5 m.hashed) } : Run Unit) = r at h hr
  obtain ⟨m1, x⟩ := r
  cases x with
  | error e => simp at h
  | ok u =>
    dsimp only at h hr
    have ha := hr.adds
    obtain ⟨n1, s1, rfl, o1, p1⟩ := hr
    dsimp only at ha
    generalize hm2 : ({ m with notes := m.notes ++ n1, trailers := s1, complete := co, contentHash := some (env.md5 m.hashed), decoded := { m.decoded with hash := some (env.md5 m.decoded.hashed) } } : Msg) = m2
    have e2 : ({ (Msg.setSection { m with complete := co, contentHash := some (env.md5 m.hashed) } true s1).addNotes n1 with decoded := { ((Msg.setSection { m with complete := co, contentHash := some (env.md5 m.hashed) } true s1).addNotes n1).decoded with hash := some (env.md5 ((Msg.setSection { m with complete := co, contentHash := some (env.md5 m.hashed) } true s1).addNotes n1).decoded.hashed) } } : Msg) = m2 := hm2
    rw [e2] at h
    have hl : lengthNotes m2 = lengthNotes m := by subst hm2; rfl
    rw [hl] at h
    have hk2 : (m2.addNotes (lengthNotes m)).kind = .response := by subst hm2; exact hk
    unfold postChecks at h
    rw [hk2] at h
    dsimp only at h
    unfold responsePostChecks at h
    have hv2 : FinishView m (m2.addNotes (lengthNotes m)) := by subst hm2; exact ⟨_, _, _, _, _, _, rfl⟩
    have hc2 : (m2.addNotes (lengthNotes m)).contentHash = some (env.md5 m.hashed) := by subst hm2; rfl
    have hn2 : (m2.addNotes (lengthNotes m)).notes = (m.notes ++ n1) ++ lengthNotes m := by subst hm2; rfl
    have hm3 : HasMT (m2.addNotes (lengthNotes m)).defaults := by subst hm2; exact hg.mt
    have hp := checkPreflightResponse_emits (adder_good hm3 [] [] [str "message_type"] rfl) ⟨env, m2.addNotes (lengthNotes m), related⟩
    generalize m2.addNotes (lengthNotes m) = m3 at *
    cases hpr : (checkPreflightResponse ⟨env, m3, related⟩ (m3.adder [])).res with
    | error e => simp [Msg.runW, hpr, Run.andThen] at h
    | ok u =>
      have e3 : m3.runW (checkPreflightResponse ⟨env, m3, related⟩ (m3.adder [])) =
        (m3.addNotes (checkPreflightResponse ⟨env, m3, related⟩ (m3.adder [])).notes, .ok ()) := by
        unfold Msg.runW; rw [hpr]
      rw [e3] at h
      dsimp only at h
      unfold Emits at hp
      have hpm : checkPreflightResponse ⟨env, m3, related⟩ (m3.adder []) = F.checkPreflightResponse ⟨env, m, related⟩ (m.adder []) := by
        obtain ⟨_, _, _, _, _, _, rfl⟩ := hv2; rfl
      rw [hpm] at h hp hpr
      unfold ChecksRan
      generalize (F.checkPreflightResponse ⟨env, m, related⟩ (m.adder [])).notes = pn at h hp ⊢
      have hcc : cacheCheck ⟨env, m3.addNotes pn, related⟩ = cacheCheck ⟨env, m, related⟩ := by
        obtain ⟨_, _, _, _, _, _, rfl⟩ := hv2; rfl
      rw [hcc] at h
      have hcs : (cacheCheck ⟨env, m, related⟩).2.1.res = .ok () → (cacheCheck ⟨env, m, related⟩).1.isSome := by
        unfold cacheCheck
        cases cacheInputs ⟨env, m, related⟩ with
        | error e => intro h; exact nomatch h
        | ok i => dsimp only; intro h; rw [h]; rfl
      unfold responseVerdicts
      generalize hce : cacheCheck ⟨env, m, related⟩ = cc at h hcs
      obtain ⟨ca, w, rq⟩ := cc
      dsimp only at h hcs ⊢
      simp only [Prod.mk.injEq] at h
      obtain ⟨h, rfl⟩ := h
      obtain ⟨m4, _, h4, h⟩ := andThen_ok h
      obtain ⟨m5, _, h5, hlast⟩ := andThen_ok h
      obtain ⟨m6, _, h6, h7⟩ := andThen_ok h4
      obtain ⟨rfl, hw⟩ := runW_ok h6
      have hs := hcs hw
      cases ca with
      | none => simp at hs
      | some st =>
        dsimp only at h7
        obtain ⟨m7, _, h8, h9⟩ := andThen_ok h7
        obtain ⟨rfl, hw8⟩ := runW_ok h8
        obtain ⟨n3, t3, co3, ha3, de3, ca3, rfl⟩ := hv2
        dsimp only [Msg.addNotes] at hc2 hn2 hp
        subst hc2 hn2
        have hpost : ∃ mv, m4 = mv ∧ mv.notes = m.notes ++ n1 ++ lengthNotes m ++ pn ++ w.notes ++
            (Status.check ⟨env, m, related⟩).notes ++ (if m.noContent then [] else
              (verifyContentType ⟨env, { m with contentHash := some (env.md5 m.hashed) }, related⟩).notes ++
              (verifyCharset ⟨env, { m with contentHash := some (env.md5 m.hashed) }, related⟩).notes) ∧
            FinishView m mv ∧ mv.caching = some st ∧ (Status.check ⟨env, m, related⟩).res = .ok () ∧ (m.noContent = false →
              (verifyContentType ⟨env, { m with contentHash := some (env.md5 m.hashed) }, related⟩).res = .ok () ∧
              (verifyCharset ⟨env, { m with contentHash := some (env.md5 m.hashed) }, related⟩).res = .ok ()) := by
          refine ⟨m4, rfl, ?_⟩
          obtain ⟨h10, h10'⟩ := contentChecks_ok env related _ _ h9
          refine ⟨?_, ?_, ?_, hw8, h10'⟩
          · rw [h10]; rfl
          · rw [h10]; exact ⟨_, _, _, _, _, _, rfl⟩
          · rw [h10]; rfl
        obtain ⟨mv, rfl, hnv, hvv, hca, hran⟩ := hpost
        have hmt4 : HasMT m4.defaults := by obtain ⟨_, _, _, _, _, _, rfl⟩ := hvv; exact hg.mt
        obtain ⟨ns5, e5, a5⟩ := postCheckHandlers_adds env related false (m4.headers.handlers.map (·.2)) m4 hmt4
        have e5' : m5 = { m4 with notes := ns5 } := (congrArg Prod.fst h5).symm.trans e5
        have hmt5 : HasMT m5.defaults := by rw [e5']; exact hmt4
        obtain ⟨ns6, e6, a6⟩ := postCheckHandlers_adds env related true (m5.trailers.handlers.map (·.2)) m5 hmt5
        have e6' : m' = { m5 with notes := ns6 } := (congrArg Prod.fst hlast).symm.trans e6
        refine ⟨m.notes ++ n1, Adds.append _ p1, hp, ?_, ?_, ?_, ?_, rfl, hpr, hran⟩
        · rw [e6']
          refine Adds.trans (stable_from _) (b := ns5) ?_ (by rw [e5'] at a6; exact a6)
          rw [hnv] at a5
          simpa only [List.append_assoc] using a5
        · rw [e6', e5']
          obtain ⟨_, _, _, _, _, _, rfl⟩ := hvv
          exact ⟨_, _, _, _, _, _, rfl⟩
        · rw [e6', e5']; exact hca
        · rw [e6', e5']; show (m4.caching).isSome = true; rw [hca]; rfl

theorem finish_response (env : Env) (related : Option Msg) (co : Bool) (ts : List (Str × Str)) (m m' : Msg)
    (rn : List Note) (hg : Good m) (hk : m.kind = .response)
    (h : m.finishContent env related co ts = ((m', .ok ()), rn)) :
    ∃ na nb, Adds SecNote m.notes na ∧ Adds (NoteFrom .cors) (na ++ lengthNotes m) nb ∧
      Adds FieldNote (nb ++ responseVerdicts env related m) m'.notes ∧
      FinishView m m' ∧ m'.caching = (cacheCheck ⟨env, m, related⟩).1 ∧ m'.caching.isSome ∧
      rn = (cacheCheck ⟨env, m, related⟩).2.2 := by
  obtain ⟨na, h1, h2, h3, h4, h5, h6, h7, _⟩ := finish_response_full env related co ts m m' rn hg hk h
  exact ⟨na, _, h1, Adds.append _ h2, h3, h4, h5, h6, h7⟩

/-- the notes a finished request has gained, when `finish_content` returns -/
theorem finish_request (env : Env) (related : Option Msg) (co : Bool) (ts : List (Str × Str)) (m m' : Msg)
    (rn : List Note) (hg : Good m) (hk : m.kind = .request)
    (h : m.finishContent env related co ts = ((m', .ok ()), rn)) :
    ∃ na, Adds SecNote m.notes na ∧
      Adds FieldNote (na ++ lengthNotes m ++ (requestPostChecks env related m).notes) m'.notes ∧
      FinishView m m' ∧ rn = [] := by
  unfold Msg.finishContent at h
  dsimp only at h
  have hr : SecRun true ({ m with complete := co, contentHash := some (env.md5 m.hashed) } : Msg)
      (if ts.isEmpty then (({ m with complete := co, contentHash := some (env.md5 m.hashed) } : Msg), .ok ())
        else processSection env related true ts { m with complete := co, contentHash := some (env.md5 m.hashed) } : Run Unit).1 := by
    split
    · exact SecRun.refl hg.ts
    · exact processSection_run env related true ts _ hg.mt hg.ts
  generalize (if ts.isEmpty then (({ m with complete := co, contentHash := some (env.md5 m.hashed) } : Msg), .ok ())
        else processSection env related true ts { m with complete := co, contentHash := some (env.md5 m.hashed) } : Run Unit) = r at h hr
  obtain ⟨m1, x⟩ := r
  cases x with
  | error e => simp at h
  | ok u =>
    dsimp only at h hr
    have ha := hr.adds
    obtain ⟨n1, s1, rfl, o1, p1⟩ := hr
    dsimp only at ha
    generalize hm2 : ({ m with notes := m.notes ++ n1, trailers := s1, complete := co, contentHash := some (env.md5 m.hashed), decoded := { m.decoded with hash := some (env.md5 m.decoded.hashed) } } : Msg) = m2
    have e2 : ({ (Msg.setSection { m with complete := co, contentHash := some (env.md5 m.hashed) } true s1).addNotes n1 with decoded := { ((Msg.setSection { m with complete := co, contentHash := some (env.md5 m.hashed) } true s1).addNotes n1).decoded with hash := some (env.md5 ((Msg.setSection { m with complete := co, contentHash := some (env.md5 m.hashed) } true s1).addNotes n1).decoded.hashed) } } : Msg) = m2 := hm2
    rw [e2] at h
    have hl : lengthNotes m2 = lengthNotes m := by subst hm2; rfl
    rw [hl] at h
    have hk2 : (m2.addNotes (lengthNotes m)).kind = .request := by subst hm2; exact hk
    unfold postChecks at h
    rw [hk2] at h
    dsimp only at h
    simp only [Prod.mk.injEq] at h
    obtain ⟨h, rfl⟩ := h
    have hv2 : FinishView m (m2.addNotes (lengthNotes m)) := by subst hm2; exact ⟨_, _, _, _, _, _, rfl⟩
    have hn2 : (m2.addNotes (lengthNotes m)).notes = (m.notes ++ n1) ++ lengthNotes m := by subst hm2; rfl
    have hrp : requestPostChecks env related (m2.addNotes (lengthNotes m)) = requestPostChecks env related m := by
      subst hm2; rfl
    obtain ⟨m4, _, h4, h⟩ := andThen_ok h
    obtain ⟨m5, _, h5, hlast⟩ := andThen_ok h
    obtain ⟨e4, _⟩ := runW_ok h4
    rw [hrp] at e4
    have hvv : FinishView m m4 := by
      obtain ⟨_, _, _, _, _, _, hv⟩ := hv2
      rw [e4, hv]
      exact ⟨_, _, _, _, _, _, rfl⟩
    have hnv : m4.notes = m.notes ++ n1 ++ lengthNotes m ++ (requestPostChecks env related m).notes := by
      rw [e4]; show (m2.addNotes (lengthNotes m)).notes ++ _ = _; rw [hn2]
    have hmt4 : HasMT m4.defaults := by obtain ⟨_, _, _, _, _, _, rfl⟩ := hvv; exact hg.mt
    obtain ⟨ns5, e5, a5⟩ := postCheckHandlers_adds env related false (m4.headers.handlers.map (·.2)) m4 hmt4
    have e5' : m5 = { m4 with notes := ns5 } := (congrArg Prod.fst h5).symm.trans e5
    have hmt5 : HasMT m5.defaults := by rw [e5']; exact hmt4
    obtain ⟨ns6, e6, a6⟩ := postCheckHandlers_adds env related true (m5.trailers.handlers.map (·.2)) m5 hmt5
    have e6' : m' = { m5 with notes := ns6 } := (congrArg Prod.fst hlast).symm.trans e6
    refine ⟨m.notes ++ n1, Adds.append _ p1, ?_, ?_, rfl⟩
    · rw [e6']
      refine Adds.trans (stable_from _) (b := ns5) ?_ (by rw [e5'] at a6; exact a6)
      rw [hnv] at a5
      exact a5
    · rw [e6', e5']
      obtain ⟨_, _, _, _, _, _, rfl⟩ := hvv
      exact ⟨_, _, _, _, _, _, rfl⟩

/-! ### any outcome -/

/-- every module -/
def allOrigins : List Origin := [.line, .frame, .field, .cors, .cache, .charset, .encoding, .contentType, .message, .status]

theorem mem_allOrigins (o : Origin) : o ∈ allOrigins := by cases o <;> decide

/-- a note a linter may add -/
abbrev LintNote : Note → Prop := NoteOf allOrigins

theorem NoteFrom.lint {o n} (h : NoteFrom o n) : LintNote n := h.of (mem_allOrigins o)

theorem SecNote.lint {n} (h : SecNote n) : LintNote n := NoteFrom.lint ⟨h.1, rfl⟩

theorem lint_mono {o} : ∀ n, NoteFrom o n → LintNote n := fun _ h => h.lint

theorem lengthNotes_lint (m : Msg) (hm : HasMT m.defaults) : ∀ n ∈ lengthNotes m, NoteOf [.message] n := by
  have hg := fun s => adder_good hm s [] [str "message_type"] rfl
  unfold lengthNotes
  split
  · split
    · exact mem_none
    · refine mem_ite mem_none (mem_ite ?_ ?_)
      · exact mem_one ((fieldNote_mkG (hg _) rfl rfl).of (List.mem_singleton.2 rfl))
      · exact mem_one ((fieldNote_mkG (hg _) rfl rfl).of (List.mem_singleton.2 rfl))
  · refine mem_ite (mem_one ⟨fun h => absurd rfl h, List.mem_singleton.2 rfl, ?_, by simp [AddNote.mk1, mkNote],
      (fun k hk => nomatch hk), by simp [AddNote.mk1, mkNote]⟩) mem_none
    show HasMT (dupdate _ _)
    unfold HasMT
    rw [dhas_dupdate]
    show (_ || dhas m.defaults _) = true
    rw [hm, Bool.or_true]

theorem emits_noteOf {α o os} {w : W α} (ho : o ∈ os) (h : Emits (NoteFrom o) w) : Emits (NoteOf os) w :=
  fun n hn => (h n hn).of ho

theorem requestPostChecks_lint (env related) (m : Msg) (hm : HasMT m.defaults) :
    Emits (NoteOf [.cors, .message]) (requestPostChecks env related m) := by
  have hg := fun s => adder_good hm s [] [str "message_type"] rfl
  unfold requestPostChecks
  refine emits_bind (emits_noteOf (by decide) (checkPreflightRequest_emits (hg []) _)) fun _ => ?_
  refine emits_bind (emits_when fun _ => emits_noteOf (o := .message) (by decide) (emits_addG (hg _) rfl rfl rfl)) fun _ => ?_
  split
  · refine emits_when fun hw => emits_noteOf (o := .message) (by decide) (emits_addG (hg _) rfl rfl (inert_one rfl rfl ?_))
    simp only [Bool.and_eq_true] at hw
    exact calm_among hw.1.2 (by decide +kernel)
  · exact emits_pure _

/-- notes added, everything else (but the caching verdict) as before -/
structure OnlyAdds (P : Note → Prop) (m m' : Msg) : Prop where
  adds : Adds P m.notes m'.notes
  same : ∃ ns ca, m' = { m with notes := ns, caching := ca }

theorem OnlyAdds.trans {P} (hP : Stable P) {a b c} (h1 : OnlyAdds P a b) (h2 : OnlyAdds P b c) : OnlyAdds P a c := by
  obtain ⟨a1, _, _, rfl⟩ := h1
  obtain ⟨a2, _, _, rfl⟩ := h2
  exact ⟨a1.trans hP a2, _, _, rfl⟩

theorem OnlyAdds.add {P m ns} (h : ∀ n ∈ ns, P n) : OnlyAdds P m (m.addNotes ns) := ⟨Adds.append _ h, _, _, rfl⟩

theorem OnlyAdds.mt {P m m'} (h : OnlyAdds P m m') (hm : HasMT m.defaults) : HasMT m'.defaults := by
  obtain ⟨_, _, _, rfl⟩ := h; exact hm

theorem andThen_onlyAdds {α β P} (hP : Stable P) {m : Msg} {r : Run α} {f : Msg → α → Run β} (h : OnlyAdds P m r.1)
    (hf : ∀ a, OnlyAdds P r.1 (f r.1 a).1) : OnlyAdds P m (Run.andThen r f).1 := by
  obtain ⟨m1, x⟩ := r
  cases x with
  | error e => exact h
  | ok a => exact h.trans hP (hf _)

theorem runW_onlyAdds {α P} {m : Msg} {w : W α} (h : Emits P w) : OnlyAdds P m (m.runW w).1 := OnlyAdds.add h

theorem postChecks_lint (env related) (m : Msg) (hm : HasMT m.defaults) :
    OnlyAdds LintNote m (postChecks env related m).1.1 := by
  have hst := stable_of allOrigins
  unfold postChecks
  split
  · exact runW_onlyAdds fun n hn => (requestPostChecks_lint env related m hm n hn).mono fun o _ => mem_allOrigins o
  · unfold responsePostChecks
    have h0 : OnlyAdds LintNote m (m.runW (checkPreflightResponse ⟨env, m, related⟩ (m.adder []))).1 :=
      runW_onlyAdds fun n hn => (checkPreflightResponse_emits (adder_good hm [] [] [str "message_type"] rfl) _ n hn).lint
    generalize m.runW (checkPreflightResponse ⟨env, m, related⟩ (m.adder [])) = r at h0
    obtain ⟨m1, x⟩ := r
    cases x with
    | error e => exact h0
    | ok u =>
      dsimp only at *
      have hm1 := h0.mt hm
      refine h0.trans hst ?_
      have hc := cacheCheck_emits ⟨env, m1, related⟩ hm1
      generalize cacheCheck ⟨env, m1, related⟩ = cc at hc
      obtain ⟨ca, w, rn⟩ := cc
      dsimp only at *
      have key : ∀ m2 : Msg, HasMT m2.defaults → OnlyAdds LintNote m2
          (Run.andThen (m2.runW w) fun m _ => Run.andThen (m.runW (Status.check ⟨env, m, related⟩)) fun m _ =>
            if m.noContent then (m, .ok ())
            else Run.andThen (m.runW (verifyContentType ⟨env, m, related⟩)) fun m _ =>
              m.runW (verifyCharset ⟨env, m, related⟩)).1 := by
        intro m2 hm2
        have hw : OnlyAdds LintNote m2 (m2.runW w).1 := runW_onlyAdds fun n hn => (hc n hn).lint
        refine andThen_onlyAdds hst hw fun _ => ?_
        have hm3 := hw.mt hm2
        clear hw
        generalize (m2.runW w).1 = m3 at *
        have hs : OnlyAdds LintNote m3 (m3.runW (Status.check ⟨env, m3, related⟩)).1 :=
          runW_onlyAdds fun n hn => (statusCheck_emits ⟨env, m3, related⟩ hm3 n hn).lint
        refine andThen_onlyAdds hst hs fun _ => ?_
        have hm4 := hs.mt hm3
        clear hs
        generalize (m3.runW (Status.check ⟨env, m3, related⟩)).1 = m4 at *
        split
        · exact ⟨Adds.refl _, _, _, rfl⟩
        · have ht : OnlyAdds LintNote m4 (m4.runW (verifyContentType ⟨env, m4, related⟩)).1 :=
            runW_onlyAdds fun n hn => (verifyContentType_emits ⟨env, m4, related⟩ hm4 n hn).lint
          refine andThen_onlyAdds hst ht fun _ => ?_
          have hm5 := ht.mt hm4
          exact runW_onlyAdds fun n hn => (verifyCharset_emits ⟨env, _, related⟩ hm5 n hn).lint
      cases ca with
      | none => exact key m1 hm1
      | some st =>
        have h2 : OnlyAdds LintNote m1 { m1 with caching := some st } := ⟨Adds.refl _, _, _, rfl⟩
        exact h2.trans hst (key _ hm1)

theorem finishContent_lint (env related co ts) (m : Msg) (hg : Good m) :
    Adds LintNote m.notes (m.finishContent env related co ts).1.1.notes ∧ Good (m.finishContent env related co ts).1.1 := by
  have hst := stable_of allOrigins
  unfold Msg.finishContent
  dsimp only
  generalize hm0 : ({ m with complete := co, contentHash := some (env.md5 m.hashed) } : Msg) = m0
  have hg0 : Good m0 := by subst hm0; exact ⟨hg.mt, hg.hs, hg.ts⟩
  have hn0 : m0.notes = m.notes := by subst hm0; rfl
  rw [← hn0]
  have hr : SecRun true m0 (if ts.isEmpty then (m0, .ok ()) else processSection env related true ts m0 : Run Unit).1 := by
    split
    · exact SecRun.refl hg0.ts
    · exact processSection_run env related true ts _ hg0.mt hg0.ts
  generalize (if ts.isEmpty then (m0, .ok ()) else processSection env related true ts m0 : Run Unit) = r at hr
  obtain ⟨m1, x⟩ := r
  have ha := hr.adds.mono (fun _ h => h.lint)
  have hg1 := hr.good hg0
  cases x with
  | error e => exact ⟨ha, hg1⟩
  | ok u =>
    dsimp only at *
    generalize hm2 : ({ m1 with decoded := { m1.decoded with hash := some (env.md5 m1.decoded.hashed) } } : Msg) = m2
    have hg2 : Good m2 := by subst hm2; exact ⟨hg1.mt, hg1.hs, hg1.ts⟩
    have h2 : m2.notes = m1.notes := by rw [← hm2]
    rw [← h2] at ha
    have h3 : OnlyAdds LintNote m2 (m2.addNotes (lengthNotes m2)) :=
      OnlyAdds.add fun n hn => (lengthNotes_lint m2 hg2.mt n hn).mono fun o _ => mem_allOrigins o
    have h4 := h3.trans hst (postChecks_lint env related _ (h3.mt hg2.mt))
    generalize postChecks env related (m2.addNotes (lengthNotes m2)) = pc at h4
    obtain ⟨r, rn⟩ := pc
    dsimp only at *
    have h5 : OnlyAdds LintNote m2 (Run.andThen r fun m _ =>
        Run.andThen (postCheckHandlers env related false (m.headers.handlers.map (·.2)) m) fun m _ =>
          postCheckHandlers env related true (m.trailers.handlers.map (·.2)) m).1 := by
      refine andThen_onlyAdds hst h4 fun _ => ?_
      have hm4 := h4.mt hg2.mt
      generalize r.1 = m4 at *
      have h6 : OnlyAdds LintNote m4 (postCheckHandlers env related false (m4.headers.handlers.map (·.2)) m4).1 := by
        obtain ⟨ns, e, a⟩ := postCheckHandlers_adds env related false (m4.headers.handlers.map (·.2)) m4 hm4
        exact ⟨by rw [e]; exact a.mono lint_mono, _, _, e⟩
      refine andThen_onlyAdds hst h6 fun _ => ?_
      have hm5 := h6.mt hm4
      generalize (postCheckHandlers env related false (m4.headers.handlers.map (·.2)) m4).1 = m5 at *
      obtain ⟨ns, e, a⟩ := postCheckHandlers_adds env related true (m5.trailers.handlers.map (·.2)) m5 hm5
      exact ⟨by rw [e]; exact a.mono lint_mono, _, _, e⟩
    refine ⟨ha.trans hst h5.adds, ?_⟩
    obtain ⟨_, _, _, e⟩ := h5
    rw [e]
    exact ⟨hg2.mt, hg2.hs, hg2.ts⟩

/-- the notes added to the related request -/
theorem finishContent_related (env related co ts) (m : Msg) (hr : ∀ r, related = some r → HasMT r.defaults) :
    ∀ n ∈ (m.finishContent env related co ts).2, NoteFrom .cache n ∧ n.cls = .STORE_METHOD_UNCACHEABLE := by
  unfold Msg.finishContent
  dsimp only
  split
  · exact mem_none
  · dsimp only
    unfold postChecks
    split
    · exact mem_none
    · unfold responsePostChecks
      split
      · exact mem_none
      · rename_i m1 _
        exact cacheCheck_request ⟨env, m1, related⟩ hr

/-! ### the other calls -/

theorem requestTopline_lint (env me i v) (m : Msg) (hg : Good m) :
    Adds (NoteOf [.message]) m.notes (m.requestTopline env me i v).1.notes ∧ Good (m.requestTopline env me i v).1 := by
  have hgd := adder_good (m := { m with method := some (asciiReplace me), iri := some (utf8Replace i) }) hg.mt
    (str "uri") [] [str "message_type"] rfl
  unfold Msg.requestTopline
  split
  · exact ⟨Adds.refl _, hg⟩
  · unfold Msg.setUri
    dsimp only
    have hb := mem_one (P := NoteOf [.message]) ((fieldNote_mkG (o := .message) hgd (cls := .URI_BAD_SYNTAX) (vrs := []) (cat := none) rfl rfl).of (by decide))
    split
    · split
      · exact ⟨Adds.append _ hb, ⟨hg.mt, hg.hs, hg.ts⟩⟩
      · exact ⟨Adds.refl _, ⟨hg.mt, hg.hs, hg.ts⟩⟩
    · refine ⟨Adds.trans (stable_of _) (Adds.append m.notes (mem_ite mem_none hb)) (Adds.append _ (mem_ite (mem_one ?_) mem_none)), ⟨hg.mt, hg.hs, hg.ts⟩⟩
      exact (fieldNote_mkG (o := .message) hgd rfl rfl).of (by decide)

theorem responseTopline_lint (v s p) (m : Msg) (hg : Good m) :
    Adds (NoteOf [.message]) m.notes (m.responseTopline v s p).1.notes ∧ Good (m.responseTopline v s p).1 := by
  unfold Msg.responseTopline
  split
  · exact ⟨Adds.refl _, hg⟩
  · dsimp only
    have hgd := adder_good (m := { m with version := asciiReplace v, statusCodeStr := some (asciiReplace s) }) hg.mt
      (str "status") [] [str "message_type"] rfl
    have key : ∀ m1 : Msg, Adds (NoteOf [.message]) m.notes m1.notes ∧ Good m1 →
        ∀ r : Run Unit, r = (match p with
          | none => (m1, .ok ())
          | some p => if p.isEmpty then (m1, .ok ())
            else ({ m1 with statusPhrase := some (asciiReplace p) }.addNotes
              (if nonAscii p then [(({ m with version := asciiReplace v, statusCodeStr := some (asciiReplace s) } : Msg).adder
                (str "status")).mk1 .STATUS_PHRASE_ENCODING] else []), .ok ())) →
        Adds (NoteOf [.message]) m.notes r.1.notes ∧ Good r.1 := by
      intro m1 h1 r hr
      subst hr
      split
      · exact h1
      · split
        · exact h1
        · refine ⟨h1.1.trans (stable_of _) (Adds.append _ (mem_ite (mem_one ?_) mem_none)), ⟨h1.2.mt, h1.2.hs, h1.2.ts⟩⟩
          exact (fieldNote_mkG (o := .message) hgd rfl rfl).of (List.mem_singleton.2 rfl)
    cases hi : pyInt (asciiReplace s) with
    | some n =>
      refine key { m with version := asciiReplace v, statusCodeStr := some (asciiReplace s), statusCode := some n }
        ⟨Adds.refl _, ⟨hg.mt, hg.hs, hg.ts⟩⟩ _ ?_
      cases p <;> rfl
    | none =>
      refine key (({ m with version := asciiReplace v, statusCodeStr := some (asciiReplace s) } : Msg).addNotes
        [(({ m with version := asciiReplace v, statusCodeStr := some (asciiReplace s) } : Msg).adder
          (str "status")).mk1 .STATUS_CODE_NON_NUMERIC]) ⟨Adds.append m.notes (mem_one ((fieldNote_mkG (o := .message) hgd rfl rfl).of (List.mem_singleton.2 rfl))),
        ⟨hg.mt, hg.hs, hg.ts⟩⟩ _ ?_
      cases p <;> rfl

theorem setCharset_same (env) (m : Msg) : ∃ ce, (m.setCharset env).1 = { m with characterEncoding := ce } := by
  unfold Msg.setCharset
  repeat' (first | exact ⟨_, rfl⟩ | split)

theorem processHeaders_lint (env related ls) (m : Msg) (hg : Good m) :
    Adds SecNote m.notes (m.processHeaders env related ls).1.notes ∧ Good (m.processHeaders env related ls).1 := by
  unfold Msg.processHeaders
  have h := processSection_run env related false ls m hg.mt hg.hs
  generalize processSection env related false ls m = r at h
  obtain ⟨m1, x⟩ := r
  have hg1 := h.good hg
  cases x with
  | error e => exact ⟨h.adds, hg1⟩
  | ok u =>
    unfold Run.andThen
    dsimp only at *
    obtain ⟨ce, e⟩ := setCharset_same env m1
    rw [e]
    exact ⟨h.adds, ⟨hg1.mt, hg1.hs, hg1.ts⟩⟩

theorem sinks_good (out : List Str) (m : Msg) (hg : Good m) : Good (out.foldl Msg.sink m) := by
  induction out generalizing m with
  | nil => exact hg
  | cons c out ih => exact ih _ ⟨hg.mt, hg.hs, hg.ts⟩

theorem feedContent_lint (env chunk) (m : Msg) (hg : Good m) :
    Adds (NoteFrom .encoding) m.notes (m.feedContent env chunk).1.notes ∧ Good (m.feedContent env chunk).1 := by
  unfold Msg.feedContent
  dsimp only
  split
  · exact ⟨Adds.refl _, ⟨hg.mt, hg.hs, hg.ts⟩⟩
  · unfold Msg.decodeFeed
    dsimp only
    split
    · exact ⟨Adds.refl _, ⟨hg.mt, hg.hs, hg.ts⟩⟩
    · split
      · exact ⟨Adds.refl _, ⟨hg.mt, hg.hs, hg.ts⟩⟩
      · dsimp only
        refine ⟨?_, ?_⟩
        · rw [sinks_notes]; exact Adds.append _ (feedPipe_emits hg.mt _ _ _)
        · have key : ∀ ns (out : List Str) p, Good { (out.foldl Msg.sink (Msg.addNotes
              { m with contentLength := m.contentLength + chunk.length, hashed := m.hashed ++ chunk } ns)) with decoded := p } := by
            intro ns out p
            have := sinks_good out (Msg.addNotes
              { m with contentLength := m.contentLength + chunk.length, hashed := m.hashed ++ chunk } ns) ⟨hg.mt, hg.hs, hg.ts⟩
            exact ⟨this.mt, this.hs, this.ts⟩
          exact key _ _ _

/-- any call adds only notes of httplint that can be rendered (but for CONTENT_NOT_ALLOWED), and keeps the invariant -/
theorem op_lint (env : Env) (op : Op) (w : World) (hg : Good w.msg) :
    Adds LintNote w.msg.notes (op.run env w).1.msg.notes ∧ Good (op.run env w).1.msg := by
  cases op with
  | requestTopline me i v =>
    exact ⟨(requestTopline_lint env me i v _ hg).1.mono fun n h => h.mono fun o _ => mem_allOrigins o, (requestTopline_lint env me i v _ hg).2⟩
  | responseTopline v s p =>
    exact ⟨(responseTopline_lint v s p _ hg).1.mono fun n h => h.mono fun o _ => mem_allOrigins o, (responseTopline_lint v s p _ hg).2⟩
  | headers ls =>
    exact ⟨(processHeaders_lint env _ ls _ hg).1.mono fun _ h => h.lint, (processHeaders_lint env _ ls _ hg).2⟩
  | feed c => exact ⟨(feedContent_lint env c _ hg).1.mono lint_mono, (feedContent_lint env c _ hg).2⟩
  | finish c ts => exact finishContent_lint env _ c ts _ hg

theorem runAll_lint (env : Env) (ops : List Op) (w : World) (hg : Good w.msg) :
    Adds LintNote w.msg.notes (Op.runAll env ops w).msg.notes ∧ Good (Op.runAll env ops w).msg := by
  induction ops generalizing w with
  | nil => exact ⟨Adds.refl _, hg⟩
  | cons op ops ih =>
    have h := op_lint env op w hg
    have h2 := ih (op.run env w).1 h.2
    exact ⟨h.1.trans (stable_of _) h2.1, h2.2⟩

end HL.Props
