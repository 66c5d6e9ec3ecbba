import Verif.Props.Reach
import Verif.Props.Feeding
import Verif.Props.Toy

/-!
# What `finish_content` adds, by class of note
-/

namespace HL.Props

/-- the notes of the given classes -/
def sel (q : NoteId → Bool) (ns : List Note) : List Note := ns.filter fun n => q n.cls

/-- `m.finish_content(co, ts)` returned, leaving `m'` and having added `rn` to the related request -/
def Finishes (env : Env) (related : Option Msg) (co : Bool) (ts : List (Str × Str)) (m m' : Msg) (rn : List Note) : Prop :=
  m.finishContent env related co ts = ((m', .ok ()), rn)

theorem sel_append (q a b) : sel q (a ++ b) = sel q a ++ sel q b := List.filter_append ..

theorem sel_none {q} {ns : List Note} (h : ∀ n ∈ ns, q n.cls = false) : sel q ns = [] := by
  unfold sel
  rw [List.filter_eq_nil_iff]
  intro n hn
  rw [h n hn]
  simp

theorem sel_all {q} {ns : List Note} (h : ∀ n ∈ ns, q n.cls = true) : sel q ns = ns := by
  unfold sel
  rw [List.filter_eq_self]
  intro n hn
  rw [h n hn]

/-- a choice of classes none of which is defined in the `field` package -/
def NonField (q : NoteId → Bool) : Prop := ∀ c, c.origin = .field ∨ c.origin = .frame ∨ c.origin = .line → q c = false

theorem NonField.adds {q} (hq : NonField q) {a b} (h : Adds FieldNote a b) : sel q b = sel q a :=
  h.filter_none q (hq _ (.inl rfl)) fun n hn => hq _ (.inl hn.2)

theorem NonField.addsSec {q} (hq : NonField q) {a b} (h : Adds SecNote a b) : sel q b = sel q a :=
  h.filter_none q (hq _ (.inl rfl)) fun n hn => hq _ hn.2

/-- the classes of the verdict on the amount of content -/
def isLength : NoteId → Bool
  | .CL_CORRECT | .CL_INCORRECT | .CONTENT_NOT_ALLOWED => true
  | _ => false

theorem isLength_origin {c} (h : isLength c = true) : c.origin = .message := by
  unfold isLength at h
  split at h <;> first | rfl | exact nomatch h

theorem isLength_nonField : NonField isLength := by
  intro c hc
  cases h : isLength c with
  | false => rfl
  | true => rw [isLength_origin h] at hc; exact nomatch hc

theorem isLength_other {o} (ho : o ≠ .message) {n : Note} (h : NoteFrom o n) : isLength n.cls = false := by
  cases hl : isLength n.cls with
  | false => rfl
  | true => exact absurd (h.2 ▸ isLength_origin hl) ho

theorem lengthNotes_isLength (m : Msg) : ∀ n ∈ lengthNotes m, isLength n.cls = true := by
  unfold lengthNotes
  split
  · split
    · simp
    · split
      · simp
      · split <;> simp [isLength]
  · split <;> simp [isLength]

theorem responseVerdicts_from (env related) (m : Msg) (hm : HasMT m.defaults) :
    ∀ n ∈ responseVerdicts env related m, NoteFrom .cache n ∨ NoteFrom .status n ∨ NoteFrom .contentType n ∨ NoteFrom .charset n := by
  intro n hn
  unfold responseVerdicts at hn
  rcases List.mem_append.1 hn with hn | hn
  · rcases List.mem_append.1 hn with hn | hn
    · exact .inl (cacheCheck_emits _ hm n hn)
    · exact .inr (.inl (statusCheck_emits _ hm n hn))
  · split at hn
    · simp at hn
    · rcases List.mem_append.1 hn with hn | hn
      · exact .inr (.inr (.inl (verifyContentType_emits _ (by exact hm) n hn)))
      · exact .inr (.inr (.inr (verifyCharset_emits _ (by exact hm) n hn)))

theorem requestPostChecks_notLength (env related) (m : Msg) (hm : HasMT m.defaults) :
    Emits (fun n => isLength n.cls = false) (requestPostChecks env related m) := by
  unfold requestPostChecks
  refine emits_bind (fun n hn => isLength_other (by decide)
    (checkPreflightRequest_emits (adder_good hm [] [] [str "message_type"] rfl) _ n hn)) fun _ => ?_
  refine emits_bind (emits_when fun _ => by intro n hn; simp at hn; subst hn; rfl) fun _ => ?_
  split
  · exact emits_when fun _ => by intro n hn; simp at hn; subst hn; rfl
  · exact emits_pure _

/-- the verdict on the amount of content is what `finish_content` adds of those classes -/
theorem finish_length {env related co ts m m' rn} (hg : Good m) (h : Finishes env related co ts m m' rn) :
    sel isLength m'.notes = sel isLength m.notes ++ lengthNotes m := by
  have hq := isLength_nonField
  cases hk : m.kind with
  | response =>
    obtain ⟨na, nb, h1, h2, h3, _⟩ := finish_response env related co ts m m' rn hg hk h
    have h2' : sel isLength nb = sel isLength (na ++ lengthNotes m) := h2.filter_none isLength rfl fun n hn => isLength_other (by decide) hn
    rw [hq.adds h3, sel_append, h2', sel_append, hq.addsSec h1, sel_all (lengthNotes_isLength m),
      sel_none (ns := responseVerdicts env related m), List.append_nil]
    intro n hn
    rcases responseVerdicts_from env related m hg.mt n hn with h | h | h | h <;> exact isLength_other (by decide) h
  | request =>
    obtain ⟨na, h1, h2, _⟩ := finish_request env related co ts m m' rn hg hk h
    rw [hq.adds h2, sel_append, sel_append, hq.addsSec h1, sel_all (lengthNotes_isLength m),
      sel_none (ns := (requestPostChecks env related m).notes), List.append_nil]
    exact requestPostChecks_notLength env related m hg.mt

/-- what `finish_content` adds to a response of classes that only the caching, status, content type and charset checks
use -/
theorem finish_verdicts {env related co ts m m' rn} (hg : Good m) (hk : m.kind = .response)
    (h : Finishes env related co ts m m' rn) {q : NoteId → Bool}
    (hq : ∀ c, (c.origin = .field ∨ c.origin = .frame ∨ c.origin = .line) ∨ c.origin = .message ∨ c.origin = .cors → q c = false) :
    sel q m'.notes = sel q m.notes ++ sel q (responseVerdicts env related m) := by
  obtain ⟨na, nb, h1, h2, h3, _⟩ := finish_response env related co ts m m' rn hg hk h
  have hf : NonField q := fun c hc => hq c (.inl hc)
  have h2' : sel q nb = sel q (na ++ lengthNotes m) := h2.filter_none q (hf _ (.inl rfl)) fun n hn => hq _ (.inr (.inr hn.2))
  rw [hf.adds h3, sel_append, h2', sel_append, hf.addsSec h1, sel_none (ns := lengthNotes m), List.append_nil]
  intro n hn
  exact hq _ (.inr (.inl (isLength_origin (lengthNotes_isLength m n hn))))

theorem checkPreflightRequest_ok (c : Ctx) (add : AddNote) : (F.checkPreflightRequest c add).res = .ok () := by
  unfold F.checkPreflightRequest
  dsimp only
  unfold W.when
  repeat' split
  all_goals rfl

/-- what `finish_content` adds of classes that only the checks of preflights use -/
theorem finish_cors {env related co ts m m' rn} (hg : Good m) (h : Finishes env related co ts m m' rn) {q : NoteId → Bool}
    (hq : ∀ c, q c = true → c.origin = .cors) :
    sel q m'.notes = sel q m.notes ++ sel q (match m.kind with
      | .request => (F.checkPreflightRequest ⟨env, m, related⟩ (m.adder [])).notes
      | .response => (F.checkPreflightResponse ⟨env, m, related⟩ (m.adder [])).notes) := by
  have hne : ∀ {c : NoteId}, c.origin ≠ .cors → q c = false := by
    intro c ho
    cases h : q c with
    | false => rfl
    | true => exact absurd (hq _ h) ho
  have hf : NonField q := fun c hc => hne (by rcases hc with hc | hc | hc <;> rw [hc] <;> decide)
  have hl : sel q (lengthNotes m) = [] := sel_none fun n hn => hne (by rw [isLength_origin (lengthNotes_isLength m n hn)]; decide)
  cases hk : m.kind with
  | response =>
    obtain ⟨na, h1, h2, h3, _⟩ := finish_response_full env related co ts m m' rn hg hk h
    rw [hf.adds h3, sel_append, sel_append, sel_append, hl, hf.addsSec h1, List.append_nil, sel_none (ns := responseVerdicts env related m), List.append_nil]
    intro n hn
    apply hne
    rcases responseVerdicts_from env related m hg.mt n hn with h | h | h | h <;> (rw [h.2]; decide)
  | request =>
    obtain ⟨na, h1, h2, _⟩ := finish_request env related co ts m m' rn hg hk h
    rw [hf.adds h2, sel_append, sel_append, hf.addsSec h1, hl, List.append_nil]
    refine congrArg (sel q m.notes ++ ·) ?_
    unfold requestPostChecks
    rw [W.bind_ok (checkPreflightRequest_ok _ _)]
    refine (sel_append ..).trans ?_
    refine Eq.trans (congrArg (sel q (F.checkPreflightRequest ⟨env, m, related⟩ (m.adder [])).notes ++ ·) (sel_none ?_)) (List.append_nil _)
    intro n hn
    apply hne
    have : n.cls.origin = .message := by
      refine emits_bind (P := fun n => n.cls.origin = .message) (emits_when fun _ => by intro n hn; simp at hn; subst hn; rfl) (fun _ => ?_) n hn
      split
      · exact emits_when fun _ => by intro n hn; simp at hn; subst hn; rfl
      · exact emits_pure _
    rw [this]; decide

/-- classes of one module `o` among those four: only that module's check adds them -/
theorem verdicts_cache {env related} {m : Msg} (hm : HasMT m.defaults) {q : NoteId → Bool}
    (hq : ∀ c, q c = true → c.origin = .cache) :
    sel q (responseVerdicts env related m) = sel q (cacheCheck ⟨env, m, related⟩).2.1.notes := by
  have hne : ∀ {o n}, o ≠ .cache → NoteFrom o n → q n.cls = false := by
    intro o n ho hn
    cases h : q n.cls with
    | false => rfl
    | true => exact absurd (hn.2 ▸ hq _ h) ho
  unfold responseVerdicts
  rw [sel_append, sel_append, sel_none (ns := (Status.check _).notes), List.append_nil,
    sel_none (ns := ite _ _ _), List.append_nil]
  · intro n hn
    split at hn
    · simp at hn
    · rcases List.mem_append.1 hn with hn | hn
      · exact hne (by decide) (verifyContentType_emits _ (by exact hm) n hn)
      · exact hne (by decide) (verifyCharset_emits _ (by exact hm) n hn)
  · exact fun n hn => hne (by decide) (statusCheck_emits _ hm n hn)

theorem verdicts_status {env related} {m : Msg} (hm : HasMT m.defaults) {q : NoteId → Bool}
    (hq : ∀ c, q c = true → c.origin = .status) :
    sel q (responseVerdicts env related m) = sel q (Status.check ⟨env, m, related⟩).notes := by
  have hne : ∀ {o n}, o ≠ .status → NoteFrom o n → q n.cls = false := by
    intro o n ho hn
    cases h : q n.cls with
    | false => rfl
    | true => exact absurd (hn.2 ▸ hq _ h) ho
  unfold responseVerdicts
  rw [sel_append, sel_append, sel_none (ns := (cacheCheck _).2.1.notes), List.nil_append,
    sel_none (ns := ite _ _ _), List.append_nil]
  · intro n hn
    split at hn
    · simp at hn
    · rcases List.mem_append.1 hn with hn | hn
      · exact hne (by decide) (verifyContentType_emits _ (by exact hm) n hn)
      · exact hne (by decide) (verifyCharset_emits _ (by exact hm) n hn)
  · exact fun n hn => hne (by decide) (cacheCheck_emits _ hm n hn)

theorem verdicts_content {env related} {m : Msg} (hm : HasMT m.defaults) {q : NoteId → Bool}
    (hq : ∀ c, q c = true → c.origin = .contentType ∨ c.origin = .charset) :
    sel q (responseVerdicts env related m) = if m.noContent then [] else
      sel q ((verifyContentType ⟨env, { m with contentHash := some (env.md5 m.hashed) }, related⟩).notes ++
        (verifyCharset ⟨env, { m with contentHash := some (env.md5 m.hashed) }, related⟩).notes) := by
  have hne : ∀ {o n}, o ≠ .contentType → o ≠ .charset → NoteFrom o n → q n.cls = false := by
    intro o n ho ho' hn
    cases h : q n.cls with
    | false => rfl
    | true =>
      rcases hq _ h with h | h
      · exact absurd (hn.2 ▸ h) ho
      · exact absurd (hn.2 ▸ h) ho'
  unfold responseVerdicts
  rw [sel_append, sel_append, sel_none (ns := (cacheCheck _).2.1.notes), List.nil_append,
    sel_none (ns := (Status.check _).notes), List.nil_append]
  · split <;> rfl
  · exact fun n hn => hne (by decide) (by decide) (statusCheck_emits _ hm n hn)
  · exact fun n hn => hne (by decide) (by decide) (cacheCheck_emits _ hm n hn)

/-- a finished message differs in nothing the user relies on but the notes, the trailers, and the caching verdict -/
theorem finish_view {env related co ts m m' rn} (hg : Good m) (h : Finishes env related co ts m m' rn) :
    FinishView m m' := by
  cases hk : m.kind with
  | response => obtain ⟨_, _, _, _, _, hv, _⟩ := finish_response env related co ts m m' rn hg hk h; exact hv
  | request => obtain ⟨_, _, _, hv, _⟩ := finish_request env related co ts m m' rn hg hk h; exact hv

end HL.Props
