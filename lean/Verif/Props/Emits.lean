import Verif.NoteNeeds
import Verif.Props.Basic
import Verif.Props.Calm

/-!
# Reasoning about the notes a check adds
-/

namespace HL.Props

/-- every note the computation adds satisfies `P` -/
def Emits {α} (P : Note → Prop) (w : W α) : Prop := ∀ n ∈ w.notes, P n

theorem emits_pure {α P} (a : α) : Emits P (pure a : W α) := by simp [Emits]
theorem emits_throw {α P} (e : Exn) : Emits P (W.throw e : W α) := by simp [Emits, W.throw]
theorem emits_lift {α P} (r : Except Exn α) : Emits P (W.lift r) := by simp [Emits, W.lift]

theorem emits_bind {α β P} {x : W α} {f : α → W β} (hx : Emits P x) (hf : ∀ a, Emits P (f a)) :
    Emits P (x >>= f) := by
  intro n hn
  cases hr : x.res with
  | error e => rw [W.bind_err hr] at hn; exact hx n hn
  | ok a =>
    rw [W.bind_ok hr] at hn
    rcases List.mem_append.1 hn with h | h
    · exact hx n h
    · exact hf a n h

theorem emits_when {P} {c : Bool} {w : W Unit} (h : c = true → Emits P w) : Emits P (W.when c w) := by
  unfold W.when
  split
  · exact h ‹_›
  · exact emits_pure _

theorem emits_ite {α P} {c : Prop} [Decidable c] {x y : W α} (hx : Emits P x) (hy : Emits P y) :
    Emits P (if c then x else y) := by
  split
  · exact hx
  · exact hy

theorem emits_forEach {α P} {xs : List α} {f : α → W Unit} (h : ∀ a, Emits P (f a)) : Emits P (W.forEach xs f) := by
  induction xs with
  | nil => exact emits_pure _
  | cons x xs ih => exact emits_bind (h x) fun _ => ih

theorem emits_mapM {α β P} {xs : List α} {f : α → W β} (h : ∀ a, Emits P (f a)) : Emits P (xs.mapM f) := by
  induction xs with
  | nil => simp [emits_pure]
  | cons x xs ih =>
    rw [List.mapM_cons]
    exact emits_bind (h x) fun _ => emits_bind ih fun _ => emits_pure _

/-- the keys `ks` are bound whatever variables are given when the note is added -/
structure AddOK (a : AddNote) (ks : List Str) : Prop where
  has : ∀ k ∈ ks, dhas a.base k = true ∨ dhas a.defaults k = true
  uniq : UniqueKeys a.base

/-- `message_type`, and the variables the class's templates refer to -/
abbrev wants (cls : NoteId) : List Str := str "message_type" :: cls.needs

/-- what the linter shows outside code, in the note and in its sub-notes, adds no markup -/
def Unmarked (n : Note) : Prop := Quiet n.cls n.vars ∧ ∀ s ∈ n.subnotes, Quiet s.cls s.vars

/-- the variables the note's own templates need are bound (and `message_type`), and likewise for its sub-notes; and
what the linter shows outside code adds no markup -/
structure NoteOK (n : Note) : Prop where
  bound : ∀ k ∈ wants n.cls, dhas n.vars k = true
  kids : ∀ s ∈ n.subnotes, ∀ k ∈ wants s.cls, dhas s.vars k = true
  tame : Unmarked n

/-- a note that can be rendered, of a class defined in the module `o` -/
def NoteFrom (o : Origin) (n : Note) : Prop := NoteOK n ∧ n.cls.origin = o

/-- what field code adds: notes that can be rendered, of classes of the `field` package -/
abbrev FieldNote : Note → Prop := NoteFrom .field

/-- are the needs of a class among the keys? -/
def covers (cls : NoteId) (keys : List Str) : Bool := (wants cls).all (fun k => keys.contains k)

theorem dhas_mk1 (a : AddNote) (cls vrs cat) (k : Str) :
    dhas (a.mk1 cls vrs cat).vars k = (dhas vrs k || dhas a.base k || dhas a.defaults k) := by
  show dhas (HL.dupdate a.defaults (HL.dupdate a.base vrs)) k = _
  rw [dhas_dupdate, dhas_dupdate]

theorem noteOK_mk1 {a : AddNote} {ks : List Str} (ha : AddOK a ks) {cls : NoteId} {vrs : Dict Val} {cat}
    (h : covers cls (ks ++ vrs.map (·.1)) = true) (hi : inert cls (a.base ++ vrs) = true) :
    NoteOK (a.mk1 cls vrs cat) := by
  refine ⟨fun k hk => ?_, by simp [AddNote.mk1, mkNote], ?_, by simp [AddNote.mk1, mkNote]⟩
  rotate_left
  · intro k hk
    have h1 := (List.all_eq_true.1 hi) k hk
    rw [Option.any_eq_true] at h1
    obtain ⟨v, hv, hc⟩ := h1
    refine ⟨v, ?_, hc⟩
    show dget (HL.dupdate a.defaults (HL.dupdate a.base vrs)) k = _
    rw [dget_dupdate, dget_reverse (ha.uniq.dupdate _), dget_dupdate, ← dget_reverse ha.uniq, ← dget_append,
      ← List.reverse_append, hv]
    rfl
  have := (List.all_eq_true.1 h) k hk
  simp only [List.contains_iff_mem, List.mem_append] at this
  rw [dhas_mk1]
  rcases this with hm | hm
  · rcases ha.has k hm with h | h <;> simp [h]
  · simp [(dhas_iff_mem_keys vrs k).2 hm]

theorem fieldNote_mk1 {a : AddNote} {ks : List Str} (ha : AddOK a ks) {cls : NoteId} {vrs : Dict Val} {cat}
    (h : covers cls (ks ++ vrs.map (·.1)) = true) {o} (hl : cls.origin = o) (hi : inert cls vrs = true) :
    NoteFrom o (a.mk1 cls vrs cat) :=
  ⟨noteOK_mk1 ha h (inert_append hi), hl⟩

theorem emits_add {a : AddNote} {ks : List Str} (ha : AddOK a ks) {cls : NoteId} {vrs : Dict Val} {cat}
    (h : covers cls (ks ++ vrs.map (·.1)) = true) {o} (hl : cls.origin = o) (hi : inert cls vrs = true) :
    Emits (NoteFrom o) (a.add cls vrs cat) := by
  intro n hn
  simp at hn
  subst hn
  exact fieldNote_mk1 ha h hl hi

/-- a note with children: the children inherit the parent's variables -/
theorem fieldNote_addWith {a : AddNote} {ks : List Str} (ha : AddOK a ks) {cls : NoteId} {vrs : Dict Val} {cat}
    {kids : List (NoteId × Dict Val)} (h : covers cls (ks ++ vrs.map (·.1)) = true) {o} (hl : cls.origin = o)
    (hi : inert cls vrs = true)
    (hk : ∀ k ∈ kids, covers k.1 (ks ++ vrs.map (·.1) ++ k.2.map (·.1)) = true ∧ inert k.1 k.2 = true) :
    NoteFrom o (kids.foldl (fun n k => n.addChild k.1 k.2) (a.mk1 cls vrs cat)) := by
  suffices key : ∀ (kids : List (NoteId × Dict Val)) (n : Note), NoteFrom o n → n.vars = (a.mk1 cls vrs cat).vars →
      (∀ k ∈ kids, covers k.1 (ks ++ vrs.map (·.1) ++ k.2.map (·.1)) = true ∧ inert k.1 k.2 = true) →
      NoteFrom o (kids.foldl (fun n k => n.addChild k.1 k.2) n) from
    key kids _ (fieldNote_mk1 ha h hl hi) rfl hk
  intro kids
  induction kids with
  | nil => intro n hn _ _; exact hn
  | cons k kids ih =>
    intro n hn hv hk
    refine ih _ ⟨⟨hn.1.1, ?_, hn.1.3.1, ?_⟩, hn.2⟩ hv fun k' hk' => hk k' (List.mem_cons_of_mem _ hk')
    rotate_left
    · intro s hs
      simp only [Note.addChild, List.mem_append, List.mem_singleton] at hs
      rcases hs with hs | rfl
      · exact hn.1.3.2 s hs
      · exact quiet_dupdate (hk k (List.mem_cons_self ..)).2
    intro s hs x hx
    simp only [Note.addChild, List.mem_append, List.mem_singleton] at hs
    rcases hs with hs | rfl
    · exact hn.1.2 s hs x hx
    · have := (List.all_eq_true.1 (hk k (List.mem_cons_self ..)).1) x hx
      simp only [List.contains_iff_mem, List.mem_append] at this
      show dhas (HL.dupdate n.vars k.2) x = true
      rw [dhas_dupdate, hv, dhas_mk1]
      rcases this with (hm | hm) | hm
      · rcases ha.has x hm with h | h <;> simp [h]
      · simp [(dhas_iff_mem_keys vrs x).2 hm]
      · simp [(dhas_iff_mem_keys k.2 x).2 hm]

theorem emits_addWith {a : AddNote} {ks : List Str} (ha : AddOK a ks) {cls : NoteId} {vrs : Dict Val} {cat}
    {kids : List (NoteId × Dict Val)} (h : covers cls (ks ++ vrs.map (·.1)) = true) {o} (hl : cls.origin = o)
    (hi : inert cls vrs = true)
    (hk : ∀ k ∈ kids, covers k.1 (ks ++ vrs.map (·.1) ++ k.2.map (·.1)) = true ∧ inert k.1 k.2 = true) :
    Emits (NoteFrom o) (a.addWith cls vrs cat kids) := by
  intro n hn
  simp only [AddNote.addWith, List.mem_singleton] at hn
  subst hn
  exact fieldNote_addWith ha h hl hi hk

theorem AddOK.mono {a : AddNote} {ks ks' : List Str} (h : AddOK a ks) (hs : ∀ k ∈ ks', k ∈ ks) : AddOK a ks' :=
  ⟨fun k hk => h.has k (hs k hk), h.uniq⟩

/-- what every `add_note` given to `parse` binds -/
abbrev keys0 : List Str := [str "field_name", str "message_type"]
/-- what every `add_note` given to `evaluate` and `post_check` binds -/
abbrev keys1 : List Str := [str "field_name", str "field_type", str "message_type"]

/-- what the `add_note` a check receives binds: the keys `ks`, and `message_type` in any case -/
structure AddGood (a : AddNote) (ks : List Str) : Prop where
  ok : AddOK a ks
  mt : dhas a.defaults (str "message_type") = true

theorem AddGood.on {a ks} (h : AddGood a ks) (subject : Str) : AddOK (a.on subject) [str "message_type"] := by
  refine ⟨?_, UniqueKeys.nil⟩
  intro k hk
  simp only [List.mem_singleton] at hk
  subst hk
  exact .inr h.mt

theorem AddGood.mono {a : AddNote} {ks ks' : List Str} (h : AddGood a ks) (hs : ∀ k ∈ ks', k ∈ ks) : AddGood a ks' :=
  ⟨h.ok.mono hs, h.mt⟩

theorem AddGood.to0 {a : AddNote} (h : AddGood a keys1) : AddGood a keys0 :=
  h.mono (by decide)

theorem emits_addG {a : AddNote} {ks : List Str} (ha : AddGood a ks) {cls : NoteId} {vrs : Dict Val} {cat}
    (h : covers cls (ks ++ vrs.map (·.1)) = true) {o} (hl : cls.origin = o) (hi : inert cls vrs = true) :
    Emits (NoteFrom o) (a.add cls vrs cat) := emits_add ha.ok h hl hi

theorem emits_addOn {a : AddNote} {ks : List Str} (ha : AddGood a ks) {s : Str} {cls : NoteId} {vrs : Dict Val} {cat}
    (h : covers cls ([str "message_type"] ++ vrs.map (·.1)) = true) {o} (hl : cls.origin = o)
    (hi : inert cls vrs = true) :
    Emits (NoteFrom o) ((a.on s).add cls vrs cat) := emits_add (ha.on s) h hl hi

/-- a variable shown outside code, whose value is not a literal -/
theorem inert_one {cls : NoteId} {vrs : Dict Val} {k : Str} {v : Val} (hb : cls.bare = [k])
    (hv : dget vrs.reverse k = some v) (hc : calm v = true) : inert cls vrs = true := by
  simp [inert, hb, hv, hc]

/-- the values shown outside code that are not literals -/
macro "calm_leaf" : tactic => `(tactic| refine inert_one rfl rfl ?_ <;> first
  | with_reducible exact calm_fNum _
  | with_reducible exact calm_commaNum _
  | with_reducible exact calm_markdownList _
  | with_reducible exact calm_makeList _
  | with_reducible exact calm_commas _
  | with_reducible exact calm_typeName _
  | with_reducible exact calm_expected (by assumption)
  | assumption)

/-- step through the code of a check -/
macro "emits_step" : tactic => `(tactic| first
  | assumption
  | with_reducible exact emits_pure _
  | with_reducible exact emits_throw _
  | with_reducible exact emits_lift _
  | ((with_reducible refine emits_addG (by assumption) ?_ ?_ ?_) <;> first | assumption | rfl | calm_leaf)
  | ((with_reducible refine emits_addOn (by assumption) ?_ ?_ ?_) <;> first | rfl | calm_leaf)
  | with_reducible refine emits_bind ?_ ?_
  | with_reducible refine emits_when ?_
  | with_reducible refine emits_ite ?_ ?_
  | with_reducible refine emits_forEach ?_
  | with_reducible refine emits_mapM ?_
  | with_reducible intro _
  | split
  | dsimp only)

/-- step through the code of a check, as far as possible -/
macro "emits" : tactic => `(tactic| repeat' emits_step)

end HL.Props
