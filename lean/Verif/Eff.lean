import Verif.Note

/-!
# The effect of a check: it adds notes and may raise

Notes added before an exception is raised stay added.
-/

namespace HL

/-- A computation that adds notes (in order) and returns or raises. -/
structure W (α : Type) where
  notes : List Note
  res : Except Exn α

namespace W

/-- return without adding notes -/
protected def pure {α} (a : α) : W α := ⟨[], .ok a⟩
/-- sequencing: the second computation does not run if the first raises -/
protected def bind {α β} (x : W α) (f : α → W β) : W β :=
  match x.res with
  | .error e => ⟨x.notes, .error e⟩
  | .ok a => ⟨x.notes ++ (f a).notes, (f a).res⟩
/-- `raise` -/
def throw {α} (e : Exn) : W α := ⟨[], .error e⟩
/-- lift a pure computation that may raise -/
def lift {α} (r : Except Exn α) : W α := ⟨[], r⟩
/-- `try: x except <exns>: h` -/
def tryCatch {α} (x : W α) (p : Exn → Bool) (h : Exn → W α) : W α :=
  match x.res with
  | .ok a => ⟨x.notes, .ok a⟩
  | .error e => if p e then ⟨x.notes ++ (h e).notes, (h e).res⟩ else ⟨x.notes, .error e⟩

instance : Monad W where
  pure := W.pure
  bind := W.bind

@[simp] theorem pure_notes {α} (a : α) : (pure a : W α).notes = [] := rfl
@[simp] theorem pure_res {α} (a : α) : (pure a : W α).res = .ok a := rfl
theorem bind_def {α β} (x : W α) (f : α → W β) : x >>= f = W.bind x f := rfl

theorem bind_ok {α β} {x : W α} {a : α} (h : x.res = .ok a) (f : α → W β) :
    x >>= f = ⟨x.notes ++ (f a).notes, (f a).res⟩ := by
  rw [bind_def]; unfold W.bind; rw [h]

theorem bind_err {α β} {x : W α} {e : Exn} (h : x.res = .error e) (f : α → W β) :
    x >>= f = ⟨x.notes, .error e⟩ := by
  rw [bind_def]; unfold W.bind; rw [h]

@[ext] theorem ext' {α} {x y : W α} (h1 : x.notes = y.notes) (h2 : x.res = y.res) : x = y := by
  cases x; cases y; simp_all

instance : LawfulMonad W := LawfulMonad.mk'
  (id_map := by
    intro α x
    show W.bind x (fun a => W.pure a) = x
    unfold W.bind
    rcases x with ⟨n, r⟩
    cases r <;> simp [W.pure])
  (pure_bind := by intro α β a f; show W.bind (W.pure a) f = f a; simp [W.bind, W.pure])
  (bind_assoc := by
    intro α β γ x f g
    show W.bind (W.bind x f) g = W.bind x (fun a => W.bind (f a) g)
    rcases x with ⟨n, r⟩
    cases r with
    | error e => simp [W.bind]
    | ok a =>
      simp only [W.bind]
      cases h : (f a).res <;> simp [h])

end W

/-- A bound `add_note` callable: `partial(notes.add, subject, **base)` for a message whose default
variables are `defaults` (note.py:66-84, field/section.py:45,66,88, field/list_field.py:27). -/
structure AddNote where
  defaults : Dict Val
  subject : Str
  base : Dict Val := []

namespace AddNote

/-- call it: `add_note(cls, category=cat, **vrs)` -/
def mk1 (a : AddNote) (cls : NoteId) (vrs : Dict Val := []) (cat : Option Cat := none) : Note :=
  mkNote a.defaults a.subject cls cat (dupdate a.base vrs)

/-- call it as a statement -/
def add (a : AddNote) (cls : NoteId) (vrs : Dict Val := []) (cat : Option Cat := none) : W Unit :=
  ⟨[a.mk1 cls vrs cat], .ok ()⟩

/-- call it, and add children to the new note -/
def addWith (a : AddNote) (cls : NoteId) (vrs : Dict Val) (cat : Option Cat)
    (kids : List (NoteId × Dict Val)) : W Unit :=
  ⟨[kids.foldl (fun n k => n.addChild k.1 k.2) (a.mk1 cls vrs cat)], .ok ()⟩

/-- `partial(add_note, **more)` -/
def bindVars (a : AddNote) (more : Dict Val) : AddNote := { a with base := dupdate a.base more }

/-- the same message's `notes.add` with another subject -/
def on (a : AddNote) (subject : Str) (base : Dict Val := []) : AddNote :=
  { defaults := a.defaults, subject, base }

@[simp] theorem add_notes (a : AddNote) (cls vrs cat) :
    (a.add cls vrs cat).notes = [a.mk1 cls vrs cat] := rfl
@[simp] theorem add_res (a : AddNote) (cls vrs cat) : (a.add cls vrs cat).res = .ok () := rfl
@[simp] theorem mk1_cls (a : AddNote) (cls vrs cat) : (a.mk1 cls vrs cat).cls = cls := rfl
@[simp] theorem mk1_subject (a : AddNote) (cls vrs cat) : (a.mk1 cls vrs cat).subject = a.subject := rfl

end AddNote

/-- `when c: x` -/
def W.when (c : Bool) (x : W Unit) : W Unit := if c then x else pure ()

/-- run a check for each element, in order -/
def W.forEach {α} (xs : List α) (f : α → W Unit) : W Unit :=
  match xs with
  | [] => pure ()
  | x :: xs => do f x; W.forEach xs f

/-- the classes of the notes a computation adds -/
def W.classes {α} (x : W α) : List NoteId := x.notes.map (·.cls)

end HL
