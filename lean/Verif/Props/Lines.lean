import Verif.Props.Frame

/-!
# Processing one field line, as one equation
-/

namespace HL.Props

theorem dset_dset {β} (d : Dict β) (k : Str) (a b : β) : dset (dset d k a) k b = dset d k b := by
  induction d with
  | nil => simp [dset]
  | cons p d ih =>
    obtain ⟨x, y⟩ := p
    unfold dset
    by_cases h : x = k
    · simp [h, dset]
    · simp only [h, if_false, dset, ih]

theorem dset_dget {β} {d : Dict β} {k : Str} {a : β} (h : dget d k = some a) : dset d k a = d := by
  induction d with
  | nil => simp at h
  | cons p d ih =>
    obtain ⟨x, y⟩ := p
    rw [dget_cons] at h
    unfold dset
    by_cases hx : x = k
    · simp only [hx, if_true, Option.some.injEq] at h ⊢
      rw [h]
    · simp only [hx, if_false] at h ⊢
      rw [ih h]

/-- the notes about the octets of a line -/
def encNotes (m : Msg) (o : Nat) (name value : Str) : List Note :=
  (if nonAscii name then [(m.adder (offsetSubject o)).mk1 .FIELD_NAME_ENCODING [(str "field_name", .str (decodeName name))]] else []) ++
  (if nonAscii value then [(m.adder (offsetSubject o)).mk1 .FIELD_VALUE_ENCODING [(str "field_name", .str (decodeName name))]] else [])

/-- the key under which the line's handler is kept -/
def lineKey (name : Str) : Str := lower (decodeName name)

/-- the section once the line is recorded -/
def recorded (s : Section) (name value : Str) (h : Handler) : Section :=
  { s with size := s.size + (name.length + value.length), text := s.text ++ [(decodeName name, value)], handlers := dset s.handlers (lineKey name) h }

/-- the handler of a line -/
def lineHandler (t : Bool) (m : Msg) (name : Str) : Handler := findHandler (m.section t).handlers (decodeName name)

/-- its `pre_check` -/
def lineCheck (t : Bool) (m : Msg) (o : Nat) (name : Str) : Handler × Bool × List Note :=
  (lineHandler t m name).preCheck m.kind (m.adder (offsetSubject o) [(str "field_name", .str (lineHandler t m name).canonicalName)])

/-- the message that `handle_input` sees -/
def lineMid (t : Bool) (m : Msg) (o : Nat) (name value : Str) : Msg :=
  (m.setSection t (recorded (m.section t) name value (lineCheck t m o name).1)).addNotes
    (encNotes m o name value ++ (lineCheck t m o name).2.2)

/-- `handle_input` -/
def lineInput (env : Env) (related : Option Msg) (t : Bool) (m : Msg) (o : Nat) (name value : Str) : Handler × W Unit :=
  (lineCheck t m o name).1.handleInput ⟨env, lineMid t m o name value, related⟩ value o

/-- the note about the size of a line -/
def bigNotes (m : Msg) (o : Nat) (name value : Str) (h : Handler) : List Note :=
  if name.length + value.length > maxFieldSize then [(m.adder (offsetSubject o)).mk1 .FIELD_TOO_LARGE [(str "field_name", .str h.canonicalName), (str "field_size", .str (fNum (name.length + value.length)))]] else []

theorem setSection_kind (t : Bool) (m : Msg) (s) : (m.setSection t s).kind = m.kind := by cases t <;> rfl
theorem setSection_adder (t : Bool) (m : Msg) (s x b) : (m.setSection t s).adder x b = m.adder x b := by cases t <;> rfl
theorem addNotes_adder (m : Msg) (ns x b) : (m.addNotes ns).adder x b = m.adder x b := rfl

theorem processLine_eq (env related t) (m : Msg) (o : Nat) (name value : Str) :
    processLine env related t m o (name, value) =
      if (lineCheck t m o name).2.1 = false then (lineMid t m o name value, .ok o)
      else
        let hw := lineInput env related t m o name value
        let m' := (m.setSection t (recorded (m.section t) name value hw.1)).addNotes
          (encNotes m o name value ++ (lineCheck t m o name).2.2 ++ hw.2.notes)
        match hw.2.res with
        | .error e => (m', .error e)
        | .ok () => (m'.addNotes (bigNotes m o name value hw.1), .ok (o + 1)) := by
  have e1 : ∀ h ns, (((m.addNotes (encNotes m o name value)).setSection t
      (recorded (m.section t) name value (lineHandler t m name))).addNotes ns).setSection t
      { (((m.addNotes (encNotes m o name value)).setSection t
        (recorded (m.section t) name value (lineHandler t m name))).addNotes ns).section t with
        handlers := dset ((((m.addNotes (encNotes m o name value)).setSection t
        (recorded (m.section t) name value (lineHandler t m name))).addNotes ns).section t).handlers (lineKey name) h } =
      (m.setSection t (recorded (m.section t) name value h)).addNotes (encNotes m o name value ++ ns) := by
    intro h ns
    simp only [section_addNotes, section_setSection, setSection_addNotes, setSection_setSection, addNotes_addNotes]
    congr 2
    simp only [recorded, dset_dset]
  have e2 : ∀ h ns, ((lineMid t m o name value).addNotes ns).setSection t
      { ((lineMid t m o name value).addNotes ns).section t with
        handlers := dset (((lineMid t m o name value).addNotes ns).section t).handlers (lineKey name) h } =
      (m.setSection t (recorded (m.section t) name value h)).addNotes (encNotes m o name value ++ (lineCheck t m o name).2.2 ++ ns) := by
    intro h ns
    unfold lineMid
    simp only [section_addNotes, section_setSection, setSection_addNotes, setSection_setSection, addNotes_addNotes]
    congr 2
    simp only [recorded, dset_dset]
  unfold processLine
  dsimp only
  generalize he : ((if nonAscii name = true then _ else _ : List Note) ++ _) = enc
  have he' : encNotes m o name value = enc := he
  generalize hs : ({ isTrailer := _, text := _, parsed := _, size := _, handlers := dset _ _ (findHandler (m.section t).handlers (decodeName name)) } : Section) = sec
  have hs' : recorded (m.section t) name value (lineHandler t m name) = sec := hs
  generalize hm1 : (m.addNotes enc).setSection t sec = m1
  have ek : m1.kind = m.kind := by rw [← hm1, setSection_kind]; rfl
  have ea : ∀ x b, m1.adder x b = m.adder x b := by intro x b; rw [← hm1, setSection_adder]; rfl
  rw [ek, ea]
  generalize hc : Handler.preCheck _ _ _ = p
  have hc' : lineCheck t m o name = p := hc
  obtain ⟨h1, ok, ns⟩ := p
  dsimp only
  have hm2 := e1 h1 ns
  rw [he', hs', hm1] at hm2
  unfold lineKey at hm2
  rw [hm2]
  have hmid : lineMid t m o name value = (m.setSection t (recorded (m.section t) name value h1)).addNotes (enc ++ ns) := by
    unfold lineMid; rw [hc', he']
  have e2' := e2
  rw [hc', he'] at e2'
  rw [hc', he']
  dsimp only at e2' ⊢
  have hin : lineInput env related t m o name value = h1.handleInput ⟨env, lineMid t m o name value, related⟩ value o := by
    unfold lineInput; rw [hc']
  rw [← hmid]
  cases ok with
  | false => rfl
  | true =>
    simp only [Bool.not_true, Bool.false_eq_true, if_false, Bool.true_eq_false]
    rw [← hin]
    generalize lineInput env related t m o name value = hw
    obtain ⟨h2, w⟩ := hw
    dsimp only
    have e3 := e2' h2 w.notes
    unfold lineKey at e3
    rw [e3]
    cases w.res with
    | error e => rfl
    | ok u =>
      dsimp only
      simp only [addNotes_adder, setSection_adder, bigNotes]

end HL.Props
