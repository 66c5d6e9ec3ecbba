import Verif.Props.FieldThm
import Verif.Props.ListThm
import Verif.Props.Toy

/-!
# Lines joined and divided (C18), and what happens when the joined lines do not parse (C22)
-/

namespace HL.Props

/-! ### C18: one line `a, b` and two lines `a` and `b` -/

/-- **C18** (joining) Lines made of list elements - with any white space and empty elements, commas and double quotes only in
complete quoted strings - and one line that joins them by commas give the field the same value.  The two sections may differ
in anything else. -/
theorem C18_joined (env : Env) (related : Option Msg) (t : Bool) (ls₁ ls₂ : List Line) (m m₁ m₂ : Msg) (hm : Linting env m)
    (hnew : (m.section t).handlers = []) (hu₁ : Unpadded ls₁) (hu₂ : Unpadded ls₂)
    (h₁ : processSection env related t ls₁ m = (m₁, .ok ())) (h₂ : processSection env related t ls₂ m = (m₂, .ok ()))
    (n : Str) (hn₁ : n ∈ namesOf ls₁) (hn₂ : n ∈ namesOf ls₂) (hk : (classOf n).info.kind = .list)
    (lines : List (List Slot)) (hg : ∀ l ∈ lines, l ≠ [] ∧ ∀ s ∈ l, s.Good)
    (hv₁ : valuesOf ls₁ n = lines.map fun l => join (str ",") (l.map Slot.text))
    (hv₂ : valuesOf ls₂ n = [join (str ",") (lines.map fun l => join (str ",") (l.map Slot.text))]) :
    dget (m₁.section t).parsed n = dget (m₂.section t).parsed n := by
  refine C18_division env related t ls₁ ls₂ m m₁ m₂ hm hnew hu₁ hu₂ h₁ h₂ n hn₁ hn₂ hk ?_
  rw [hv₁, hv₂, ← C19_lines lines hg]
  simp

/-! ### C22: checks run exactly when parsing succeeds -/

/-- what a structured or JSON field is told when its joined lines have been read: `before` are the notes about repeated keys;
`failure` is the class of the note for text that does not parse, `value` what it was parsed to -/
inductive CheckedWhenRead (c : Ctx) (add : AddNote) (f : FieldId) (failure : NoteId) (before : List Note) : Option Val → List Note → Prop
  | failed (x : Note) : x.cls = failure → x.subject = add.subject → CheckedWhenRead c add f failure before none (before ++ [x])
  | null : CheckedWhenRead c add f failure before (some .none) before
  | read (v : Val) (hd : Handler) : v ≠ .none → hd.fid = f → hd.value = v →
      CheckedWhenRead c add f failure before (some v) (before ++ (hd.evaluate c add).2.notes)

/-- what the structured-field parser returned, if it did -/
def sfRead : SfResult → Option Val
  | .ok v _ => some v
  | _ => none

/-- the repeated keys the structured-field parser met -/
def sfRepeats : SfResult → List (Str × Str)
  | .ok _ d | .sfError _ _ d | .error _ d => d

/-- what the JSON parser returned, if it did -/
def jsonRead : JsonResult → Option Val
  | .ok v => some v
  | _ => none

theorem fed_sf_checks {c0 c : Ctx} {add name} {ps : List (Nat × Str)} (hne : ps ≠ []) {ty} (hk : (classOf name).info.kind = .sf ty) :
    CheckedWhenRead c add (classOf name) .STRUCTURED_FIELD_PARSE_ERROR
      (dupKeyNotes add (sfRepeats (c.env.sfParse ty (strip (join (str ", ") (ps.map (·.2)))))))
      (sfRead (c.env.sfParse ty (strip (join (str ", ") (ps.map (·.2)))))) ((fedLines c0 name ps).finish c add).2.notes := by
  have hid := (fed_id c0 name ps).fid
  rw [mkHandler_fid] at hid
  have hxs : ps.map (·.2) ≠ [] := by simpa using hne
  have hv := fed_text (c := c0) (k := .sf ty) hk (.inr ⟨ty, rfl⟩) ps
  unfold Handler.finish
  rw [hid, hk]
  dsimp only
  unfold Handler.finishSf
  have h1 : (fedLines c0 name ps).value = textVal (ps.map (·.2)) := by rw [hv]
  have h2 : (fedLines c0 name ps).sfParsed = false := by rw [hv]; exact mkHandler_sf _ _
  rw [h1, textVal_truthy hxs, h2, joinValue_text]
  simp only [Bool.not_true, Bool.false_eq_true, if_false]
  cases hs : c.env.sfParse ty (strip (join (str ", ") (ps.map (·.2)))) with
  | ok v d =>
    dsimp only [sfRead, sfRepeats]
    unfold Handler.evalAfter
    dsimp only
    by_cases hv0 : v = .none
    · rw [if_pos hv0]; subst hv0; exact .null
    · rw [if_neg hv0]
      exact .read v { fedLines c0 name ps with value := v, sfParsed := true } hv0 hid rfl
  | sfError p i d => exact .failed _ rfl rfl
  | error p d => exact .failed _ rfl rfl

theorem fed_json_checks {c0 c : Ctx} {add name} {ps : List (Nat × Str)} (hne : ps ≠ []) (hk : (classOf name).info.kind = .json)
    (hr : ((fedLines c0 name ps).finish c add).2.res = .ok ()) :
    CheckedWhenRead c add (classOf name) .BAD_JSON []
      (jsonRead (c.env.jsonLoads (str "[" ++ join (str ", ") (ps.map (·.2)) ++ str "]"))) ((fedLines c0 name ps).finish c add).2.notes := by
  have hid := (fed_id c0 name ps).fid
  rw [mkHandler_fid] at hid
  have hxs : ps.map (·.2) ≠ [] := by simpa using hne
  have hv := fed_text (c := c0) (k := .json) hk (.inl rfl) ps
  unfold Handler.finish at hr ⊢
  rw [hid, hk] at hr ⊢
  dsimp only at hr ⊢
  unfold Handler.finishJson at hr ⊢
  have h1 : (fedLines c0 name ps).value = textVal (ps.map (·.2)) := by rw [hv]
  rw [h1, textVal_truthy hxs, joinValue_text] at hr ⊢
  simp only [Bool.not_true, Bool.false_eq_true, if_false] at hr ⊢
  cases hs : c.env.jsonLoads (str "[" ++ join (str ", ") (ps.map (·.2)) ++ str "]") with
  | ok v =>
    dsimp only [jsonRead]
    unfold Handler.evalAfter
    dsimp only
    by_cases hv0 : v = .none
    · rw [if_pos hv0]; subst hv0; exact .null
    · rw [if_neg hv0]
      exact .read v { fedLines c0 name ps with value := v } hv0 hid rfl
  | decodeError p => exact .failed (before := []) _ rfl rfl
  | raises e => simp only [hs] at hr; exact absurd hr (by simp [W.throw])

/-- **C22** (checks) The notes a section adds are those of its lines, of its size, and of each name in turn.  For a structured
(JSON) field that may appear here, the notes of the name are: if the joined lines do not parse, the repeated keys met and one
parse error about the field, and no more; if they do, the repeated keys, and what the field's checks say of that value. -/
theorem C22_checks (env : Env) (related : Option Msg) (t : Bool) (ls : List Line) (m m' : Msg) (hm : Linting env m)
    (hnew : (m.section t).handlers = []) (h : processSection env related t ls m = (m', .ok ())) :
    ∃ (lineNotes sizeNotes : List Note) (nameNotes : Str → List Note),
      m'.notes = m.notes ++ (lineNotes ++ sizeNotes ++ (namesOf ls).flatMap nameNotes) ∧
      (∀ x ∈ sizeNotes, x.cls = .FIELD_SECTION_TOO_LARGE) ∧
      ∀ n ∈ namesOf ls, okName m.kind n = true → ∃ (c : Ctx) (add : AddNote), c.env = env ∧ add.subject = fieldSubject n ∧
        (∀ ty r, (classOf n).info.kind = .sf ty → r = env.sfParse ty (strip (join (str ", ") (valuesOf ls n))) →
          CheckedWhenRead c add (classOf n) .STRUCTURED_FIELD_PARSE_ERROR (dupKeyNotes add (sfRepeats r)) (sfRead r) (nameNotes n)) ∧
        (∀ r, (classOf n).info.kind = .json → r = env.jsonLoads (str "[" ++ join (str ", ") (valuesOf ls n) ++ str "]") →
          CheckedWhenRead c add (classOf n) .BAD_JSON [] (jsonRead r) (nameNotes n)) := by
  obtain ⟨a, b, ctx, _, _, hb, hd, hp, _⟩ := section_outcome (hm.ready t) hnew h
  refine ⟨a, b, fun n => (finishIn m t (readHandler ⟨env, m, related⟩ ls n) (ctx n)).2.notes, hp, hb, ?_⟩
  intro n hn hok
  obtain ⟨hdn, hrn, _⟩ := hd n hn
  have hsub : (m.fieldAdder t (readHandler ⟨env, m, related⟩ ls n)).subject = fieldSubject n := by
    have : (readHandler ⟨env, m, related⟩ ls n).canonicalName = (mkHandler (classOf n) (spelling ls n)).canonicalName := by
      unfold readHandler handlerFor
      split
      · rw [(fed_id _ _ _).canon, classOf_spelling hn]
      · rw [(checked_id _ _).canon, classOf_spelling hn]
    show str "field-" ++ lower (readHandler ⟨env, m, related⟩ ls n).canonicalName = _
    rw [this, mkHandler_canon (b := n) (by rw [lower_spelling hn, lower_name hn])]
    rfl
  refine ⟨ctx n, m.fieldAdder t (readHandler ⟨env, m, related⟩ ls n), hdn.env, hsub, ?_⟩
  have hrd : readHandler ⟨env, m, related⟩ ls n = fedLines ⟨env, m, related⟩ (spelling ls n) (sent m.kind n ls) := by
    unfold readHandler handlerFor
    dsimp only
    rw [okName_spelling hn, if_pos hok]
  unfold finishIn at hrn ⊢
  dsimp only
  rw [hrd] at hrn ⊢
  have hlen : (sent m.kind n ls).map (·.2) = valuesOf ls n := sent_snd _ _ _
  refine ⟨?_, ?_⟩
  · rintro ty r hk rfl
    have := fed_sf_checks (c0 := ⟨env, m, related⟩) (c := ctx n) (add := m.fieldAdder t (fedLines ⟨env, m, related⟩ (spelling ls n) (sent m.kind n ls)))
      (name := spelling ls n) (ps := sent m.kind n ls) (sent_ne_nil hn) (ty := ty) (by rw [classOf_spelling hn]; exact hk)
    rw [hlen, hdn.env, classOf_spelling hn] at this
    exact this
  · rintro r hk rfl
    have := fed_json_checks (c0 := ⟨env, m, related⟩) (c := ctx n) (add := m.fieldAdder t (fedLines ⟨env, m, related⟩ (spelling ls n) (sent m.kind n ls)))
      (name := spelling ls n) (ps := sent m.kind n ls) (sent_ne_nil hn) (by rw [classOf_spelling hn]; exact hk) hrn
    rw [hlen, hdn.env, classOf_spelling hn] at this
    exact this

end HL.Props
