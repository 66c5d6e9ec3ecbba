import Verif.Props.Notes
import Verif.Props.Calm

/-!
# C114: what comes off the wire stays in code

A note's detail is Markdown made from a template and the note's variables, and is rendered as HTML.  The specification
is a reader of Markdown that knows paragraphs, code spans and indented code blocks, and says which of the characters
HTML and links are made of occur outside code.
-/

namespace HL.Props

/-! ### specification -/

/-- where one is in a Markdown text.  `text`, `span`: in a paragraph, outside or inside a code span (the flag says that
only blanks have been read in this line).  `start k`: at the beginning of a paragraph, after `k` spaces.  `block`: in a
line of an indented code block. -/
inductive Place where
  | text (fresh : Bool)
  | span (fresh : Bool)
  | start (k : Nat)
  | block
  deriving DecidableEq, Repr

/-- the place after one more character: a backtick opens or closes a code span, a blank line ends a paragraph (and any
code span in it), and a paragraph that begins with four spaces or a tab is a code block -/
def Place.next (p : Place) (c : Nat) : Place :=
  match p with
  | .text fresh =>
    if c = 96 then .span false
    else if isBreak c then (if fresh then .start 0 else .text true)
    else if isBlank c then .text fresh
    else .text false
  | .span fresh =>
    if c = 96 then .text false
    else if isBreak c then (if fresh then .start 0 else .span true)
    else if isBlank c then .span fresh
    else .span false
  | .start k =>
    if c = 96 then .span false
    else if isBreak c then .start 0
    else if c = 32 then (if k = 3 then .block else .start (k + 1))
    else if c = 9 then .block
    else .text false
  | .block => if isBreak c then .start 0 else .block

/-- reading a text: where we are, the special characters read since the last backtick that may turn out to be in a code
span, and those known to be outside code -/
structure Reading where
  place : Place
  pending : Str
  out : Str
  deriving DecidableEq, Repr

/-- one more character.  A special character in a paragraph is outside code; one after an opening backtick is in code if
the closing backtick comes before the paragraph ends, and outside it otherwise. -/
def Reading.step (r : Reading) (c : Nat) : Reading :=
  match r.place, r.place.next c with
  | .span _, .span f => ⟨.span f, if special c then r.pending ++ [c] else r.pending, r.out⟩
  | .span _, .text f => ⟨.text f, [], r.out⟩
  | .span _, q => ⟨q, [], r.out ++ r.pending⟩
  | .block, q => ⟨q, [], r.out⟩
  | _, q => ⟨q, [], if special c then r.out ++ [c] else r.out⟩

/-- two backticks in a row (which can open another kind of code span) -/
def twoBackticks : Str → Bool
  | 96 :: 96 :: _ => true
  | _ :: r => twoBackticks r
  | [] => false

/-- **The specification**: the special characters of a Markdown text that are outside code, in order; `none` for texts
with two backticks in a row, which this reader does not judge. -/
def markup (s : Str) : Option Str :=
  if twoBackticks s then none
  else
    let r := s.foldl Reading.step ⟨.start 0, [], []⟩
    some (r.out ++ r.pending)

example : markup (str "See `<b>` and [x](y).") = some (str "[]") := by kernel_rfl
example : markup (str "<script>") = some (str "<>") := by kernel_rfl
example : markup (str "It says\n\n    <script>\n\nso `<` there") = some [] := by kernel_rfl
example : markup (str "It says `<script>\n\nnever closed") = some (str "<>") := by kernel_rfl

/-- the text a template gives when its variables are innocuous -/
def sampleText (segs : List Seg) : Str := segs.flatMap fun
  | .text s => s
  | .var _ => str "x"

/-- the markup a class's own text has -/
def ownMarkup (cls : NoteId) : Option Str := (tpl cls.text).bind fun segs => markup (sampleText segs)

/-! ### reading a template -/

/-- reading text, given that no code span is left except by a backtick -/
def scanText : Place → Str → Option (Str × Place)
  | p, [] => some ([], p)
  | p, c :: r =>
    let q := p.next c
    match p, q with
    | .span _, .span _ => scanText q r
    | .span _, .text _ => scanText q r
    | .span _, _ => none
    | .block, _ => scanText q r
    | _, _ => (scanText q r).map fun x => (if special c then c :: x.1 else x.1, x.2)

/-- reading a template whose variables of the class's tables may occur outside code spans and the others only inside -/
def scanSegs (cls : NoteId) : Place → List Seg → Option Str
  | .span _, [] => none
  | _, [] => some []
  | p, .text s :: r =>
    match scanText p s with
    | some (o, q) => (scanSegs cls q r).map (o ++ ·)
    | none => none
  | .span f, .var n :: r =>
    if f = false ∧ n ∉ cls.bare ∧ n ≠ str "report_only_text" then scanSegs cls (.span false) r else none
  | .block, .var n :: r =>
    if n ∉ cls.bare ∧ n ≠ str "report_only_text" then scanSegs cls .block r else none
  | p, .var n :: r =>
    if n ∈ cls.bare ∨ n ∈ cls.exposed then
      let a := scanSegs cls (.text false) r
      let b := scanSegs cls p r
      let c := if n = str "report_only_text" then
          match scanText p F.cspReportOnly.text with
          | some (o, q) => (scanSegs cls q r).map (o ++ ·)
          | none => none
        else a
      if a = b ∧ b = c then a else none
    else none


/-- every class but two: its text is read as intended whatever its variables are, and has the markup it has by itself -/
theorem scan_all : (NoteId.all.all fun c => unfenced.contains c || (match tpl c.text with
    | some segs => scanSegs c (.start 0) segs == ownMarkup c && (ownMarkup c).isSome
    | none => false)) = true := by decide +kernel

theorem scan_of (c : NoteId) (h : c ∉ unfenced) :
    ∃ segs o, tpl c.text = some segs ∧ scanSegs c (.start 0) segs = some o ∧ ownMarkup c = some o := by
  have h1 := (List.all_eq_true.1 scan_all) c (NoteId.mem_all c)
  have h2 : unfenced.contains c = false := by simpa using h
  rw [h2, Bool.false_or] at h1
  cases ht : tpl c.text with
  | none => rw [ht] at h1; exact nomatch h1
  | some segs =>
    rw [ht] at h1
    simp only [Bool.and_eq_true, beq_iff_eq] at h1
    obtain ⟨o, ho⟩ := Option.isSome_iff_exists.1 h1.2
    exact ⟨segs, o, rfl, h1.1.trans ho, ho⟩

/-! ### the reader and the scan agree -/

/-- in a code span -/
def Place.inSpan : Place → Bool
  | .span _ => true
  | _ => false

/-- nothing is pending outside code spans -/
def Reading.Ok (r : Reading) : Prop := r.place.inSpan = false → r.pending = []

theorem scanText_ok {p q : Place} {s o : Str} (h : scanText p s = some (o, q)) (pend out : Str)
    (hk : (Reading.mk p pend out).Ok) :
    ∃ pend', s.foldl Reading.step ⟨p, pend, out⟩ = ⟨q, pend', out ++ o⟩ ∧ (Reading.mk q pend' (out ++ o)).Ok := by
  induction s generalizing p o pend out with
  | nil =>
    simp only [scanText, Option.some.injEq, Prod.mk.injEq] at h
    obtain ⟨rfl, rfl⟩ := h
    exact ⟨pend, by simp, by simpa using hk⟩
  | cons c s ih =>
    unfold scanText at h
    dsimp only at h
    rw [List.foldl_cons]
    have hstep : ∀ r : Reading, Reading.step r c = Reading.step r c := fun _ => rfl
    unfold Reading.step
    dsimp only
    generalize hq : p.next c = q' at h ⊢
    cases p with
    | span f =>
      cases q' with
      | span g => exact ih h _ _ (fun e => nomatch e)
      | text g => exact ih h _ _ (fun _ => rfl)
      | start k => exact nomatch h
      | block => exact nomatch h
    | block => exact ih h _ _ (fun _ => rfl)
    | text f =>
      simp only [Option.map_eq_some_iff] at h
      obtain ⟨x, hx, e⟩ := h
      simp only [Prod.mk.injEq] at e
      obtain ⟨e1, e2⟩ := e
      obtain ⟨p', h1, h2⟩ := ih (p := q') (o := x.1) (by rw [hx, ← e2]) [] (if special c then out ++ [c] else out)
        (fun _ => rfl)
      have e3 : (if special c = true then out ++ [c] else out) ++ x.1 = out ++ o := by
        rw [← e1]
        by_cases hc : special c = true <;> simp [hc]
      rw [e3] at h1 h2
      exact ⟨p', h1, h2⟩
    | start k =>
      simp only [Option.map_eq_some_iff] at h
      obtain ⟨x, hx, e⟩ := h
      simp only [Prod.mk.injEq] at e
      obtain ⟨e1, e2⟩ := e
      obtain ⟨p', h1, h2⟩ := ih (p := q') (o := x.1) (by rw [hx, ← e2]) [] (if special c then out ++ [c] else out)
        (fun _ => rfl)
      have e3 : (if special c = true then out ++ [c] else out) ++ x.1 = out ++ o := by
        rw [← e1]
        by_cases hc : special c = true <;> simp [hc]
      rw [e3] at h1 h2
      exact ⟨p', h1, h2⟩

/-- a single line of text without backticks -/
def oneLine (s : Str) : Bool := s.all fun c => !isBreak c && c != 96

/-- in a code span, anything on one line without backticks stays there -/
theorem span_value {s : Str} (h : oneLine s = true) (pend out : Str) :
    ∃ pend', s.foldl Reading.step ⟨.span false, pend, out⟩ = ⟨.span false, pend', out⟩ := by
  induction s generalizing pend with
  | nil => exact ⟨pend, rfl⟩
  | cons c s ih =>
    simp only [oneLine, List.all_cons, Bool.and_eq_true, Bool.not_eq_true', bne_iff_ne, ne_eq] at h
    have hn : Place.next (.span false) c = .span false := by
      unfold Place.next
      dsimp only
      rw [if_neg (c := c = 96) h.1.2, h.1.1]
      by_cases hb : isBlank c = true <;> simp [hb]
    rw [List.foldl_cons]
    have hs : Reading.step ⟨.span false, pend, out⟩ c =
        ⟨.span false, if special c then pend ++ [c] else pend, out⟩ := by
      unfold Reading.step
      dsimp only
      rw [hn]
    rw [hs]
    exact ih (by simpa [oneLine] using h.2) _

/-- in a code block, anything on one line stays there -/
theorem block_value {s : Str} (h : oneLine s = true) (out : Str) :
    s.foldl Reading.step ⟨.block, [], out⟩ = ⟨.block, [], out⟩ := by
  induction s with
  | nil => rfl
  | cons c s ih =>
    simp only [oneLine, List.all_cons, Bool.and_eq_true, Bool.not_eq_true', bne_iff_ne, ne_eq] at h
    have hs : Reading.step ⟨.block, [], out⟩ c = ⟨.block, [], out⟩ := by
      unfold Reading.step Place.next
      dsimp only
      rw [h.1.1]
      rfl
    rw [List.foldl_cons, hs]
    exact ih (by simpa [oneLine] using h.2)

/-- in a paragraph or at its beginning -/
def Place.prose : Place → Bool
  | .text _ => true
  | .start _ => true
  | _ => false

theorem step_prose {p : Place} (hp : p.prose = true) (out : Str) (c : Nat) (h : special c = false) :
    Reading.step ⟨p, [], out⟩ c = ⟨p.next c, [], out⟩ := by
  unfold Reading.step
  dsimp only
  cases p with
  | text f => simp [h]
  | start k => simp [h]
  | span f => exact nomatch hp
  | block => exact nomatch hp

theorem next_ordinary {p : Place} (hp : p.prose = true) (c : Nat) (h1 : c ≠ 96) (h2 : isBreak c = false)
    (h3 : isBlank c = false) : p.next c = .text false := by
  have h4 : c ≠ 32 ∧ c ≠ 9 := by simpa [isBlank] using h3
  cases p with
  | text f => simp [Place.next, h1, h2, h3]
  | start k => simp [Place.next, h1, h2, h4]
  | span f => exact nomatch hp
  | block => exact nomatch hp

theorem text_value {s : Str} (h : s.all (fun c => !special c && !isBreak c && c != 96) = true) (out : Str) :
    s.foldl Reading.step ⟨.text false, [], out⟩ = ⟨.text false, [], out⟩ := by
  induction s with
  | nil => rfl
  | cons c s ih =>
    simp only [List.all_cons, Bool.and_eq_true, Bool.not_eq_true', bne_iff_ne, ne_eq] at h
    rw [List.foldl_cons, step_prose rfl out c h.1.1.1]
    have : Place.next (.text false) c = .text false := by
      simp only [Place.next, h.1.2, h.1.1.2, if_false, Bool.false_eq_true]
      by_cases hb : isBlank c = true <;> simp [hb]
    rw [this]
    exact ih h.2

/-- outside code, plain text is read as such -/
theorem plain_value {s : Str} (h : plainText s = true) (h96 : ¬ 96 ∈ s) {p : Place} (hp : p.prose = true) (out : Str) :
    s.foldl Reading.step ⟨p, [], out⟩ = ⟨if s = [] then p else .text false, [], out⟩ := by
  cases s with
  | nil => rfl
  | cons c s =>
    unfold plainText at h
    simp only [List.all_cons, List.head?_cons, Option.any_some, Bool.and_eq_true, Bool.not_eq_true'] at h
    simp only [List.mem_cons, not_or] at h96
    rw [List.foldl_cons, step_prose hp out c h.1.1.1,
      next_ordinary hp c (fun e => h96.1 e.symm) h.1.1.2 h.2]
    simp only [reduceCtorEq, if_false]
    refine text_value ?_ out
    rw [List.all_eq_true]
    intro x hx
    have := List.all_eq_true.1 h.1.2 x hx
    simp only [Bool.and_eq_true, bne_iff_ne, ne_eq] at this ⊢
    exact ⟨this, fun e => h96.2 (e ▸ hx)⟩

/-- no blank line: between two line breaks there is something else than blanks (`fresh`: there has been a line break) -/
def tightFrom : Bool → Str → Bool
  | _, [] => true
  | fresh, c :: r =>
    if isBreak c then !fresh && tightFrom true r
    else if isBlank c then tightFrom fresh r
    else tightFrom false r

/-- no blank line -/
def tight (s : Str) : Bool := tightFrom false s

/-- places that a state of `calmMd` corresponds to -/
def Corresponds : MdAt → Place → Bool → Prop
  | .line, p, fresh => p.prose = true ∧ (fresh = true ∨ fresh = false)
  | .out, p, fresh => p = .text false ∧ fresh = false
  | .code, p, fresh => p = .span fresh

theorem md_value {q : MdAt} {s : Str} (h : calmMd q s = true) {p : Place} {fresh : Bool} (ht : tightFrom fresh s = true)
    (hc : Corresponds q p fresh) (pend out : Str) (hk : (Reading.mk p pend out).Ok) :
    s.foldl Reading.step ⟨p, pend, out⟩ = ⟨.text false, [], out⟩ := by
  induction s generalizing q p fresh pend with
  | nil =>
    cases q with
    | out =>
      obtain ⟨rfl, _⟩ := hc
      rw [show pend = [] from hk rfl]
      rfl
    | line => exact nomatch h
    | code => exact nomatch h
  | cons c s ih =>
    rw [List.foldl_cons]
    unfold tightFrom at ht
    cases q with
    | line =>
      have hp : p.prose = true := hc.1
      have hpend : pend = [] := hk (by cases p <;> first | rfl | exact nomatch hp)
      subst hpend
      unfold calmMd at h
      by_cases h96 : c = 96
      · subst h96
        have hn : p.next 96 = .span false := by
          cases p with
          | text f => rfl
          | start k => rfl
          | span f => exact nomatch hp
          | block => exact nomatch hp
        rw [step_prose hp out 96 rfl, hn]
        exact ih (q := .code) h (fresh := false) ht rfl [] (fun e => nomatch e)
      · rw [if_neg (by simpa using h96)] at h
        by_cases hsp : (special c || isBreak c || isBlank c) = true
        · rw [if_pos hsp] at h; exact nomatch h
        · rw [if_neg hsp] at h
          simp only [Bool.or_eq_true, not_or, Bool.not_eq_true] at hsp
          rw [step_prose hp out c hsp.1.1, next_ordinary hp c h96 hsp.1.2 hsp.2]
          rw [if_neg (by simp [hsp.1.2]), if_neg (by simp [hsp.2])] at ht
          exact ih (q := .out) h (fresh := false) ht ⟨rfl, rfl⟩ [] (fun _ => rfl)
    | out =>
      obtain ⟨rfl, rfl⟩ := hc
      have hpend : pend = [] := hk rfl
      subst hpend
      unfold calmMd at h
      by_cases h96 : c = 96
      · subst h96
        rw [step_prose rfl out 96 rfl]
        exact ih (q := .code) h (fresh := false) ht rfl [] (fun e => nomatch e)
      · rw [if_neg (by simpa using h96)] at h
        by_cases hsp : special c = true
        · rw [if_pos hsp] at h; exact nomatch h
        · rw [if_neg hsp] at h
          rw [step_prose rfl out c (by simpa using hsp)]
          by_cases hb : isBreak c = true
          · rw [if_pos hb] at h ht
            have hn : Place.next (.text false) c = .text true := by simp [Place.next, h96, hb]
            rw [hn]
            exact ih (q := .line) h (fresh := true) (by simpa using ht) ⟨rfl, .inl rfl⟩ [] (fun _ => rfl)
          · rw [if_neg hb] at h ht
            have hn : Place.next (.text false) c = .text false := by
              simp only [Place.next, h96, hb, if_false]
              by_cases hbl : isBlank c = true <;> simp [hbl]
            rw [hn]
            refine ih (q := .out) h (fresh := false) ?_ ⟨rfl, rfl⟩ [] (fun _ => rfl)
            split at ht <;> exact ht
    | code =>
      have hp : p = .span fresh := hc
      subst hp
      unfold calmMd at h
      by_cases h96 : c = 96
      · subst h96
        exact ih (q := .out) h (fresh := false) ht ⟨rfl, rfl⟩ [] (fun _ => rfl)
      · rw [if_neg (by simpa using h96)] at h
        by_cases hb : isBreak c = true
        · rw [if_pos hb, Bool.and_eq_true] at ht
          have hf : fresh = false := by simpa using ht.1
          subst hf
          have hn : Place.next (.span false) c = .span true := by simp [Place.next, h96, hb]
          have hs : ∃ pend', Reading.step ⟨.span false, pend, out⟩ c = ⟨.span true, pend', out⟩ := by
            unfold Reading.step; dsimp only; rw [hn]; exact ⟨_, rfl⟩
          obtain ⟨pend', hs⟩ := hs
          rw [hs]
          exact ih (q := .code) h (fresh := true) ht.2 rfl pend' (fun e => nomatch e)
        · rw [if_neg hb] at ht
          by_cases hbl : isBlank c = true
          · rw [if_pos hbl] at ht
            have hn : Place.next (.span fresh) c = .span fresh := by simp [Place.next, h96, hb, hbl]
            have hs : ∃ pend', Reading.step ⟨.span fresh, pend, out⟩ c = ⟨.span fresh, pend', out⟩ := by
              unfold Reading.step; dsimp only; rw [hn]; exact ⟨_, rfl⟩
            obtain ⟨pend', hs⟩ := hs
            rw [hs]
            exact ih (q := .code) h (fresh := fresh) ht rfl pend' (fun e => nomatch e)
          · rw [if_neg hbl] at ht
            have hn : Place.next (.span fresh) c = .span false := by simp [Place.next, h96, hb, hbl]
            have hs : ∃ pend', Reading.step ⟨.span fresh, pend, out⟩ c = ⟨.span false, pend', out⟩ := by
              unfold Reading.step; dsimp only; rw [hn]; exact ⟨_, rfl⟩
            obtain ⟨pend', hs⟩ := hs
            rw [hs]
            exact ih (q := .code) h (fresh := false) ht rfl pend' (fun e => nomatch e)

/-! ### a template with its variables sampleText in -/

/-- the text put in for the variable `n` is fit for where the template may show it -/
structure FitFor (cls : NoteId) (n t : Str) : Prop where
  code : n ∉ cls.bare → n ≠ str "report_only_text" → oneLine t = true
  open_ : n ∈ cls.bare ∨ n ∈ cls.exposed →
    (plainText t = true ∧ ¬ 96 ∈ t) ∨ (n = str "report_only_text" ∧ t = F.cspReportOnly.text) ∨
      (calmMd .line t = true ∧ tight t = true)

theorem three_agree {a b c : Option Str} {o : Str} (h : (if a = b ∧ b = c then a else none) = some o) :
    a = some o ∧ b = some o ∧ c = some o := by
  split at h
  · rename_i hab
    exact ⟨h, hab.1 ▸ h, hab.2 ▸ hab.1 ▸ h⟩
  · exact nomatch h

/-- reading what a template gives -/
theorem scanSegs_ok {cls : NoteId} (e : RenderEnv) {vars : Dict Val} {segs : List Seg} {p : Place} {o src : Str}
    (h : scanSegs cls p segs = some o) (hr : renderSegs e.toStr vars segs = .ok src)
    (hv : ∀ n ∈ tplVars segs, ∀ v, dget vars n = some v → ∃ t, v = .str t ∧ FitFor cls n t)
    (pend out : Str) (hk : (Reading.mk p pend out).Ok) :
    ∃ q, src.foldl Reading.step ⟨p, pend, out⟩ = ⟨q, [], out ++ o⟩ ∧ q.inSpan = false := by
  induction segs generalizing p o src pend out with
  | nil =>
    simp only [renderSegs, Except.ok.injEq] at hr
    subst hr
    unfold scanSegs at h
    cases p with
    | span f => exact nomatch h
    | text f =>
      cases h
      rw [show pend = [] from hk rfl, List.append_nil]
      exact ⟨_, rfl, rfl⟩
    | start f =>
      cases h
      rw [show pend = [] from hk rfl, List.append_nil]
      exact ⟨_, rfl, rfl⟩
    | block =>
      cases h
      rw [show pend = [] from hk rfl, List.append_nil]
      exact ⟨_, rfl, rfl⟩
  | cons g segs ih =>
    have cont : ∀ {q : Place} {s o1 o2 rest : Str}, scanText p s = some (o1, q) → scanSegs cls q segs = some o2 →
        renderSegs e.toStr vars segs = .ok rest →
        (∀ n ∈ tplVars segs, ∀ v, dget vars n = some v → ∃ t, v = .str t ∧ FitFor cls n t) →
        ∃ q, (s ++ rest).foldl Reading.step ⟨p, pend, out⟩ = ⟨q, [], out ++ (o1 ++ o2)⟩ ∧ q.inSpan = false := by
      intro q s o1 o2 rest h1 h2 h3 h4
      obtain ⟨pend', e1, k1⟩ := scanText_ok h1 pend out hk
      obtain ⟨q2, e2, k2⟩ := ih h2 h3 h4 pend' (out ++ o1) k1
      exact ⟨q2, by rw [List.foldl_append, e1, e2, List.append_assoc], k2⟩
    cases g with
    | text s =>
      simp only [renderSegs, bind, Except.bind, pure, Except.pure] at hr
      split at hr
      · exact nomatch hr
      rename_i rest hrest
      cases hr
      have hv' : ∀ n ∈ tplVars segs, ∀ v, dget vars n = some v → ∃ t, v = .str t ∧ FitFor cls n t := hv
      have h' : (match scanText p s with
          | some (o, q) => (scanSegs cls q segs).map (o ++ ·)
          | none => none) = some o := by
        cases p <;> exact h
      cases hsc : scanText p s with
      | none => rw [hsc] at h'; exact nomatch h'
      | some x =>
        obtain ⟨o1, q⟩ := x
        rw [hsc] at h'
        simp only [Option.map_eq_some_iff] at h'
        obtain ⟨o2, h2, rfl⟩ := h'
        exact cont hsc h2 hrest hv'
    | var n =>
      unfold renderSegs at hr
      cases hd : dget vars n with
      | none => rw [hd] at hr; exact nomatch hr
      | some v =>
        rw [hd] at hr
        obtain ⟨t, rfl, hf⟩ := hv n (List.mem_cons_self ..) v hd
        have hv' : ∀ n ∈ tplVars segs, ∀ v, dget vars n = some v → ∃ t, v = .str t ∧ FitFor cls n t :=
          fun m hm => hv m (List.mem_cons_of_mem _ hm)
        simp only [RenderEnv.toStr, bind, Except.bind, pure, Except.pure] at hr
        split at hr
        · exact nomatch hr
        rename_i rest hrest
        cases hr
        have prose : p.prose = true → ((if n ∈ cls.bare ∨ n ∈ cls.exposed then
              let a := scanSegs cls (.text false) segs
              let b := scanSegs cls p segs
              let c := if n = str "report_only_text" then
                  match scanText p F.cspReportOnly.text with
                  | some (o, q) => (scanSegs cls q segs).map (o ++ ·)
                  | none => none
                else a
              if a = b ∧ b = c then a else none
            else none) = some o) →
            ∃ q, (t ++ rest).foldl Reading.step ⟨p, pend, out⟩ = ⟨q, [], out ++ o⟩ ∧ q.inSpan = false := by
          intro hp h
          have hpend : pend = [] := hk (by cases p <;> first | rfl | exact nomatch hp)
          subst hpend
          by_cases hm : n ∈ cls.bare ∨ n ∈ cls.exposed
          · rw [if_pos hm] at h
            dsimp only at h
            obtain ⟨h, hb, hc⟩ := three_agree h
            · rcases hf.open_ hm with ⟨h1, h2⟩ | ⟨h1, h2⟩ | ⟨h1, h2⟩
              · rw [List.foldl_append, plain_value h1 h2 hp]
                split
                · exact ih hb hrest hv' [] out (fun _ => rfl)
                · exact ih h hrest hv' [] out (fun _ => rfl)
              · rw [if_pos h1] at hc
                cases hsc : scanText p F.cspReportOnly.text with
                | none => rw [hsc] at hc; exact nomatch hc
                | some x =>
                  obtain ⟨o1, q⟩ := x
                  rw [hsc] at hc
                  simp only [Option.map_eq_some_iff] at hc
                  obtain ⟨o2, h2', rfl⟩ := hc
                  rw [h2]
                  exact cont hsc h2' hrest hv'
              · rw [List.foldl_append, md_value (q := .line) h1 (fresh := false) h2 ⟨hp, .inr rfl⟩ [] out (fun _ => rfl)]
                exact ih h hrest hv' [] out (fun _ => rfl)
          · rw [if_neg hm] at h
            exact nomatch h
        cases p with
        | text f => exact prose rfl h
        | start k => exact prose rfl h
        | span f =>
          unfold scanSegs at h
          split at h
          · rename_i hc
            obtain ⟨rfl, h1, h2⟩ := hc
            obtain ⟨pend', e1⟩ := span_value (hf.code h1 h2) pend out
            rw [List.foldl_append, e1]
            exact ih h hrest hv' pend' out (fun e => nomatch e)
          · exact nomatch h
        | block =>
          unfold scanSegs at h
          split at h
          · rename_i hc
            have hpend : pend = [] := hk rfl
            subst hpend
            rw [List.foldl_append, block_value (hf.code hc.1 hc.2)]
            exact ih h hrest hv' [] out (fun _ => rfl)
          · exact nomatch h

/-! ### the theorem -/

/-- the variables a class's text refers to -/
def textVars (cls : NoteId) : List Str := (tplNames cls.text).getD []

/-- What is assumed of the values a note shows: pre-composed Markdown is shown outside code only and has no blank line;
anything else is one line of text (but for the remark on report-only policies); variables that are shown outside code
though they hold data from elsewhere (`NoteId.exposed`) are plain text; so are times. -/
structure OneLiners (e : RenderEnv) (cls : NoteId) (vars : Dict Val) : Prop where
  made : ∀ k ∈ textVars cls, ∀ t, dget vars k = some (.md t) → k ∈ cls.bare ∧ tight t = true
  lines : ∀ k ∈ textVars cls, ∀ v t, dget vars k = some v → (∀ t', v ≠ .md t') → e.coerce v = .ok t →
    k ≠ str "report_only_text" → ∀ c ∈ t, isBreak c = false
  plain : ∀ k ∈ cls.exposed, ∀ v t, dget vars k = some v → e.coerce v = .ok t → plainText t = true
  times : ∀ u n s t, e.toStr (.rel u n s) = .ok t → plainText (removeC 96 t) = true

theorem plain_decI (i : Int) : plainText (removeC 96 (decI i)) = true := by
  unfold decI
  split
  · refine plainText_append (a := str "-") (b := dec _) rfl (by decide) ?_
    rw [List.all_eq_true]
    intro c hc
    have := List.all_eq_true.1 (dec_ordinary _) c hc
    simp only [ordinary, Bool.and_eq_true] at this ⊢
    exact this.1.1
  · have := plainText_append (a := dec i.natAbs) (b := []) (dec_ordinary _) (dec_ne_nil _) rfl
    rwa [List.append_nil] at this

theorem coerce_backticks {e : RenderEnv} {v : Val} {t : Str} (h : e.coerce v = .ok t) (hm : ∀ t', v ≠ .md t') : ¬ 96 ∈ t := by
  unfold RenderEnv.coerce at h
  split at h
  · exact absurd rfl (hm _)
  · simp only [bind, Except.bind, pure, Except.pure] at h
    split at h
    · exact nomatch h
    · cases h
      exact not_mem_removeC _

/-- values of the right kinds are fit for where they are shown -/
theorem fits_of {e : RenderEnv} {cls : NoteId} {vars : Dict Val} (hq : Quiet cls vars) (ho : OneLiners e cls vars)
    {k : Str} (hk : k ∈ textVars cls) {v : Val} {t : Str} (hv : dget vars k = some v) (ht : e.coerce v = .ok t) :
    FitFor cls k t := by
  by_cases hm : ∃ s, v = .md s
  · obtain ⟨s, rfl⟩ := hm
    have hs : s = t := by
      unfold RenderEnv.coerce at ht
      cases ht
      rfl
    subst hs
    obtain ⟨hb, htight⟩ := ho.made k hk s hv
    refine ⟨fun h => absurd hb h, fun _ => ?_⟩
    obtain ⟨w, hw, hc⟩ := hq k hb
    rw [hv] at hw
    cases hw
    have hc : (s.isEmpty || calmMd .line s) = true := hc
    rcases Bool.or_eq_true _ _ ▸ hc with h | h
    · have : s = [] := by simpa using h
      subst this
      exact .inl ⟨rfl, by simp⟩
    · exact .inr (.inr ⟨h, htight⟩)
  · have hm' : ∀ t', v ≠ .md t' := fun t' e => hm ⟨t', e⟩
    have h96 := coerce_backticks ht hm'
    refine ⟨fun _ hr => ?_, fun hb => ?_⟩
    · have := ho.lines k hk v t hv hm' ht hr
      unfold oneLine
      rw [List.all_eq_true]
      intro c hc
      simp only [Bool.and_eq_true, Bool.not_eq_true', bne_iff_ne, ne_eq]
      exact ⟨this c hc, fun e => h96 (e ▸ hc)⟩
    · rcases hb with hb | hb
      · obtain ⟨w, hw, hc⟩ := hq k hb
        rw [hv] at hw
        cases hw
        unfold calm at hc
        split at hc
        · rename_i i
          have : removeC 96 (decI i) = t := by
            simp only [RenderEnv.coerce, RenderEnv.toStr, bind, Except.bind, pure, Except.pure, Except.ok.injEq] at ht
            exact ht
          exact .inl ⟨this ▸ plain_decI i, h96⟩
        · rename_i u n s
          simp only [RenderEnv.coerce, RenderEnv.toStr, bind, Except.bind, pure, Except.pure] at ht
          split at ht
          · exact nomatch ht
          · rename_i x hx
            cases ht
            exact .inl ⟨ho.times u n s x hx, h96⟩
        · rename_i s
          have e1 : removeC 96 s = t := by
            simp only [RenderEnv.coerce, RenderEnv.toStr, bind, Except.bind, pure, Except.pure, Except.ok.injEq] at ht
            exact ht
          simp only [Bool.or_eq_true, beq_iff_eq] at hc
          have remark : s = F.cspReportOnly.text → (plainText t = true ∧ ¬ 96 ∈ t) ∨
              (k = str "report_only_text" ∧ t = F.cspReportOnly.text) ∨ (calmMd .line t = true ∧ tight t = true) := fun h => by
            have e2 : t = F.cspReportOnly.text := by rw [← e1, h]; decide +kernel
            by_cases hr : k = str "report_only_text"
            · exact Or.inr (Or.inl ⟨hr, e2⟩)
            · have := ho.lines k hk _ t hv hm' ht hr 10 (by rw [e2]; decide +kernel)
              exact nomatch this
          rcases hc with (h | h) | h
          · exact .inl ⟨e1 ▸ h, h96⟩
          · exact remark h
          · exact remark h
        · exact absurd rfl (hm' _)
        · exact nomatch hc
      · exact .inl ⟨ho.plain k hb v t hv ht, h96⟩

/-- `tplNames` are the variables of the segments -/
theorem textVars_tpl {cls : NoteId} {segs : List Seg} (h : tpl cls.text = some segs) : textVars cls = tplVars segs := by
  unfold textVars tplNames
  rw [h]
  rfl

theorem markup_of_quiet {e : RenderEnv} {cls : NoteId} {vars : Dict Val} (hc : cls ∉ unfenced)
    (ht : e.translate cls.text = cls.text) (hq : Quiet cls vars) (ho : OneLiners e cls vars) {src mk : Str}
    (hs : e.detailSource cls vars = .ok src) (hm : markup src = some mk) : ownMarkup cls = some mk := by
  obtain ⟨segs, o, h1, h2, h3⟩ := scan_of cls hc
  unfold RenderEnv.detailSource at hs
  simp only [bind, Except.bind] at hs
  split at hs
  · exact nomatch hs
  rename_i safe hsafe
  unfold percent at hs
  rw [ht, h1] at hs
  dsimp only at hs
  obtain ⟨q, hq', _⟩ := scanSegs_ok e h2 hs (fun n hn w hw => by
    have := coerceAll_get e hsafe n
    cases hv : dget vars n with
    | none => rw [hv] at this; rw [this] at hw; exact nomatch hw
    | some v =>
      rw [hv] at this
      obtain ⟨t, ht, hg⟩ := this
      rw [hw] at hg
      cases hg
      exact ⟨t, rfl, fits_of hq ho (by rw [textVars_tpl h1]; exact hn) hv ht⟩) [] [] (fun _ => rfl)
  unfold markup at hm
  split at hm
  · exact nomatch hm
  · dsimp only at hm
    rw [hq'] at hm
    simp only [List.append_nil, List.nil_append, Option.some.injEq] at hm
    rw [h3, hm]

/-- **C114** `wire_data_stays_in_code`.  Whatever calls are made on a linter, the Markdown made for a note's detail, or
for a sub-note's, has no more markup outside code than the class's own text: nothing in a message, whatever its octets,
adds an HTML tag, a link or an escape to what a user is shown.

Partial: the two classes of `unfenced` are left out (`C114_unclosed_span`: for one of them it is false), and the values
shown have to satisfy `OneLiners` — in particular the variables of `NoteId.exposed`, which hold data from the message
and are not put into code, are assumed to be harmless, and the claim is false without that (`C114_status_is_exposed`,
`C114_missing_fields_are_exposed`).  Texts with two backticks in a row (an empty code span) are not judged. -/
theorem C114_wire_data_stays_in_code_partial (env : Env) (m : Msg) (hr : Reachable env m) (n : Note) (hn : n ∈ m.notes)
    (ht : ∀ s, env.render.translate s = s) :
    (n.cls ∉ unfenced → OneLiners env.render n.cls n.vars →
      ∀ src mk, env.render.detailSource n.cls n.vars = .ok src → markup src = some mk → ownMarkup n.cls = some mk) ∧
    ∀ s ∈ n.subnotes, s.cls ∉ unfenced → OneLiners env.render s.cls s.vars →
      ∀ src mk, env.render.detailSource s.cls s.vars = .ok src → markup src = some mk → ownMarkup s.cls = some mk := by
  refine ⟨fun hu ho src mk hs hm => ?_, fun s hs' hu ho src mk hs hm => ?_⟩
  · exact markup_of_quiet hu (ht _) (hr.lint n hn).2.2.tame.1 ho hs hm
  · exact markup_of_quiet hu (ht _) ((hr.lint n hn).2.2.tame.2 s hs') ho hs hm

end HL.Props
