import Verif.Props.ValueNotes

/-!
# Cache-Control (C56)
-/

namespace HL.Props
open HL.F

/-! ### notes on the elements of a list field -/

section
variable {env : Env} {related : Option Msg} {t : Bool} {ls : List Line} {m m' : Msg}

/-- the elements on one line of a list field -/
def lineElements (v : Str) : List Str := (splitListField v).map strip

theorem count_flatMap_ite {α β} [BEq β] (l : List α) (f : α → List β) (X : β) (p : α → Bool) (h : ∀ a ∈ l, (f a).count X = if p a then 1 else 0) :
    (l.flatMap f).count X = (l.filter p).length := by
  induction l with
  | nil => rfl
  | cons a l ih =>
    rw [List.flatMap_cons, List.count_append, ih fun b hb => h b (by simp [hb]), h a (by simp)]
    cases hp : p a
    · rw [List.filter_cons_of_neg (by simp [hp])]; simp
    · rw [List.filter_cons_of_pos hp, List.length_cons, if_pos rfl]; omega

/-- a note `parse` adds exactly for the elements that meet a condition: about the lines of those elements -/
theorem Processed.element_note (P : Processed env related t ls m m') {X f} (hX : ParseOnly X f) (hk : f.info.kind = .list)
    (hv : f.validIn m.kind = true) (spec : Str → Bool)
    (hs : ∀ v, (parseNotes ⟨env, m, related⟩ f v).count X = if spec v then 1 else 0) :
    AddedAbout X m m' ((linesFor m.kind f ls).flatMap fun p => ((lineElements p.2.2).filter spec).map fun _ => offsetSubject p.1) := by
  obtain ⟨added, e, ht⟩ := list_notes hX hk P.linting P.new P.ok
  refine ⟨added, e, ?_⟩
  rw [ht, if_pos hv]
  apply flatMap_congr_mem
  intro p _
  rw [List.map_const', count_flatMap_ite _ _ X (fun v => spec (strip v)) fun v _ => hs _]
  congr 1
  unfold lineElements
  rw [List.filter_map, List.length_map]
  rfl

theorem elementsOf_lines (n : Str) : elementsOf ls n = (valuesOf ls n).flatMap lineElements := by
  unfold elementsOf lineElements; rw [List.map_flatMap]

/-- for a field that is a list: what is recorded before the checks of the value -/
theorem valueOf_elements {f : FieldId} (hk : f.info.kind = .list) (g : Str → Option Val)
    (hg : ∀ x, (parseText ⟨env, m, related⟩ f x).toOption = g x) (n : Str) :
    valueOf env related m f ls n = .list ((elementsOf ls n).filterMap g) := by
  unfold valueOf lineValue
  rw [hk]
  dsimp only
  simp only [hg]
  unfold elementsOf
  rw [List.filterMap_map]
  rfl

/-- a number of notes `evaluate` adds, given by the value -/
theorem Processed.value_count (P : Processed env related t ls m m') {X f} (hX : EvalOnly X f) (hv : f.validIn m.kind = true) (spec : Str → List Str)
    (hs : ∀ (c : Ctx) (add : AddNote) (hd : Handler), ∀ n ∈ namesFor f ls, During env related t m c → hd.fid = f →
      hd.value = valueOf env related m f ls n → hd.value ≠ .none → subs X (hd.evaluate c add).2 = (spec n).map fun _ => add.subject)
    (hn : ∀ n ∈ namesFor f ls, valueOf env related m f ls n ≠ .none) :
    AddedAbout X m m' ((namesFor f ls).flatMap fun n => (spec n).map fun _ => fieldSubject n) := by
  obtain ⟨added, e, ht⟩ := value_notes hX (fun n => (spec n).length) (by
    intro c add hd n hn h1 h2 h3 h4
    refine (hs c add hd n hn h1 h2 h3 h4).trans ?_
    rw [List.map_const']) P.linting P.new P.ok
  refine ⟨added, e, ?_⟩
  rw [ht, if_pos hv]
  apply flatMap_congr_mem
  intro n hn'
  exact (if_neg (hn n hn')).trans (List.map_const' ..).symm

/-- what is recorded for a field whose checks leave the value alone -/
theorem Processed.recorded (P : Processed env related t ls m m') (hu : Unpadded ls) {f : FieldId} (hf : f ≠ .unknownField) (hv : f.validIn m.kind = true)
    (he : ∀ v, evaluated f v = v) {n : Str} (hn : n ∈ namesFor f ls) : dget (m'.section t).parsed n = some (valueOf env related m f ls n) := by
  obtain ⟨hn, hc⟩ := mem_namesFor.1 hn
  rw [section_values P.linting P.new hu P.ok, if_pos hn]
  unfold fieldValue
  rw [if_pos (by rw [okName_class hc hf]; exact hv), hc]
  unfold afterCheck valueOf
  split
  · rename_i h; exact congrArg some h.symm
  · rw [he]

theorem During.kind {c : Ctx} (h : During env related t m c) : c.msg.kind = m.kind := by
  obtain ⟨ns, s, e⟩ := h.ext
  rw [e]
  cases t <;> rfl

end

/-! ### specification -/

/-- the name of a directive as it is written: up to the first `=` -/
def ccText (e : Str) : Str := e.takeWhile (· != 61)
/-- the directive, in lower case -/
def ccName (e : Str) : Str := lower (ccText e)
/-- the argument, if there is a `=` -/
def ccArg (e : Str) : Option Str := if 61 ∈ e then some ((e.dropWhile (· != 61)).drop 1) else none

/-- directives whose argument is a number -/
def ccInts : List Str := [str "max-age", str "max-stale", str "min-fresh", str "s-maxage", str "stale-if-error",
  str "stale-while-revalidate", str "pre-check", str "post-check"]
/-- directives that may have a quoted argument -/
def ccQuoted : List Str := [str "no-cache", str "private"]
/-- directives that have no argument -/
def ccBare : List Str := [str "immutable", str "must-revalidate", str "must-understand", str "no-store", str "no-transform",
  str "only-if-cached", str "proxy-revalidate", str "public"]
/-- directives only for requests -/
def ccRequest : List Str := [str "max-stale", str "min-fresh", str "only-if-cached"]
/-- directives only for responses -/
def ccResponse : List Str := [str "immutable", str "must-revalidate", str "must-understand", str "private", str "proxy-revalidate",
  str "public", str "s-maxage", str "stale-if-error", str "stale-while-revalidate", str "pre-check", str "post-check"]
/-- the directives that make others pointless, with those others -/
def ccConflicts : List (Str × List Str) := [
  (str "no-store", [str "immutable", str "max-age", str "must-revalidate", str "no-cache", str "private", str "proxy-revalidate", str "public",
    str "s-maxage", str "stale-if-error", str "stale-while-revalidate", str "pre-check", str "post-check"]),
  (str "no-cache", [str "immutable", str "max-age", str "must-revalidate", str "proxy-revalidate", str "s-maxage", str "stale-if-error",
    str "stale-while-revalidate", str "pre-check", str "post-check"]),
  (str "must-revalidate", [str "immutable", str "stale-if-error", str "stale-while-revalidate", str "pre-check", str "post-check"])]

/-- what an element is recorded as: `None` when it is dropped -/
def ccRecord (e : Str) : Option Val :=
  if ccName e ∈ ccInts then ((ccArg e).bind pyInt).map fun k => .tuple [.str (ccName e), .int k]
  else if ccName e ∈ ccQuoted then some (.tuple [.str (ccName e), .str (match ccArg e with | some a => unquoteString a | none => str "None")])
  else some (.tuple [.str (ccName e), match ccArg e with | some a => .str a | none => .none])

/-- is an element dropped: the directive takes a number, and there is none? -/
def ccBad (e : Str) : Bool := decide (ccName e ∈ ccInts) && ((ccArg e).bind pyInt).isNone

/-- the directives of a field that are recorded, in order -/
def ccNames (ls : List Line) (n : Str) : List Str := ((elementsOf ls n).filter fun e => !ccBad e).map ccName

/-! ### parse -/

theorem split1_eq (c : Nat) (s : Str) : split1 c s = if c ∈ s then some (s.takeWhile (· != c), (s.dropWhile (· != c)).drop 1) else none := by
  induction s with
  | nil => rfl
  | cons x s ih =>
    unfold split1
    by_cases hx : x = c
    · subst hx; simp
    · have h1 : (x != c) = true := by simpa using hx
      have h2 : (c ∈ x :: s) ↔ c ∈ s := by rw [List.mem_cons]; exact ⟨fun h => h.resolve_left fun h => hx h.symm, Or.inr⟩
      rw [if_neg hx, ih, List.takeWhile_cons_of_pos (p := (· != c)) h1, List.dropWhile_cons_of_pos (p := (· != c)) h1]
      by_cases hc : c ∈ s
      · rw [if_pos hc, if_pos (h2.2 hc)]
      · rw [if_neg hc, if_neg (fun h => hc (h2.1 h))]

theorem takeWhile_none {c : Nat} {s : Str} (h : c ∉ s) : s.takeWhile (· != c) = s := by
  induction s with
  | nil => rfl
  | cons x s ih =>
    rw [List.takeWhile_cons_of_pos (by simp; intro e; exact h (by simp [e])), ih fun hc => h (by simp [hc])]

theorem cc_cases (v : Str) : (ccArg v = none ∧ split1 61 v = none ∧ ccText v = v) ∨ ∃ b, ccArg v = some b ∧ split1 61 v = some (ccText v, b) := by
  rw [split1_eq]
  unfold ccText ccArg
  by_cases h : 61 ∈ v
  · rw [if_pos h, if_pos h]; exact Or.inr ⟨_, rfl, rfl⟩
  · rw [if_neg h, if_neg h]; exact Or.inl ⟨rfl, rfl, takeWhile_none h⟩

theorem ccInfo_iff (d : Str) (i : CcInfo) : ccInfo d = some i ↔ i ∈ knownCC ∧ i.name = d := by
  unfold ccInfo
  have hn : (knownCC.map (·.name)).Nodup := by decide
  generalize knownCC = l at *
  induction l with
  | nil => simp
  | cons a l ih =>
    rw [List.map_cons, List.nodup_cons] at hn
    rw [List.find?_cons]
    by_cases ha : a.name = d
    · rw [beq_iff_eq.2 ha]
      dsimp only
      constructor
      · rintro h; cases h; exact ⟨by simp, ha⟩
      · rintro ⟨h1, h2⟩
        rcases List.mem_cons.1 h1 with rfl | h1
        · rfl
        · exact absurd (List.mem_map.2 ⟨i, h1, h2.trans ha.symm⟩) hn.1
    · rw [beq_false_of_ne ha]
      dsimp only
      refine (ih hn.2).trans ?_
      constructor
      · rintro ⟨h1, h2⟩; exact ⟨by simp [h1], h2⟩
      · rintro ⟨h1, h2⟩
        rcases List.mem_cons.1 h1 with rfl | h1
        · exact absurd h2 ha
        · exact ⟨h1, h2⟩

theorem ccInfo_names (p : CcInfo → Bool) (l : List Str) (hl : (knownCC.filter p).map (·.name) = l) (d : Str) :
    (ccInfo d).any p = decide (d ∈ l) := by
  rw [Bool.eq_iff_iff, decide_eq_true_iff, ← hl, List.mem_map]
  constructor
  · intro h
    cases hi : ccInfo d with
    | none => rw [hi] at h; exact nomatch h
    | some i =>
      rw [hi] at h
      obtain ⟨h1, h2⟩ := (ccInfo_iff d i).1 hi
      exact ⟨i, List.mem_filter.2 ⟨h1, h⟩, h2⟩
  · rintro ⟨i, h1, h2⟩
    obtain ⟨h1, h3⟩ := List.mem_filter.1 h1
    rw [(ccInfo_iff d i).2 ⟨h1, h2⟩]
    exact h3

theorem ccInfo_int (d : Str) : (ccInfo d).any (fun i => i.conv == .int) = decide (d ∈ ccInts) := ccInfo_names _ _ (by decide) d
theorem ccInfo_quoted (d : Str) : (ccInfo d).any (fun i => i.conv == .unquote) = decide (d ∈ ccQuoted) := ccInfo_names _ _ (by decide) d
theorem ccInfo_bare (d : Str) : (ccInfo d).any (fun i => i.conv == .none) = decide (d ∈ ccBare) := ccInfo_names _ _ (by decide) d
theorem ccInfo_request (d : Str) : (ccInfo d).any (fun i => !i.resp) = decide (d ∈ ccRequest) := ccInfo_names _ _ (by decide) d
theorem ccInfo_response (d : Str) : (ccInfo d).any (fun i => !i.req) = decide (d ∈ ccResponse) := ccInfo_names _ _ (by decide) d

/-- field/parsers/cache_control.py:106-132: `parse` after splitting at the `=` -/
def ccRest (name lname : Str) (val : Option Str) : W Val := do
  let add : AddNote := ⟨[], [], []⟩
  W.when (name != lname) (add.add .CC_MISCAP [(str "directive_lower", .str lname), (str "directive", .str name)])
  match ccInfo lname with
  | none => return .tuple [.str lname, Val.ofOpt val]
  | some info =>
    match info.conv with
    | .none => do
      W.when val.isSome (add.add .CC_SHOULD_NOT_HAVE_VALUE [(str "directive", .str lname)])
      return .tuple [.str lname, Val.ofOpt val]
    | .unquote => return .tuple [.str lname, .str (unquoteOpt val)]
    | .int =>
      match val.bind pyInt with
      | some n => do
        W.when (n > 2147483648) (add.add .CC_MAX_AGE_TOO_LARGE [(str "directive", .str lname)])
        return .tuple [.str lname, .int n]
      | none => do
        add.add .CC_BAD_VALUE_TYPE [(str "directive", .str lname), (str "expected_type", .str info.expected),
          (str "value", Val.ofOpt val)]
        W.throw .valueError

/-- what `parse` makes of an element -/
theorem cc_parse (c : Ctx) (v : Str) :
    (parseText c .cache_control_ v).toOption = ccRecord v ∧
    (parseNotes c .cache_control_ v).count .CC_MISCAP = (if ccText v != ccName v then 1 else 0) ∧
    (parseNotes c .cache_control_ v).count .CC_BAD_VALUE_TYPE = (if ccBad v then 1 else 0) ∧
    (parseNotes c .cache_control_ v).count .CC_SHOULD_NOT_HAVE_VALUE = (if decide (ccName v ∈ ccBare) && (ccArg v).isSome then 1 else 0) ∧
    (parseNotes c .cache_control_ v).count .CC_MAX_AGE_TOO_LARGE =
      (if decide (ccName v ∈ ccInts) && ((ccArg v).bind pyInt).any (· > 2147483648) then 1 else 0) := by
  show ((cache_control.parse ⟨[], [], []⟩ v).res).toOption = _ ∧ ((cache_control.parse ⟨[], [], []⟩ v).notes.map (·.cls)).count _ = _ ∧
    ((cache_control.parse ⟨[], [], []⟩ v).notes.map (·.cls)).count _ = _ ∧ ((cache_control.parse ⟨[], [], []⟩ v).notes.map (·.cls)).count _ = _ ∧
    ((cache_control.parse ⟨[], [], []⟩ v).notes.map (·.cls)).count _ = _
  have h1 := ccInfo_int (ccName v)
  have h2 := ccInfo_quoted (ccName v)
  have h3 := ccInfo_bare (ccName v)
  obtain ⟨tx, d, arg, hp, ht, hd, ha⟩ : ∃ tx d arg, cache_control.parse ⟨[], [], []⟩ v = ccRest tx d arg ∧ ccText v = tx ∧ ccName v = d ∧ ccArg v = arg := by
    rcases cc_cases v with ⟨ha, hs, ht⟩ | ⟨b, ha, hs⟩
    · refine ⟨v, lower v, none, ?_, ht, by unfold ccName; rw [ht], ha⟩
      unfold cache_control.parse; rw [hs]; rfl
    · refine ⟨ccText v, ccName v, some b, ?_, rfl, rfl, ha⟩
      unfold cache_control.parse; rw [hs]; rfl
  rw [hp]
  unfold ccRest ccRecord ccBad
  rw [ht, hd, ha]
  rw [hd] at h1 h2 h3
  clear hp ht hd ha
  cases hi : ccInfo d with
  | none =>
    rw [hi] at h1 h2 h3
    simp only [Option.any_none] at h1 h2 h3
    have h1 := (decide_eq_false_iff_not.1 h1.symm); have h2 := (decide_eq_false_iff_not.1 h2.symm); have h3 := (decide_eq_false_iff_not.1 h3.symm)
    simp only [h1, h2, h3, if_false, decide_false, Bool.false_and]
    cases tx != d <;> cases arg <;> exact ⟨rfl, rfl, rfl, rfl, rfl⟩
  | some i =>
    rw [hi] at h1 h2 h3
    simp only [Option.any_some] at h1 h2 h3
    dsimp only
    cases hc : i.conv with
    | none =>
      rw [hc] at h1 h2 h3
      have h1 := (decide_eq_false_iff_not.1 h1.symm); have h2 := (decide_eq_false_iff_not.1 h2.symm); have h3 := (decide_eq_true_iff.1 h3.symm)
      simp only [h1, h2, h3, if_false, decide_false, Bool.false_and, decide_true, Bool.true_and]
      cases tx != d <;> cases arg <;> exact ⟨rfl, rfl, rfl, rfl, rfl⟩
    | unquote =>
      rw [hc] at h1 h2 h3
      have h1 := (decide_eq_false_iff_not.1 h1.symm); have h2 := (decide_eq_true_iff.1 h2.symm); have h3 := (decide_eq_false_iff_not.1 h3.symm)
      simp only [h1, h2, h3, if_false, decide_false, Bool.false_and, if_true]
      cases tx != d <;> cases arg <;> exact ⟨rfl, rfl, rfl, rfl, rfl⟩
    | int =>
      rw [hc] at h1 h2 h3
      have h1 := (decide_eq_true_iff.1 h1.symm); have h2 := (decide_eq_false_iff_not.1 h2.symm); have h3 := (decide_eq_false_iff_not.1 h3.symm)
      simp only [h1, h3, if_true, if_false, decide_false, Bool.false_and, decide_true, Bool.true_and]
      cases arg.bind pyInt with
      | none => cases tx != d <;> exact ⟨rfl, rfl, rfl, rfl, rfl⟩
      | some k =>
        dsimp only
        simp only [Option.any_some]
        by_cases hk : k > 2147483648
        · have hk := decide_eq_true hk; simp only [hk]; cases tx != d <;> exact ⟨rfl, rfl, rfl, rfl, rfl⟩
        · have hk := decide_eq_false hk; simp only [hk]; cases tx != d <;> exact ⟨rfl, rfl, rfl, rfl, rfl⟩

theorem cc_valid (kind : MsgKind) : FieldId.cache_control_.validIn kind = true := by cases kind <;> rfl

section
variable {env : Env} {related : Option Msg} {t : Bool} {ls : List Line} {m m' : Msg}

/-- **C56** (value) what is recorded for `Cache-Control` is, in order, each element's directive in lower case with its
argument — a number for the directives that take one — leaving out those directives when the argument is not a number -/
theorem C56_value (P : Processed env related t ls m m') (hu : Unpadded ls) (n : Str) (hn : n ∈ namesFor .cache_control_ ls) :
    dget (m'.section t).parsed n = some (.list ((elementsOf ls n).filterMap ccRecord)) := by
  rw [P.recorded hu (f := .cache_control_) (by decide) (cc_valid _) (fun _ => rfl) hn]
  exact congrArg some (valueOf_elements rfl ccRecord (fun x => (cc_parse _ x).1) n)

/-- **C56** (notes on elements) each is added once for each element it concerns, about the element's line: for a
directive not written in lower case, for a missing or bad number, for an argument where none is allowed, and for a number over 2³¹ -/
theorem C56_element_notes (P : Processed env related t ls m m') :
    AddedAbout .CC_MISCAP m m' ((linesFor m.kind .cache_control_ ls).flatMap fun p =>
      ((lineElements p.2.2).filter fun e => ccText e ≠ ccName e).map fun _ => offsetSubject p.1) ∧
    AddedAbout .CC_BAD_VALUE_TYPE m m' ((linesFor m.kind .cache_control_ ls).flatMap fun p =>
      ((lineElements p.2.2).filter fun e => ccName e ∈ ccInts ∧ (ccArg e).bind pyInt = none).map fun _ => offsetSubject p.1) ∧
    AddedAbout .CC_SHOULD_NOT_HAVE_VALUE m m' ((linesFor m.kind .cache_control_ ls).flatMap fun p =>
      ((lineElements p.2.2).filter fun e => ccName e ∈ ccBare ∧ 61 ∈ e).map fun _ => offsetSubject p.1) ∧
    AddedAbout .CC_MAX_AGE_TOO_LARGE m m' ((linesFor m.kind .cache_control_ ls).flatMap fun p =>
      ((lineElements p.2.2).filter fun e => ccName e ∈ ccInts ∧ ((ccArg e).bind pyInt).any (· > 2 ^ 31)).map fun _ => offsetSubject p.1) := by
  have key : ∀ {X : NoteId} (_ : ParseOnly X .cache_control_) (q spec : Str → Bool), (∀ v, (parseNotes ⟨env, m, related⟩ .cache_control_ v).count X = if spec v then 1 else 0) →
      (∀ e, q e = spec e) → AddedAbout X m m' ((linesFor m.kind .cache_control_ ls).flatMap fun p => ((lineElements p.2.2).filter q).map fun _ => offsetSubject p.1) := by
    intro X hX q spec hs hq
    rw [funext hq]
    exact P.element_note hX rfl (cc_valid _) spec hs
  refine ⟨key (X := .CC_MISCAP) (by own_only) _ _ (fun v => (cc_parse _ v).2.1) fun e => ?_,
    key (X := .CC_BAD_VALUE_TYPE) (by own_only) _ _ (fun v => (cc_parse _ v).2.2.1) fun e => ?_,
    key (X := .CC_SHOULD_NOT_HAVE_VALUE) (by own_only) _ _ (fun v => (cc_parse _ v).2.2.2.1) fun e => ?_,
    key (X := .CC_MAX_AGE_TOO_LARGE) (by own_only) _ _ (fun v => (cc_parse _ v).2.2.2.2) fun e => ?_⟩
  · rw [Bool.eq_iff_iff, decide_eq_true_iff]; simp
  · unfold ccBad; rw [Bool.eq_iff_iff, decide_eq_true_iff]; simp
  · rw [Bool.eq_iff_iff, decide_eq_true_iff]; unfold ccArg; by_cases h : 61 ∈ e <;> simp [h]
  · rw [Bool.eq_iff_iff, decide_eq_true_iff]; simp

end

/-! ### evaluate -/

/-- the number last given for a directive that takes one -/
def ccNumber (ls : List Line) (n : Str) (d : Str) : Option Int :=
  ((elementsOf ls n).filterMap fun e => if ccName e = d then (ccArg e).bind pyInt else none).getLast?

/-- is a directive meant for the other kind of message? -/
def ccWrong (kind : MsgKind) (d : Str) : Bool := decide (d ∈ match kind with | .request => ccResponse | .response => ccRequest)

theorem W.forEach_ok {α} {f : α → W Unit} {l : List α} (h : ∀ a ∈ l, (f a).res = .ok ()) : (W.forEach l f).res = .ok () := by
  induction l with
  | nil => rfl
  | cons a l ih =>
    unfold W.forEach
    rw [W.bind_ok (h a (by simp))]
    exact ih fun b hb => h b (by simp [hb])

theorem subs_forEach {X : NoteId} {α} {f : α → W Unit} {l : List α} (h : ∀ a ∈ l, (f a).res = .ok ()) :
    subs X (W.forEach l f) = l.flatMap fun a => subs X (f a) := by
  induction l with
  | nil => rfl
  | cons a l ih =>
    unfold W.forEach
    rw [subs_bind (h a (by simp)), ih fun b hb => h b (by simp [hb]), List.flatMap_cons]

theorem flatMap_ite_const {α} (l : List α) (p : α → Bool) (s : Str) : (l.flatMap fun a => if p a then [s] else []) = (l.filter p).map fun _ => s := by
  rw [← flatMap_ite_map]

/-- the recorded pairs of the elements -/
def ccPair (e : Str) : Option (Str × Val) := (ccRecord e).bind fun v => match v with | .tuple [.str d, x] => some (d, x) | _ => none

theorem ccPair_eq (e : Str) : ccPair e = if ccName e ∈ ccInts then ((ccArg e).bind pyInt).map fun k => (ccName e, .int k)
    else if ccName e ∈ ccQuoted then some (ccName e, .str (match ccArg e with | some a => unquoteString a | none => str "None"))
    else some (ccName e, match ccArg e with | some a => .str a | none => .none) := by
  unfold ccPair ccRecord
  split
  · cases (ccArg e).bind pyInt <;> rfl
  · split <;> rfl

theorem ccPairs_record (es : List Str) : ccPairs (.list (es.filterMap ccRecord)) = es.filterMap ccPair := by
  unfold ccPairs
  dsimp only
  rw [List.filterMap_filterMap]
  rfl

theorem ccPair_name (e : Str) : (ccPair e).map (·.1) = if ccBad e then none else some (ccName e) := by
  rw [ccPair_eq]
  unfold ccBad
  split
  · rename_i h
    rw [decide_eq_true h]
    cases (ccArg e).bind pyInt <;> rfl
  · rename_i h
    rw [decide_eq_false h]
    split <;> rfl

theorem ccPairs_names (es : List Str) : (es.filterMap ccPair).map (·.1) = (es.filter fun e => !ccBad e).map ccName := by
  induction es with
  | nil => rfl
  | cons e es ih =>
    have := ccPair_name e
    cases hb : ccBad e
    · rw [hb] at this
      cases hp : ccPair e with
      | none => rw [hp] at this; exact nomatch this
      | some p =>
        rw [hp] at this
        rw [List.filterMap_cons_some hp, List.filter_cons_of_pos (by simp [hb]), List.map_cons, List.map_cons, ih]
        congr 1
        exact Option.some.inj this
    · rw [hb] at this
      cases hp : ccPair e with
      | some p => rw [hp] at this; exact nomatch this
      | none => rw [List.filterMap_cons_none hp, List.filter_cons_of_neg (by simp [hb]), ih]

theorem dget_last {β} (l : Dict β) (d : Str) : dget (l.foldl (fun d p => dset d p.1 p.2) []) d = (l.filterMap fun p => if p.1 = d then some p.2 else none).getLast? := by
  have : dget (dupdate [] l) d = _ := dget_dupdate [] l d
  refine this.trans ?_
  rw [dget_nil, Option.or_none]
  clear this
  rw [← List.head?_reverse, ← List.filterMap_reverse]
  generalize l.reverse = r
  induction r with
  | nil => rfl
  | cons p r ih =>
    rw [dget_cons]
    by_cases h : p.1 = d
    · rw [if_pos h, List.filterMap_cons_some (b := p.2) (by rw [if_pos h])]; rfl
    · rw [if_neg h, List.filterMap_cons_none (by rw [if_neg h]), ih]

theorem getLast?_map {α β} (f : α → β) (l : List α) : (l.map f).getLast? = l.getLast?.map f := List.getLast?_map ..

theorem ccNumber_get (ls : List Line) (n d : Str) (hd : d ∈ ccInts) :
    dget (ccDict ((elementsOf ls n).filterMap ccPair)) d = (ccNumber ls n d).map .int := by
  unfold ccDict
  rw [dget_last]
  unfold ccNumber
  rw [← getLast?_map, List.filterMap_filterMap, List.map_filterMap]
  congr 2
  funext e
  by_cases he : ccName e = d
  · rw [if_pos he, ccPair_eq, he, if_pos hd]
    cases (ccArg e).bind pyInt with
    | none => rfl
    | some k => show (if d = d then _ else _) = _; rw [if_pos rfl]; rfl
  · rw [if_neg he]
    have := ccPair_name e
    cases hp : ccPair e with
    | none => rfl
    | some p =>
      rw [hp] at this
      have hn : p.1 = ccName e := by
        cases hb : ccBad e
        · rw [hb] at this; exact Option.some.inj this
        · rw [hb] at this; exact nomatch this
      show (if p.1 = d then _ else _) = _
      rw [if_neg (by rw [hn]; exact he)]; rfl

theorem ccNumber_mem (ls : List Line) (n d : Str) (hd : d ∈ ccInts) : (ccNames ls n).contains d = (ccNumber ls n d).isSome := by
  rw [Bool.eq_iff_iff, List.contains_iff_mem]
  unfold ccNames ccNumber
  rw [List.getLast?_isSome, List.mem_map]
  simp only [List.mem_filter, ne_eq, List.filterMap_eq_nil_iff]
  constructor
  · rintro ⟨e, ⟨he, hb⟩, rfl⟩ hall
    have := hall e he
    rw [if_pos rfl] at this
    unfold ccBad at hb
    rw [decide_eq_true hd, this] at hb
    simp at hb
  · intro h
    apply Classical.byContradiction
    intro hno
    apply h
    intro e he
    by_cases hn : ccName e = d
    · rw [if_pos hn]
      cases hx : (ccArg e).bind pyInt with
      | none => rfl
      | some k =>
        refine absurd ⟨e, ⟨he, ?_⟩, hn⟩ hno
        unfold ccBad
        rw [hx]; simp
    · rw [if_neg hn]

/-- do some directives make others pointless? -/
def ccConflicting (names : List Str) : Prop := ∃ p ∈ ccConflicts, p.1 ∈ names ∧ ∃ q ∈ p.2, q ∈ names

theorem ccConflict_iff (names : List Str) : (ccConflict names).isSome = true ↔ ccConflicting names := by
  have h : conflictingCC = ccConflicts := rfl
  unfold ccConflict ccConflicting
  rw [h]
  rw [List.findSome?_isSome_iff]
  apply exists_congr
  rintro ⟨d, pot⟩
  apply and_congr_right
  intro _
  dsimp only
  by_cases h1 : d ∈ names
  · rw [if_pos (List.contains_iff_mem.2 h1)]
    by_cases h2 : ∃ q ∈ pot, q ∈ names
    · have : ¬ (pot.filter names.contains).isEmpty = true := by
        rw [List.isEmpty_iff, List.filter_eq_nil_iff]
        rintro h
        obtain ⟨q, hq, hn⟩ := h2
        exact h q hq (List.contains_iff_mem.2 hn)
      rw [if_neg this]
      exact ⟨fun _ => ⟨h1, h2⟩, fun _ => rfl⟩
    · have : (pot.filter names.contains).isEmpty = true := by
        rw [List.isEmpty_iff, List.filter_eq_nil_iff]
        intro q hq hn
        exact h2 ⟨q, hq, List.contains_iff_mem.1 hn⟩
      rw [if_pos this]
      exact ⟨fun h => (nomatch h), fun h => absurd h.2 h2⟩
  · rw [if_neg (by rw [List.contains_iff_mem]; exact h1)]
    exact ⟨fun h => (nomatch h), fun h => absurd h.1 h1⟩

theorem ccKnown_iff (d : Str) : (ccInfo d).isSome = decide (d ∈ ccInts ++ ccQuoted ++ ccBare) := by
  have h0 : (ccInfo d).isSome = (ccInfo d).any fun _ => true := by cases ccInfo d <;> rfl
  rw [h0, ccInfo_names (fun _ => true) _ rfl, Bool.eq_iff_iff, decide_eq_true_iff, decide_eq_true_iff]
  show d ∈ _ ↔ d ∈ _
  constructor
  · exact (by decide : ∀ x ∈ (knownCC.filter fun _ => true).map (·.name), x ∈ ccInts ++ ccQuoted ++ ccBare) d
  · exact (by decide : ∀ x ∈ ccInts ++ ccQuoted ++ ccBare, x ∈ (knownCC.filter fun _ => true).map (·.name)) d

theorem ccWrong_eq (c : Ctx) (d : Str) : ((c.isRequest && (ccInfo d).any fun i => !i.req) || (!c.isRequest && (ccInfo d).any fun i => !i.resp)) = ccWrong c.msg.kind d := by
  rw [ccInfo_response, ccInfo_request]
  unfold ccWrong Ctx.isRequest
  cases c.msg.kind <;> simp

theorem checkDirective_res (r names add d) : (cache_control.checkDirective r names add d).res = .ok () := by
  unfold cache_control.checkDirective
  dsimp only
  split
  · rfl
  · split
    · rfl
    · exact when_res

theorem checkDirective_wrong (c : Ctx) (names add d) : subs .CC_WRONG_MESSAGE (cache_control.checkDirective c.isRequest names add d) =
    if ccWrong c.msg.kind d then [add.subject] else [] := by
  rw [← ccWrong_eq]
  unfold cache_control.checkDirective
  dsimp only
  split
  · rename_i h; rw [h]; exact subs_add_same
  · rename_i h
    rw [eq_false_of_ne_true h, Bool.false_or]
    split
    · exact subs_add_same
    · exact subs_when_other rfl

theorem checkDirective_dup (c : Ctx) (names add d) : subs .CC_DUP (cache_control.checkDirective c.isRequest names add d) =
    if !ccWrong c.msg.kind d && decide (d ∈ ccInts ++ ccQuoted ++ ccBare) && decide (1 < names.count d) then [add.subject] else [] := by
  rw [← ccWrong_eq, ← ccKnown_iff]
  unfold cache_control.checkDirective
  dsimp only
  split
  · rename_i h; rw [h]; exact subs_add_other rfl
  · rename_i h
    rw [eq_false_of_ne_true h, Bool.false_or]
    split
    · rename_i h; rw [h]; exact subs_add_other rfl
    · rename_i h; rw [eq_false_of_ne_true h]; exact subs_when_same

theorem checkDirective_none {X} (h1 : (NoteId.CC_WRONG_MESSAGE == X) = false) (h2 : (NoteId.CC_DUP == X) = false) (r names add d) :
    subs X (cache_control.checkDirective r names add d) = [] := by
  unfold cache_control.checkDirective
  dsimp only
  split
  · exact subs_add_other h1
  · split
    · exact subs_add_other h1
    · exact subs_when_other h2

/-- the note on `pre-check` and `post-check`, if any -/
def ccCheck (pre post : Option Int) : Option NoteId :=
  match pre, post with
  | none, none => none
  | some a, some b => some (if a = 0 ∧ b = 0 then .CHECK_ALL_ZERO else if b > a then .CHECK_POST_BIGGER else if b = 0 then .CHECK_POST_ZERO else .CHECK_POST_PRE)
  | _, _ => some .CHECK_SINGLE

theorem subs_add {X Y : NoteId} {add : AddNote} {vrs cat} : subs X (add.add Y vrs cat) = if Y = X then [add.subject] else [] := by
  split
  · rename_i h; subst h; exact subs_add_same
  · rename_i h; exact subs_add_other (beq_false_of_ne h)

theorem checkPrePost_subs (X : NoteId) (ls : List Line) (n : Str) (add : AddNote) :
    subs X (cache_control.checkPrePost ((elementsOf ls n).filterMap ccPair) add) =
      if ccCheck (ccNumber ls n (str "pre-check")) (ccNumber ls n (str "post-check")) = some X then [add.subject] else [] := by
  have h1 := ccNumber_mem ls n (str "pre-check") (by decide)
  have h2 := ccNumber_mem ls n (str "post-check") (by decide)
  have h3 := ccNumber_get ls n (str "pre-check") (by decide)
  have h4 := ccNumber_get ls n (str "post-check") (by decide)
  unfold cache_control.checkPrePost
  dsimp only
  rw [ccPairs_names]
  unfold ccNames at h1 h2
  rw [h1, h2, h3, h4]
  cases ccNumber ls n (str "pre-check") with
  | none =>
    cases ccNumber ls n (str "post-check") with
    | none => rfl
    | some b => exact subs_add.trans (by unfold ccCheck; simp)
  | some a =>
    cases ccNumber ls n (str "post-check") with
    | none => exact subs_add.trans (by unfold ccCheck; simp)
    | some b =>
      unfold ccCheck
      simp only [Option.isSome_some, Bool.or_true, Bool.not_true, Bool.or_false, Bool.false_eq_true, if_false, if_true, Option.map_some, Option.some.injEq]
      by_cases h1 : a = 0 ∧ b = 0
      · rw [if_pos h1, if_pos h1]; exact subs_add
      · rw [if_neg h1, if_neg h1]
        by_cases h2 : b > a
        · rw [if_pos h2, if_pos h2]; exact subs_add
        · rw [if_neg h2, if_neg h2]
          by_cases h3 : b = 0
          · rw [if_pos h3, if_pos h3]; exact subs_add
          · rw [if_neg h3, if_neg h3]; exact subs_add

theorem append_congr' {a b c d : List Str} (h : a = b) (h' : c = d) : a ++ c = b ++ d := by rw [h, h']

theorem flatMap_nil' {α β} (l : List α) : (l.flatMap fun _ => ([] : List β)) = [] := by induction l with
  | nil => rfl
  | cons a l ih => exact ih

theorem cc_eval (c : Ctx) (add : AddNote) (hd : Handler) (hf : hd.fid = .cache_control_) (ls : List Line) (n : Str)
    (hv : hd.value = .list ((elementsOf ls n).filterMap ccRecord)) (X : NoteId) :
    subs X (hd.evaluate c add).2 =
      (if X = .CC_CONFLICTING ∧ c.msg.kind = .response ∧ (ccConflict (ccNames ls n)).isSome then [add.subject] else []) ++
      ((dedup (ccNames ls n)).flatMap fun d => subs X (cache_control.checkDirective c.isRequest (ccNames ls n) add d)) ++
      (if ccCheck (ccNumber ls n (str "pre-check")) (ccNumber ls n (str "post-check")) = some X then [add.subject] else []) := by
  have h1 : (hd.evaluate c add).2 = cache_control.evaluate c add hd := by unfold Handler.evaluate; rw [hf]; rfl
  rw [h1]
  unfold cache_control.evaluate
  dsimp only
  rw [hv, ccPairs_record, ccPairs_names]
  have hres : ∀ (b : Bool) (o : Option (Str × List Str)), (W.when b (match o with
      | some (d, cs) => add.add .CC_CONFLICTING [(str "directive", .str d), (str "conflicts", markdownList cs (str "`"))]
      | none => pure ())).res = .ok () := by
    intro b o; unfold W.when; cases b <;> cases o <;> rfl
  have hsub : ∀ (b : Bool) (o : Option (Str × List Str)), subs X (W.when b (match o with
      | some (d, cs) => add.add .CC_CONFLICTING [(str "directive", .str d), (str "conflicts", markdownList cs (str "`"))]
      | none => pure ())) = if X = .CC_CONFLICTING ∧ b = true ∧ o.isSome then [add.subject] else [] := by
    intro b o
    unfold W.when
    cases b
    · simp [subs_pure]
    · cases o with
      | none => simp [subs_pure]
      | some p => exact subs_add.trans (by simp [eq_comm])
  refine (subs_bind (hres _ _)).trans ?_
  refine Eq.trans (append_congr' (hsub _ _) ((subs_bind (W.forEach_ok fun _ _ => checkDirective_res _ _ _ _)).trans
    (append_congr' (subs_forEach fun _ _ => checkDirective_res _ _ _ _) (checkPrePost_subs X ls n add)))) ?_
  rw [← List.append_assoc]
  congr 2
  have : ((!c.isRequest) = true) ↔ c.msg.kind = .response := by unfold Ctx.isRequest; cases c.msg.kind <;> simp
  simp only [this]
  rfl

section
variable {env : Env} {related : Option Msg} {t : Bool} {ls : List Line} {m m' : Msg}

open Classical in
/-- **C56** (notes on the whole) `CC_CONFLICTING` is added once exactly for a response in which a directive and one it makes
pointless are present; `CC_WRONG_MESSAGE` once for each directive that belongs in the other kind of message; `CC_DUP` once for each
other known directive that is given more than once -/
theorem C56_value_notes (P : Processed env related t ls m m') :
    AddedAbout .CC_CONFLICTING m m' (((namesFor .cache_control_ ls).filter fun n => m.kind = .response ∧ ccConflicting (ccNames ls n)).map fieldSubject) ∧
    AddedAbout .CC_WRONG_MESSAGE m m' ((namesFor .cache_control_ ls).flatMap fun n =>
      ((dedup (ccNames ls n)).filter fun d => ccWrong m.kind d).map fun _ => fieldSubject n) ∧
    AddedAbout .CC_DUP m m' ((namesFor .cache_control_ ls).flatMap fun n =>
      ((dedup (ccNames ls n)).filter fun d => ccWrong m.kind d = false ∧ d ∈ ccInts ++ ccQuoted ++ ccBare ∧ 1 < (ccNames ls n).count d).map fun _ => fieldSubject n) := by
  have hval : ∀ n, valueOf env related m .cache_control_ ls n = .list ((elementsOf ls n).filterMap ccRecord) :=
    fun n => valueOf_elements rfl ccRecord (fun x => (cc_parse _ x).1) n
  have hnn : ∀ n ∈ namesFor .cache_control_ ls, valueOf env related m .cache_control_ ls n ≠ .none := by
    intro n _; rw [hval]; simp
  refine ⟨?_, ?_, ?_⟩
  · refine (P.value_note (X := .CC_CONFLICTING) (f := .cache_control_) (by own_only) (cc_valid _)
      (fun n => decide (m.kind = .response) && (ccConflict (ccNames ls n)).isSome) ?_).congr ?_
    · intro c add hd n _ hdur hf he _
      rw [cc_eval c add hd hf ls n (he.trans (hval n)), hdur.kind]
      have h0 : ∀ d, subs .CC_CONFLICTING (cache_control.checkDirective c.isRequest (ccNames ls n) add d) = [] := fun d => checkDirective_none rfl rfl _ _ _ _
      simp only [h0, flatMap_nil', List.append_nil]
      rw [if_neg (c := ccCheck _ _ = _) (by unfold ccCheck; split <;> simp <;> (repeat' split) <;> simp), List.append_nil]
      by_cases hk : m.kind = .response <;> simp [hk]
    · congr 1
      apply filter_congr_mem
      intro n _
      rw [hval, Bool.eq_iff_iff, decide_eq_true_iff, ← ccConflict_iff]
      simp
  · refine P.value_count (X := .CC_WRONG_MESSAGE) (f := .cache_control_) (by own_only) (cc_valid _) _ ?_ hnn
    intro c add hd n _ hdur hf he _
    rw [cc_eval c add hd hf ls n (he.trans (hval n)), if_neg (by simp), if_neg (c := ccCheck _ _ = _) (by unfold ccCheck; split <;> simp <;> (repeat' split) <;> simp),
      List.append_nil, List.nil_append]
    simp only [checkDirective_wrong, hdur.kind]
    exact flatMap_ite_const _ _ _
  · refine P.value_count (X := .CC_DUP) (f := .cache_control_) (by own_only) (cc_valid _) _ ?_ hnn
    intro c add hd n _ hdur hf he _
    rw [cc_eval c add hd hf ls n (he.trans (hval n)), if_neg (by simp), if_neg (c := ccCheck _ _ = _) (by unfold ccCheck; split <;> simp <;> (repeat' split) <;> simp),
      List.append_nil, List.nil_append]
    simp only [checkDirective_dup, hdur.kind]
    refine (flatMap_ite_const _ _ _).trans ?_
    congr 1
    apply filter_congr_mem
    intro d _
    rw [Bool.eq_iff_iff, decide_eq_true_iff]
    simp [and_assoc]

open Classical in
/-- **C56** (`pre-check` and `post-check`) with the last numbers given for the two, exactly the note for their combination is added -/
theorem C56_pre_post (P : Processed env related t ls m m') (X : NoteId)
    (hX : X ∈ [NoteId.CHECK_SINGLE, .CHECK_ALL_ZERO, .CHECK_POST_BIGGER, .CHECK_POST_ZERO, .CHECK_POST_PRE]) :
    AddedAbout X m m' (((namesFor .cache_control_ ls).filter fun n =>
      ccCheck (ccNumber ls n (str "pre-check")) (ccNumber ls n (str "post-check")) = some X).map fieldSubject) := by
  have hval : ∀ n, valueOf env related m .cache_control_ ls n = .list ((elementsOf ls n).filterMap ccRecord) :=
    fun n => valueOf_elements rfl ccRecord (fun x => (cc_parse _ x).1) n
  have h1 : X ≠ .CC_CONFLICTING ∧ (NoteId.CC_WRONG_MESSAGE == X) = false ∧ (NoteId.CC_DUP == X) = false ∧ EvalOnly X .cache_control_ := by
    simp only [List.mem_cons, List.not_mem_nil, or_false] at hX
    rcases hX with rfl | rfl | rfl | rfl | rfl <;> exact ⟨by decide, rfl, rfl, by own_only⟩
  refine (P.value_note (X := X) (f := .cache_control_) h1.2.2.2 (cc_valid _)
    (fun n => decide (ccCheck (ccNumber ls n (str "pre-check")) (ccNumber ls n (str "post-check")) = some X)) ?_).congr ?_
  · intro c add hd n _ hdur hf he _
    rw [cc_eval c add hd hf ls n (he.trans (hval n)), if_neg (fun h => h1.1 h.1)]
    simp only [checkDirective_none h1.2.1 h1.2.2.1, flatMap_nil', List.append_nil, List.nil_append, decide_eq_true_iff]
  · congr 1

/-- non-vacuity: directives of every sort, with a bad one, a repeated one, a conflict and one for requests -/
example : let ls : List Line := [(str "Cache-Control", str "No-Store, max-age=1, max-age=x, Max-Age=\"7\""), (str "cache-control", str "max-age=5, only-if-cached, foo=\"a,b\", public=1")]
    let r := processSection toyEnv none false ls (fresh toyEnv .response none false false)
    r.2 = .ok () ∧ namesFor .cache_control_ ls = [str "cache-control"] ∧
    ccNames ls (str "cache-control") = [str "no-store", str "max-age", str "max-age", str "only-if-cached", str "foo", str "public"] ∧
    r.1.notes.map (·.cls) = [.CC_MISCAP, .CC_BAD_VALUE_TYPE, .CC_MISCAP, .CC_BAD_VALUE_TYPE, .CC_SHOULD_NOT_HAVE_VALUE, .CC_CONFLICTING, .CC_DUP, .CC_WRONG_MESSAGE] := by
  decide +kernel

end

end HL.Props
