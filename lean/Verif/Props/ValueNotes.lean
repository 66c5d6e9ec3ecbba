import Verif.Props.NumberThm

/-!
# Notes on the value of a field: Vary, X-Content-Type-Options, X-Frame-Options (C57, C64)
-/

namespace HL.Props
open HL.F

/-! ### counting the notes of a class a check adds -/

/-- what the notes of class `X` a check adds are about -/
def subs (X : NoteId) {α} (w : W α) : List Str := (ofClass X w.notes).map (·.subject)

theorem subs_bind {X : NoteId} {α β} {x : W α} {f : α → W β} {a : α} (h : x.res = .ok a) : subs X (x >>= f) = subs X x ++ subs X (f a) := by
  unfold subs ofClass
  rw [W.bind_ok h, List.filter_append, List.map_append]

theorem subs_bind_err {X : NoteId} {α β} {x : W α} {f : α → W β} {e : Exn} (h : x.res = .error e) : subs X (x >>= f) = subs X x := by
  unfold subs ofClass
  rw [W.bind_err h]

theorem subs_add_same {X : NoteId} {add : AddNote} {vrs cat} : subs X (add.add X vrs cat) = [add.subject] := by
  unfold subs ofClass
  rw [AddNote.add_notes, List.filter_cons_of_pos (by rw [AddNote.mk1_cls]; exact beq_self_eq_true X)]
  rfl

theorem subs_add_other {X Y : NoteId} {add : AddNote} {vrs cat} (h : (Y == X) = false) : subs X (add.add Y vrs cat) = [] := by
  unfold subs ofClass
  rw [AddNote.add_notes, List.filter_cons_of_neg (by rw [AddNote.mk1_cls, h]; simp)]
  rfl

theorem subs_pure {X : NoteId} {α} {a : α} : subs X (pure a : W α) = [] := rfl
theorem subs_lift {X : NoteId} {α} {r : Except Exn α} : subs X (W.lift r) = [] := rfl
theorem subs_throw {X : NoteId} {α} {e : Exn} : subs X (W.throw e : W α) = [] := rfl

theorem subs_when_same {X : NoteId} {add : AddNote} {b : Bool} {vrs cat} : subs X (W.when b (add.add X vrs cat)) = if b then [add.subject] else [] := by
  unfold W.when
  split
  · exact subs_add_same
  · rfl

theorem subs_when_other {X Y : NoteId} {add : AddNote} {b : Bool} {vrs cat} (h : (Y == X) = false) : subs X (W.when b (add.add Y vrs cat)) = [] := by
  unfold W.when
  split
  · exact subs_add_other h
  · rfl

theorem when_res {add : AddNote} {X : NoteId} {b : Bool} {vrs cat} : (W.when b (add.add X vrs cat)).res = .ok () := by
  unfold W.when; split <;> rfl

/-- peel one step off a chain of conditional notes -/
macro "subs_step" : tactic => `(tactic| first
  | rw [subs_when_same]
  | rw [subs_when_other rfl]
  | rw [subs_add_same]
  | rw [subs_add_other rfl]
  | rw [subs_pure]
  | rw [subs_bind when_res]
  | rw [List.append_nil]
  | rw [List.nil_append])

section
variable {env : Env} {related : Option Msg} {t : Bool} {ls : List Line} {m m' : Msg}

/-- the value of field `n`, before `evaluate` -/
def valueOf (env : Env) (related : Option Msg) (m : Msg) (f : FieldId) (ls : List Line) (n : Str) : Val :=
  lineValue ⟨env, m, related⟩ f (valuesOf ls n)

/-- a note `evaluate` adds exactly when the value meets a condition -/
theorem Processed.value_note (P : Processed env related t ls m m') {X f} (hX : EvalOnly X f) (hv : f.validIn m.kind = true) (spec : Str → Bool)
    (hs : ∀ (c : Ctx) (add : AddNote) (hd : Handler), ∀ n ∈ namesFor f ls, During env related t m c → hd.fid = f →
      hd.value = valueOf env related m f ls n → hd.value ≠ .none → subs X (hd.evaluate c add).2 = if spec n then [add.subject] else []) :
    AddedAbout X m m' (((namesFor f ls).filter fun n => valueOf env related m f ls n != .none && spec n).map fieldSubject) := by
  obtain ⟨added, e, ht⟩ := value_notes hX (fun n => if spec n then 1 else 0) (by
    intro c add hd n hn h1 h2 h3 h4
    refine (hs c add hd n hn h1 h2 h3 h4).trans ?_
    cases spec n <;> rfl) P.linting P.new P.ok
  refine ⟨added, e, ?_⟩
  rw [ht, if_pos hv, ← flatMap_ite_map]
  apply flatMap_congr_mem
  intro n hn
  show (if valueOf env related m f ls n = .none then [] else _) = _
  by_cases h0 : valueOf env related m f ls n = .none
  · rw [if_pos h0, h0]; rfl
  · rw [if_neg h0]
    have : (valueOf env related m f ls n != .none) = true := by simpa using h0
    rw [this, Bool.true_and]
    cases spec n <;> rfl

/-- for a field that is a list of text, each element of which is read as `g` of it -/
theorem valueOf_list {f : FieldId} (hk : f.info.kind = .list) (g : Str → Val) (hg : ∀ x, parseText ⟨env, m, related⟩ f x = .ok (g x)) (n : Str) :
    valueOf env related m f ls n = .list (((valuesOf ls n).flatMap splitListField).map fun x => g (strip x)) := by
  unfold valueOf lineValue
  rw [hk]
  dsimp only
  simp only [hg]
  congr 1
  generalize (valuesOf ls n).flatMap splitListField = xs
  induction xs with
  | nil => rfl
  | cons x xs ih => exact congrArg (g (strip x) :: ·) ih

theorem filter_congr_mem {α} {l : List α} {p q : α → Bool} (h : ∀ a ∈ l, p a = q a) : l.filter p = l.filter q := List.filter_congr h

theorem AddedAbout.congr {X : NoteId} {a b : List Str} (h : AddedAbout X m m' a) (e : a = b) : AddedAbout X m m' b := e ▸ h

end

/-! ### Vary -/

/-- the names a `Vary` lists, in lower case -/
def varyNames (ls : List Line) (n : Str) : List Str := ((valuesOf ls n).flatMap splitListField).map fun x => lower (strip x)

theorem hasDups_iff (l : List Str) : hasDups l = true ↔ ¬ l.Nodup := by
  have key : ∀ (l acc : List Str), acc.Nodup →
      (l.foldl (fun acc x => if acc.contains x then acc else acc ++ [x]) acc).length ≤ acc.length + l.length ∧
      ((l.foldl (fun acc x => if acc.contains x then acc else acc ++ [x]) acc).length = acc.length + l.length ↔ (acc ++ l).Nodup) := by
    intro l
    induction l with
    | nil => intro acc h; simp [h]
    | cons a l ih =>
      intro acc h
      rw [List.foldl_cons]
      by_cases hc : acc.contains a = true
      · rw [if_pos hc]
        have := (ih acc h).1
        refine ⟨by rw [List.length_cons]; omega, ⟨fun he => ?_, fun hn => ?_⟩⟩
        · rw [List.length_cons] at he; omega
        · exfalso
          rw [List.contains_iff_mem] at hc
          rw [List.nodup_append] at hn
          exact hn.2.2 a hc a (by simp) rfl
      · rw [if_neg hc]
        rw [List.contains_iff_mem] at hc
        have hn : (acc ++ [a]).Nodup := by
          rw [List.nodup_append]
          refine ⟨h, by simp, ?_⟩
          rintro x hx y hy rfl
          simp at hy; subst hy; exact hc hx
        have := ih (acc ++ [a]) hn
        simp only [List.length_append, List.length_cons, List.length_nil, List.append_assoc, List.cons_append, List.nil_append] at this
        refine ⟨by rw [List.length_cons]; omega, ?_⟩
        rw [← this.2, List.length_cons]
        omega
  unfold hasDups dedup
  have := (key l [] List.nodup_nil).2
  simp only [List.length_nil, Nat.zero_add, List.nil_append] at this
  rw [← this]
  simp

theorem vary_value (env related m) (ls : List Line) (n : Str) : valueOf env related m .vary_ ls n = .list ((varyNames ls n).map .str) := by
  rw [valueOf_list (f := .vary_) rfl (fun x => .str (lower x))]
  · unfold varyNames; rw [List.map_map]; rfl
  · intro x; rfl

theorem asStr_map (l : List Str) : (l.map Val.str).map Val.asStr = l := by
  rw [List.map_map]; exact List.map_id' l

/-- what `Vary` is checked for -/
def varyCheck (X : NoteId) (names : List Str) : Bool :=
  match X with
  | .VARY_DUPLICATE => hasDups names
  | .VARY_ASTERISK => (dedup names).contains (str "*")
  | .VARY_COMPLEX => decide ((dedup names).length > 3)
  | .VARY_USER_AGENT => (dedup names).contains (str "user-agent")
  | .VARY_HOST => (dedup names).contains (str "host")
  | .VARY_NEGOTIATE => (dedup names).contains (str "negotiate")
  | _ => false

theorem vary_eval (c : Ctx) (add : AddNote) (hd : Handler) (hf : hd.fid = .vary_) (xs : List Val) (hv : hd.value = .list xs) (X : NoteId)
    (hX : (evalOwn .vary_).contains X = true) :
    subs X (hd.evaluate c add).2 = if varyCheck X (xs.map Val.asStr) then [add.subject] else [] := by
  have h1 : subs X (hd.evaluate c add).2 = subs X (vary.evaluate add hd) := by
    unfold Handler.evaluate; rw [hf]; dsimp only; unfold Handler.assign; split <;> rfl
  rw [h1]
  unfold vary.evaluate
  have hi : (W.lift hd.value.iter : W (List Val)).res = .ok xs := by rw [hv]; rfl
  rw [subs_bind hi, subs_lift, List.nil_append]
  dsimp only
  have hmem : X ∈ evalOwn .vary_ := by simpa using hX
  simp only [evalOwn, List.mem_cons, List.not_mem_nil, or_false] at hmem
  rcases hmem with rfl | rfl | rfl | rfl | rfl | rfl <;> (repeat subs_step) <;> rfl

section
variable {env : Env} {related : Option Msg} {t : Bool} {ls : List Line} {m m' : Msg}

theorem only_vary (X : NoteId) (h : (evalOwn .vary_).contains X = true) : EvalOnly X .vary_ := by
  have hmem : X ∈ evalOwn .vary_ := by simpa using h
  simp only [evalOwn, List.mem_cons, List.not_mem_nil, or_false] at hmem
  rcases hmem with rfl | rfl | rfl | rfl | rfl | rfl <;> own_only

theorem vary_note (P : Processed env related t ls m m') (hk : m.kind = .response) {X : NoteId} (hX : EvalOnly X .vary_) (hm : (evalOwn .vary_).contains X = true) :
    AddedAbout X m m' (((namesFor .vary_ ls).filter fun n => varyCheck X (varyNames ls n)).map fieldSubject) := by
  refine (P.value_note hX (by rw [hk]; rfl) (fun n => varyCheck X (varyNames ls n)) ?_).congr ?_
  · intro c add hd n _ _ hf hval _
    rw [vary_value] at hval
    rw [vary_eval c add hd hf _ hval X hm, asStr_map]
  · congr 1

end

theorem length_le_of_subset {l d : List Str} (hl : l.Nodup) (h : ∀ x ∈ l, x ∈ d) : l.length ≤ d.length := by
  induction l generalizing d with
  | nil => simp
  | cons a l ih =>
    obtain ⟨ha, hl'⟩ := List.nodup_cons.1 hl
    have hm : a ∈ d := h a (by simp)
    have := ih (d := d.erase a) hl' (by
      intro x hx
      have : x ≠ a := fun e => ha (e ▸ hx)
      exact (List.mem_erase_of_ne this).2 (h x (by simp [hx])))
    rw [List.length_erase_of_mem hm] at this
    have : d.length ≠ 0 := by intro h0; rw [List.length_eq_zero_iff] at h0; subst h0; simp at hm
    rw [List.length_cons]
    omega

/-- at least `k` different names -/
def AtLeast (k : Nat) (names : List Str) : Prop := ∃ l : List Str, l.Nodup ∧ l.length = k ∧ ∀ x ∈ l, x ∈ names

theorem dedup_atLeast (k : Nat) (names : List Str) : AtLeast k names ↔ k ≤ (dedup names).length := by
  constructor
  · rintro ⟨l, h1, rfl, h3⟩
    exact length_le_of_subset h1 fun x hx => mem_dedup.2 (h3 x hx)
  · intro h
    refine ⟨(dedup names).take k, (dedup_nodup names).sublist (List.take_sublist _ _), by rw [List.length_take]; omega, ?_⟩
    intro x hx
    exact mem_dedup.1 (List.mem_of_mem_take hx)

section
variable {env : Env} {related : Option Msg} {t : Bool} {ls : List Line} {m m' : Msg}

open Classical in
/-- **C57** (notes) each note on `Vary` is added, once and about that field, exactly under its condition on the names listed -/
theorem C57_vary_notes (P : Processed env related t ls m m') (hk : m.kind = .response) :
    AddedAbout .VARY_ASTERISK m m' (((namesFor .vary_ ls).filter fun n => str "*" ∈ varyNames ls n).map fieldSubject) ∧
    AddedAbout .VARY_USER_AGENT m m' (((namesFor .vary_ ls).filter fun n => str "user-agent" ∈ varyNames ls n).map fieldSubject) ∧
    AddedAbout .VARY_HOST m m' (((namesFor .vary_ ls).filter fun n => str "host" ∈ varyNames ls n).map fieldSubject) ∧
    AddedAbout .VARY_NEGOTIATE m m' (((namesFor .vary_ ls).filter fun n => str "negotiate" ∈ varyNames ls n).map fieldSubject) ∧
    AddedAbout .VARY_COMPLEX m m' (((namesFor .vary_ ls).filter fun n => AtLeast 4 (varyNames ls n)).map fieldSubject) ∧
    AddedAbout .VARY_DUPLICATE m m' (((namesFor .vary_ ls).filter fun n => ¬ (varyNames ls n).Nodup).map fieldSubject) := by
  have key : ∀ {X : NoteId} (hm : (evalOwn .vary_).contains X = true) (q : Str → Bool), (∀ n, q n = true ↔ varyCheck X (varyNames ls n) = true) →
      AddedAbout X m m' (((namesFor .vary_ ls).filter q).map fieldSubject) := by
    intro X hm q hq
    refine (vary_note P hk (only_vary X hm) hm).congr ?_
    congr 1
    apply filter_congr_mem
    intro n _
    exact Bool.eq_iff_iff.2 (hq n).symm
  refine ⟨key rfl _ fun n => ?_, key rfl _ fun n => ?_, key rfl _ fun n => ?_, key rfl _ fun n => ?_, key rfl _ fun n => ?_, key rfl _ fun n => ?_⟩ <;> rw [decide_eq_true_iff]
  · exact (List.contains_iff_mem.trans mem_dedup).symm
  · exact (List.contains_iff_mem.trans mem_dedup).symm
  · exact (List.contains_iff_mem.trans mem_dedup).symm
  · exact (List.contains_iff_mem.trans mem_dedup).symm
  · rw [dedup_atLeast]
    exact decide_eq_true_iff.symm
  · exact (hasDups_iff _).symm

/-- **C57** (value) what is recorded for a `Vary` field is a list without repetition of exactly the lower-cased names it lists -/
theorem C57_vary_value (P : Processed env related t ls m m') (hu : Unpadded ls) (hk : m.kind = .response) (n : Str) (hn : n ∈ namesFor .vary_ ls) :
    ∃ names : List Str, dget (m'.section t).parsed n = some (.list (names.map .str)) ∧ names.Nodup ∧ ∀ x, x ∈ names ↔ x ∈ varyNames ls n := by
  obtain ⟨hn, hc⟩ := mem_namesFor.1 hn
  refine ⟨dedup (varyNames ls n), ?_, dedup_nodup _, fun x => mem_dedup⟩
  rw [section_values P.linting P.new hu P.ok, if_pos hn]
  unfold fieldValue
  have hok : okName m.kind n = true := by rw [okName_class hc (by decide), hk]; rfl
  have hval : lineValue ⟨env, m, related⟩ .vary_ (valuesOf ls n) = .list ((varyNames ls n).map .str) := vary_value env related m ls n
  rw [if_pos hok, hc, hval]
  unfold afterCheck
  rw [if_neg (by simp)]
  unfold evaluated Val.iter
  simp only [asStr_map]

/-- non-vacuity: a `Vary` with all six conditions -/
example : let ls : List Line := [(str "Vary", str "Host, user-agent,*"), (str "VARY", str "negotiate ,host")]
    let r := processSection toyEnv none false ls (fresh toyEnv .response none false false)
    r.2 = .ok () ∧ namesFor .vary_ ls = [str "vary"] ∧
    varyNames ls (str "vary") = [str "host", str "user-agent", str "*", str "negotiate", str "host"] ∧
    r.1.notes.map (·.cls) = [.VARY_DUPLICATE, .VARY_ASTERISK, .VARY_COMPLEX, .VARY_USER_AGENT, .VARY_HOST, .VARY_NEGOTIATE] := by
  decide +kernel

/-! ### X-Content-Type-Options -/

/-- the elements of a list field -/
def elementsOf (ls : List Line) (n : Str) : List Str := ((valuesOf ls n).flatMap splitListField).map strip

theorem xcto_eval (c : Ctx) (add : AddNote) (hd : Handler) (hf : hd.fid = .x_content_type_options_) (xs : List Str) (hv : hd.value = .list (xs.map .str)) :
    subs .CONTENT_TYPE_OPTIONS (hd.evaluate c add).2 = (if xs.contains (str "nosniff") then [add.subject] else []) ∧
    subs .CONTENT_TYPE_OPTIONS_UNKNOWN (hd.evaluate c add).2 = (if !xs.contains (str "nosniff") then [add.subject] else []) := by
  have h1 : (hd.evaluate c add).2 = x_content_type_options.evaluate add hd := by unfold Handler.evaluate; rw [hf]; rfl
  have hc : hd.value.contains (.str (str "nosniff")) = .ok (xs.contains (str "nosniff")) := by
    rw [hv]
    have : ∀ xs : List Str, ((xs.map Val.str).any (Val.pyEq (.str (str "nosniff")))) = xs.contains (str "nosniff") := by
      intro xs
      induction xs with
      | nil => rfl
      | cons x xs ih =>
        rw [List.map_cons, List.any_cons, ih, List.contains_cons]
        rfl
    unfold Val.contains
    exact congrArg _ (this xs)
  rw [h1]
  unfold x_content_type_options.evaluate
  rw [hc]
  have hb : ∀ (X : NoteId) (b : Bool) (f : Bool → W Unit), subs X ((W.lift (.ok b) : W Bool) >>= f) = subs X (f b) := by
    intro X b f; rw [subs_bind (a := b) rfl]; rfl
  rw [hb, hb]
  cases xs.contains (str "nosniff")
  · exact ⟨subs_add_other rfl, subs_add_same⟩
  · exact ⟨subs_add_same, subs_add_other rfl⟩

/-- **C64** (X-Content-Type-Options) the positive verdict is given exactly when one of the elements is `nosniff`, the
negative one otherwise.  Missing: elements are compared case-sensitively (`C64_counterexample`). -/
theorem C64_nosniff_partial (P : Processed env related t ls m m') (hk : m.kind = .response) :
    AddedAbout .CONTENT_TYPE_OPTIONS m m' (((namesFor .x_content_type_options_ ls).filter fun n => str "nosniff" ∈ elementsOf ls n).map fieldSubject) ∧
    AddedAbout .CONTENT_TYPE_OPTIONS_UNKNOWN m m' (((namesFor .x_content_type_options_ ls).filter fun n => str "nosniff" ∉ elementsOf ls n).map fieldSubject) := by
  have hv : FieldId.x_content_type_options_.validIn m.kind = true := by rw [hk]; rfl
  have hval : ∀ n, valueOf env related m .x_content_type_options_ ls n = .list ((elementsOf ls n).map .str) := by
    intro n
    rw [valueOf_list (f := .x_content_type_options_) rfl (fun x => .str x) (fun _ => rfl)]
    unfold elementsOf; rw [List.map_map]; rfl
  constructor
  · refine (P.value_note (X := .CONTENT_TYPE_OPTIONS) (f := .x_content_type_options_) (by own_only) hv (fun n => (elementsOf ls n).contains (str "nosniff")) ?_).congr ?_
    · intro c add hd n _ _ hf he _
      exact (xcto_eval c add hd hf _ (he.trans (hval n))).1
    · congr 1
      apply filter_congr_mem
      intro n _
      rw [hval, List.contains_eq_mem]
      rfl
  · refine (P.value_note (X := .CONTENT_TYPE_OPTIONS_UNKNOWN) (f := .x_content_type_options_) (by own_only) hv (fun n => !(elementsOf ls n).contains (str "nosniff")) ?_).congr ?_
    · intro c add hd n _ _ hf he _
      exact (xcto_eval c add hd hf _ (he.trans (hval n))).2
    · congr 1
      apply filter_congr_mem
      intro n _
      rw [hval, List.contains_eq_mem]
      by_cases h : str "nosniff" ∈ elementsOf ls n <;> simp [h]

/-! ### X-Frame-Options -/

/-- `p` occurs somewhere in `s` -/
def OccursIn (p s : Str) : Prop := ∃ a b, s = a ++ p ++ b

theorem isSub_iff {p s : Str} : isSub p s = true ↔ OccursIn p s := by
  induction s with
  | nil =>
    unfold isSub OccursIn
    constructor
    · intro h
      have : p = [] := by simpa using h
      exact ⟨[], [], by rw [this]; rfl⟩
    · rintro ⟨a, b, h⟩
      have := congrArg List.length h
      simp only [List.length_append, List.length_nil] at this
      have : p = [] := List.length_eq_zero_iff.1 (by omega)
      rw [this]; rfl
  | cons c s ih =>
    unfold isSub
    rw [Bool.or_eq_true, ih, List.isPrefixOf_iff_prefix]
    constructor
    · rintro (⟨b, h⟩ | ⟨a, b, h⟩)
      · exact ⟨[], b, h.symm⟩
      · exact ⟨c :: a, b, by rw [h]; rfl⟩
    · rintro ⟨a, b, h⟩
      cases a with
      | nil => exact Or.inl ⟨b, h.symm⟩
      | cons x a =>
        simp only [List.cons_append, List.cons.injEq] at h
        exact Or.inr ⟨a, b, h.2⟩

theorem xfo_eval (c : Ctx) (add : AddNote) (hd : Handler) (hf : hd.fid = .x_frame_options_) (s : Str) (hv : hd.value = .str s) :
    subs .FRAME_OPTIONS_DENY (hd.evaluate c add).2 = (if isSub (str "DENY") s then [add.subject] else []) ∧
    subs .FRAME_OPTIONS_SAMEORIGIN (hd.evaluate c add).2 = (if !isSub (str "DENY") s && isSub (str "SAMEORIGIN") s then [add.subject] else []) ∧
    subs .FRAME_OPTIONS_UNKNOWN (hd.evaluate c add).2 = (if !isSub (str "DENY") s && !isSub (str "SAMEORIGIN") s then [add.subject] else []) := by
  have h1 : (hd.evaluate c add).2 = x_frame_options.evaluate add hd := by unfold Handler.evaluate; rw [hf]; rfl
  have hc : ∀ t, hd.value.contains (.str t) = .ok (isSub t s) := by intro t; rw [hv]; rfl
  have hb : ∀ (X : NoteId) (b : Bool) (f : Bool → W Unit), subs X ((W.lift (.ok b) : W Bool) >>= f) = subs X (f b) := by
    intro X b f; rw [subs_bind (a := b) rfl]; rfl
  rw [h1]
  unfold x_frame_options.evaluate
  rw [hc, hc]
  simp only [hb]
  cases isSub (str "DENY") s
  · cases isSub (str "SAMEORIGIN") s
    · exact ⟨subs_add_other rfl, subs_add_other rfl, subs_add_same⟩
    · exact ⟨subs_add_other rfl, subs_add_same, subs_add_other rfl⟩
  · cases isSub (str "SAMEORIGIN") s <;> exact ⟨subs_add_same, subs_add_other rfl, subs_add_other rfl⟩

theorem xfo_value (env related m) {ls : List Line} {n : Str} (hn : n ∈ namesFor .x_frame_options_ ls) :
    valueOf env related m .x_frame_options_ ls n = .str (upper (textOf ls n)) := by
  have hne := valuesOf_ne (mem_namesFor.1 hn).1
  unfold valueOf textOf
  cases hx : valuesOf ls n with
  | nil => exact absurd hx hne
  | cons first rest => rfl

open Classical in
/-- **C64** (X-Frame-Options) `FRAME_OPTIONS_DENY` is added exactly when the text, in upper case, contains `DENY`,
`FRAME_OPTIONS_SAMEORIGIN` exactly when it does not but contains `SAMEORIGIN`, and `FRAME_OPTIONS_UNKNOWN` exactly when it
contains neither; always one of them, about the field.  Missing: containing the word is taken for being it
(`C64_counterexample`). -/
theorem C64_frame_options_partial (P : Processed env related t ls m m') (hk : m.kind = .response) :
    AddedAbout .FRAME_OPTIONS_DENY m m' (((namesFor .x_frame_options_ ls).filter fun n =>
      OccursIn (str "DENY") (upper (textOf ls n))).map fieldSubject) ∧
    AddedAbout .FRAME_OPTIONS_SAMEORIGIN m m' (((namesFor .x_frame_options_ ls).filter fun n =>
      ¬ OccursIn (str "DENY") (upper (textOf ls n)) ∧ OccursIn (str "SAMEORIGIN") (upper (textOf ls n))).map fieldSubject) ∧
    AddedAbout .FRAME_OPTIONS_UNKNOWN m m' (((namesFor .x_frame_options_ ls).filter fun n =>
      ¬ OccursIn (str "DENY") (upper (textOf ls n)) ∧ ¬ OccursIn (str "SAMEORIGIN") (upper (textOf ls n))).map fieldSubject) := by
  have hv : FieldId.x_frame_options_.validIn m.kind = true := by rw [hk]; rfl
  have key : ∀ {X : NoteId} (hX : EvalOnly X .x_frame_options_) (spec : Str → Bool) (q : Str → Bool),
      (∀ (c : Ctx) (add : AddNote) (hd : Handler), ∀ n, hd.fid = .x_frame_options_ → hd.value = .str (upper (textOf ls n)) →
        subs X (hd.evaluate c add).2 = if spec n then [add.subject] else []) → (∀ n, q n = true ↔ spec n = true) →
      AddedAbout X m m' (((namesFor .x_frame_options_ ls).filter q).map fieldSubject) := by
    intro X hX spec q hs hq
    refine (P.value_note hX hv spec ?_).congr ?_
    · intro c add hd n hn _ hf he _
      exact hs c add hd n hf (he.trans (xfo_value _ _ _ hn))
    · congr 1
      apply filter_congr_mem
      intro n hn
      rw [xfo_value _ _ _ hn]
      exact Bool.eq_iff_iff.2 (hq n).symm
  refine ⟨key (X := .FRAME_OPTIONS_DENY) (by own_only) (fun n => isSub (str "DENY") (upper (textOf ls n))) _ (fun c add hd n hf he => (xfo_eval c add hd hf _ he).1) fun n => ?_,
    key (X := .FRAME_OPTIONS_SAMEORIGIN) (by own_only) (fun n => !isSub (str "DENY") (upper (textOf ls n)) && isSub (str "SAMEORIGIN") (upper (textOf ls n))) _ (fun c add hd n hf he => (xfo_eval c add hd hf _ he).2.1) fun n => ?_,
    key (X := .FRAME_OPTIONS_UNKNOWN) (by own_only) (fun n => !isSub (str "DENY") (upper (textOf ls n)) && !isSub (str "SAMEORIGIN") (upper (textOf ls n))) _ (fun c add hd n hf he => (xfo_eval c add hd hf _ he).2.2) fun n => ?_⟩
  · rw [decide_eq_true_iff, isSub_iff]
  · rw [decide_eq_true_iff, Bool.and_eq_true, Bool.not_eq_true', ← Bool.not_eq_true, isSub_iff, isSub_iff]
  · rw [decide_eq_true_iff, Bool.and_eq_true, Bool.not_eq_true', ← Bool.not_eq_true, Bool.not_eq_true', ← Bool.not_eq_true, isSub_iff, isSub_iff]

end

/-- one response field, processed by a new linter -/
def oneField (name v : Str) : Msg × Except Exn Unit :=
  processSection toyEnv none false [(name, v)] (fresh toyEnv .response none false false)

/-- **C64** (in any case) a text that is `DENY` or `SAMEORIGIN`, in any case, meets the condition of its verdict in `C64_frame_options_partial` -/
theorem C64_any_case (text : Str) : (upper text = str "DENY" → OccursIn (str "DENY") (upper text)) ∧
    (upper text = str "SAMEORIGIN" → ¬ OccursIn (str "DENY") (upper text) ∧ OccursIn (str "SAMEORIGIN") (upper text)) := by
  refine ⟨fun h => ⟨[], [], by rw [h]; rfl⟩, fun h => ?_⟩
  rw [h, ← isSub_iff, ← isSub_iff]
  decide

/-- **C64 is false of the code** as stated: `NoSniff` is not recognised, and an `X-Frame-Options` that lets some origin frame
the content is reported as preventing it when the origin has `deny` in its name -/
theorem C64_counterexample :
    (oneField (str "X-Content-Type-Options") (str "NoSniff")).2 = .ok () ∧
    (oneField (str "X-Content-Type-Options") (str "NoSniff")).1.notes.map (·.cls) = [.CONTENT_TYPE_OPTIONS_UNKNOWN] ∧
    (oneField (str "X-Frame-Options") (str "ALLOW-FROM http://deny.example")).2 = .ok () ∧
    (oneField (str "X-Frame-Options") (str "ALLOW-FROM http://deny.example")).1.notes.map (·.cls) = [.FRAME_OPTIONS_DENY] := by
  decide +kernel

end HL.Props
