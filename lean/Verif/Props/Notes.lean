import Verif.Props.Reach
import Verif.Props.Toy

/-!
# C02-C06: notes and rendering them
-/

namespace HL.Props

/-! ### C02 -/

/-- the binding a Python `dict` given by its entries (distinct keys) has for a key -/
def bound (d : Dict Val) (k : Str) (v : Val) : Prop := (k, v) ∈ d

theorem dget_of_mem {d : Dict Val} (h : (d.map (·.1)).Nodup) {k v} (hm : (k, v) ∈ d) : dget d k = some v := by
  induction d with
  | nil => simp at hm
  | cons p d ih =>
    simp only [List.map_cons, List.nodup_cons] at h
    rw [dget_cons]
    rcases List.mem_cons.1 hm with rfl | hm
    · simp
    · have : p.1 ≠ k := by
        rintro rfl
        exact h.1 (List.mem_map.2 ⟨_, hm, rfl⟩)
      rw [if_neg this]
      exact ih h.2 hm

theorem dget_none {d : Dict Val} {k} (h : k ∉ d.map (·.1)) : dget d k = none := by
  cases hd : dget d k with
  | none => rfl
  | some v =>
    have := dget_isSome d k
    rw [hd] at this
    exact absurd ((dhas_iff_mem_keys d k).1 this.symm) h

theorem dupdate_get (d vrs : Dict Val) (h : (vrs.map (·.1)).Nodup) (k : Str) :
    (∀ v, (k, v) ∈ vrs → dget (dupdate d vrs) k = some v) ∧
    (k ∉ vrs.map (·.1) → dget (dupdate d vrs) k = dget d k) := by
  rw [dget_dupdate]
  have hr : (vrs.reverse.map (·.1)).Nodup := by
    rw [List.map_reverse]
    exact List.pairwise_reverse.2 (h.imp fun h => Ne.symm h)
  refine ⟨fun v hv => ?_, fun hk => ?_⟩
  · rw [dget_of_mem hr (List.mem_reverse.2 hv)]; rfl
  · rw [dget_none (by rw [List.map_reverse]; simpa using hk)]; rfl

/-- `notes.add(subject, cls, category, **vrs)` appends one note of that class and subject, whose variables are the
default variables overridden by `vrs`. -/
theorem C02_add_variables (defaults : Dict Val) (notes : List Note) (subject : Str) (cls : NoteId) (cat : Option Cat)
    (vrs : Dict Val) (hv : (vrs.map (·.1)).Nodup) :
    ∃ n, Notes.add defaults notes subject cls cat vrs = notes ++ [n] ∧ n.cls = cls ∧ n.subject = subject ∧
      n.subnotes = [] ∧
      ∀ k, (∀ v, (k, v) ∈ vrs → dget n.vars k = some v) ∧ (k ∉ vrs.map (·.1) → dget n.vars k = dget defaults k) :=
  ⟨_, rfl, rfl, rfl, rfl, fun k => dupdate_get defaults vrs hv k⟩

/-- `note.add_child(cls, **vrs)` appends one sub-note with the parent's subject and the parent's variables overridden
by `vrs`; the parent is otherwise unchanged. -/
theorem C02_child_variables (n : Note) (cls : NoteId) (vrs : Dict Val) (hv : (vrs.map (·.1)).Nodup) :
    ∃ s, n.addChild cls vrs = { n with subnotes := n.subnotes ++ [s] } ∧ s.cls = cls ∧ s.subject = n.subject ∧
      ∀ k, (∀ v, (k, v) ∈ vrs → dget s.vars k = some v) ∧ (k ∉ vrs.map (·.1) → dget s.vars k = dget n.vars k) :=
  ⟨_, rfl, rfl, rfl, fun k => dupdate_get n.vars vrs hv k⟩

/-- Whatever calls are made on a linter, every note it has, and every sub-note, has `message_type` bound. -/
theorem C02_message_type_bound (env : Env) (m : Msg) (hr : Reachable env m) :
    ∀ n ∈ m.notes, dhas n.vars (str "message_type") = true ∧
      ∀ s ∈ n.subnotes, dhas s.vars (str "message_type") = true :=
  fun n hn => ⟨(hr.lint n hn).2.2.own, (hr.lint n hn).2.2.subs⟩

/-- a default that is overridden, one that is not, and one added -/
example : (mkNote [(str "a", .int 1), (str "b", .int 2)] [] .CL_CORRECT none [(str "b", .int 3), (str "c", .int 4)]).vars =
    [(str "a", .int 1), (str "b", .int 3), (str "c", .int 4)] := by decide

/-! ### C03 -/

/-- a call of `notes.add`: subject, class, category, variables -/
structure AddCall where
  subject : Str
  cls : NoteId
  category : Option Cat
  vrs : Dict Val

/-- a sequence of calls of `notes.add` -/
def addAll (defaults : Dict Val) (st : (NoteId → Cat) × List Note) (cs : List AddCall) : (NoteId → Cat) × List Note :=
  cs.foldl (fun st c => addStep defaults st c.subject c.cls c.category c.vrs) st

/-- the category a note should have: the one declared for its class, unless that is GENERAL and one was supplied -/
def expectedCategory (c : AddCall) : Cat :=
  match c.category with
  | none => c.cls.cat
  | some cat => if c.cls.cat = .GENERAL then cat else c.cls.cat

theorem addAll_categories (defaults : Dict Val) (cs : List AddCall) (notes : List Note) :
    addAll defaults (NoteId.cat, notes) cs =
      (NoteId.cat, notes ++ cs.map fun c => ⟨c.cls, c.subject, expectedCategory c, dupdate defaults c.vrs, []⟩) := by
  induction cs generalizing notes with
  | nil => simp [addAll]
  | cons c cs ih =>
    have h : addAll defaults (NoteId.cat, notes) (c :: cs) =
        addAll defaults (NoteId.cat, notes ++ [⟨c.cls, c.subject, expectedCategory c, dupdate defaults c.vrs, []⟩]) cs := by
      unfold addAll
      rw [List.foldl_cons]
      congr 1
      unfold addStep expectedCategory
      cases c.category with
      | none => rfl
      | some cat => dsimp only; split <;> rfl
    rw [h, ih, List.map_cons, List.append_assoc, List.singleton_append]

/-- Over any sequence of `notes.add` calls, each note's category is the one declared on its class, unless that is
GENERAL and the call supplied one; in particular earlier calls have no influence (the class attributes stay as
declared). -/
theorem C03_category (defaults : Dict Val) (cs : List AddCall) :
    (addAll defaults (NoteId.cat, []) cs).1 = NoteId.cat ∧
    (addAll defaults (NoteId.cat, []) cs).2.map (·.category) = cs.map expectedCategory := by
  rw [addAll_categories]
  simp

/-- the linters' notes are made that way -/
theorem C03_mkNote (defaults : Dict Val) (notes : List Note) (c : AddCall) :
    Notes.add defaults notes c.subject c.cls c.category c.vrs = (addAll defaults (NoteId.cat, notes) [c]).2 ∧
    (mkNote defaults c.subject c.cls c.category c.vrs).category = expectedCategory c := by
  constructor
  · rw [addAll_categories]; rfl
  · rfl

/-- an uncategorised class takes the category given, the next note of the class is not affected, and a categorised
class keeps its own -/
example : (addAll [] (NoteId.cat, []) [⟨[], .BAD_DATE_SYNTAX, some .CACHING, []⟩, ⟨[], .BAD_DATE_SYNTAX, none, []⟩,
    ⟨[], .STORE_NO_STORE, some .CONNEG, []⟩]).2.map (·.category) = [.CACHING, .GENERAL, .CACHING] := by decide

/-! ### C04 -/

/-- the text a piece of a template becomes: text stays; a variable becomes the `MarkdownSafe` value itself, or
something without a backtick -/
inductive PieceOK (vars : Dict Val) : Seg → Str → Prop
  | text (s : Str) : PieceOK vars (.text s) s
  | safe (n s : Str) : dget vars n = some (.md s) → PieceOK vars (.var n) s
  | plain (n s : Str) (v : Val) : dget vars n = some v → (∀ x, v ≠ .md x) → 96 ∉ s → PieceOK vars (.var n) s

/-- the pieces of a rendered template -/
inductive PiecesOK (vars : Dict Val) : List Seg → List Str → Prop
  | nil : PiecesOK vars [] []
  | cons {seg s segs ss} : PieceOK vars seg s → PiecesOK vars segs ss → PiecesOK vars (seg :: segs) (s :: ss)

theorem coerceAll_get (e : RenderEnv) {vars safe : Dict Val} (h : e.coerceAll vars = .ok safe) (k : Str) :
    match dget vars k with
    | none => dget safe k = none
    | some v => ∃ s, e.coerce v = .ok s ∧ dget safe k = some (.str s) := by
  induction vars generalizing safe with
  | nil => simp [RenderEnv.coerceAll] at h; subst h; simp
  | cons p vars ih =>
    obtain ⟨a, b⟩ := p
    unfold RenderEnv.coerceAll at h
    cases hc : e.coerce b with
    | error x => simp [hc, bind, Except.bind] at h
    | ok s =>
      cases hr : e.coerceAll vars with
      | error x => simp [hc, hr, bind, Except.bind] at h
      | ok r =>
        simp [hc, hr, bind, Except.bind, pure, Except.pure] at h
        subst h
        rw [dget_cons, dget_cons]
        by_cases hk : a = k
        · simp only [hk, if_true]; exact ⟨s, hc, rfl⟩
        · simp only [hk, if_false]; exact ih hr

theorem coerce_piece (e : RenderEnv) {vars : Dict Val} {n : Str} {v : Val} {s : Str} (hv : dget vars n = some v)
    (h : e.coerce v = .ok s) : PieceOK vars (.var n) s := by
  unfold RenderEnv.coerce at h
  split at h
  · simp only [Except.ok.injEq] at h; subst h; exact .safe _ _ hv
  · rename_i hne
    refine .plain _ _ v hv hne ?_
    cases ht : e.toStr v with
    | error x => simp [ht, bind, Except.bind] at h
    | ok t =>
      simp [ht, bind, Except.bind, pure, Except.pure] at h
      subst h
      simp [removeC]

theorem renderSegs_pieces (e : RenderEnv) {vars safe : Dict Val} (hs : e.coerceAll vars = .ok safe) (segs : List Seg)
    {src : Str} (h : renderSegs e.toStr safe segs = .ok src) : ∃ ss, PiecesOK vars segs ss ∧ src = ss.flatten := by
  induction segs generalizing src with
  | nil => simp [renderSegs] at h; exact ⟨[], .nil, by simp [h]⟩
  | cons seg segs ih =>
    cases seg with
    | text t =>
      unfold renderSegs at h
      cases hr : renderSegs e.toStr safe segs with
      | error x => simp [hr, bind, Except.bind] at h
      | ok r =>
        simp [hr, bind, Except.bind, pure, Except.pure] at h
        obtain ⟨ss, hp, rfl⟩ := ih hr
        exact ⟨t :: ss, .cons (.text t) hp, by simp [h]⟩
    | var n =>
      unfold renderSegs at h
      have hg := coerceAll_get e hs n
      cases hd : dget safe n with
      | none => simp [hd] at h
      | some v =>
        simp only [hd] at h hg
        cases hv : dget vars n with
        | none => simp [hv] at hg
        | some w =>
          simp only [hv] at hg
          obtain ⟨s, hc, hs'⟩ := hg
          simp only [Option.some.injEq] at hs'
          subst hs'
          cases hr : renderSegs e.toStr safe segs with
          | error x => simp [hr, bind, Except.bind, RenderEnv.toStr] at h
          | ok r =>
            simp [hr, bind, Except.bind, pure, Except.pure, RenderEnv.toStr] at h
            obtain ⟨ss, hp, rfl⟩ := ih hr
            exact ⟨s :: ss, .cons (coerce_piece e hv hc) hp, by simp [h]⟩

/-- The Markdown source of a note's detail is the (translated) template with each variable replaced by text that
contains no backtick, unless the variable's value is `MarkdownSafe`, which is inserted as it is. -/
theorem C04_detail_source (e : RenderEnv) (cls : NoteId) (vars : Dict Val) (src : Str)
    (h : e.detailSource cls vars = .ok src) :
    ∃ segs ss, tpl (e.translate cls.text) = some segs ∧ PiecesOK vars segs ss ∧ src = ss.flatten := by
  unfold RenderEnv.detailSource at h
  cases hs : e.coerceAll vars with
  | error x => simp [hs, bind, Except.bind] at h
  | ok safe =>
    simp only [hs, bind, Except.bind, percent] at h
    cases ht : tpl (e.translate cls.text) with
    | none => simp [ht] at h
    | some segs =>
      simp only [ht] at h
      obtain ⟨ss, hp, rfl⟩ := renderSegs_pieces e hs segs h
      exact ⟨segs, ss, rfl, hp, rfl⟩

/-- the backticks a template and its `MarkdownSafe` variables have -/
def expectedBackticks (vars : Dict Val) : List Seg → Nat
  | [] => 0
  | .text s :: r => s.count 96 + expectedBackticks vars r
  | .var n :: r => (match dget vars n with
    | some (.md s) => s.count 96
    | _ => 0) + expectedBackticks vars r

/-- The number of backticks is that of the template plus those of the `MarkdownSafe` values: wire data adds none. -/
theorem C04_backtick_count (e : RenderEnv) (cls : NoteId) (vars : Dict Val) (src : Str)
    (h : e.detailSource cls vars = .ok src) :
    ∃ segs, tpl (e.translate cls.text) = some segs ∧ src.count 96 = expectedBackticks vars segs := by
  obtain ⟨segs, ss, ht, hp, rfl⟩ := C04_detail_source e cls vars src h
  refine ⟨segs, ht, ?_⟩
  clear ht h
  induction hp with
  | nil => rfl
  | cons hp _ ih =>
    rw [List.flatten_cons, List.count_append, ih]
    clear ih
    cases hp with
    | text s => rfl
    | safe n s hd => simp [expectedBackticks, hd]
    | plain n s v hd hne h96 =>
      have := List.count_eq_zero.2 h96
      rw [expectedBackticks, hd, this]
      congr 1
      split
      · rename_i x heq
        exact absurd (Option.some.inj heq) (hne x)
      · rfl

/-- a value with backticks, in a real template: they are gone, the template's own are there -/
example : (toyEnv.render.detailSource .CORS_ORIGIN_MISMATCH
      [(str "acao_value", .str (str "a`b")), (str "origin", .md (str "`c`"))]).toOption.map
    (fun src => (src.count 96, isSub (str "(`ab`)") src, isSub (str "(``c``)") src)) = some (8 + 2, true, true) := by
  decide +kernel

/-! ### C05 -/

/-- `markdown_list` yields one line per item: the item without its backticks, between the markup characters. -/
theorem C05_lines (items : List Str) (markup : Str) (hne : items ≠ []) (hi : ∀ i ∈ items, 10 ∉ i) (hm : 10 ∉ markup) :
    ∃ s, markdownList items markup = .md s ∧
      splitOn 10 s = items.map fun i => str "- " ++ markup ++ i.filter (· != 96) ++ markup := by
  refine ⟨_, rfl, ?_⟩
  rw [splitOn_join, List.map_map]
  · rfl
  · simpa using hne
  · intro x hx
    simp only [List.mem_map] at hx
    obtain ⟨y, ⟨i, hi', rfl⟩, rfl⟩ := hx
    have h1 := hi i hi'
    simp only [List.mem_append, not_or]
    refine ⟨⟨⟨by decide, hm⟩, fun h => h1 (List.mem_filter.1 h).1⟩, hm⟩

/-- Whatever the items contain (also newlines), the only backticks in the list are those of the markup: two per item. -/
theorem C05_backticks (items : List Str) (markup : Str) :
    ∃ s, markdownList items markup = .md s ∧ s.count 96 = items.length * (2 * markup.count 96) := by
  refine ⟨_, rfl, ?_⟩
  rw [count_join 96 [10] (by decide), List.map_map, List.map_map]
  induction items with
  | nil => simp
  | cons i items ih =>
    rw [List.map_cons, List.sum_cons, ih]
    have h0 : List.count 96 (removeC 96 i) = 0 := List.count_eq_zero.2 (by simp [removeC])
    have h1 : List.count 96 (str "- ") = 0 := by decide
    simp only [Function.comp_apply, List.count_append, h0, h1, List.length_cons]
    rw [Nat.add_mul]
    omega

example : markdownList [str "a`b", str "c"] (str "`") = .md (str "- `ab`\n- `c`") := by decide

/-! ### C06 -/

/-- the variables a note's summary and text refer to -/
def templateVars (cls : NoteId) : List Str :=
  (tplNames cls.summary).getD [] ++ (tplNames cls.text).getD []

/-- every template is well formed, and `needs` lists its variables -/
theorem templates_ok (c : NoteId) : ∃ a b, tplNames c.summary = some a ∧ tplNames c.text = some b ∧ ∀ x ∈ a ++ b, x ∈ c.needs := by
  have h := (List.all_eq_true.1 NoteId.needs_all) c (NoteId.mem_all c)
  split at h
  · rename_i a b ha hb
    refine ⟨a, b, ha, hb, fun x hx => ?_⟩
    have := (List.all_eq_true.1 h) x hx
    simpa using this
  · exact nomatch h

theorem templateVars_needs (c : NoteId) : ∀ x ∈ templateVars c, x ∈ c.needs := by
  obtain ⟨a, b, ha, hb, h⟩ := templates_ok c
  unfold templateVars
  rw [ha, hb]
  exact h

/-- `C06_every_note_can_be_rendered`, all but one class: whatever calls are made on a linter, for each note (other than
CONTENT_NOT_ALLOWED, see `C06_content_not_allowed_cannot`) every variable its summary or text refers to is bound; so for
its sub-notes. -/
theorem C06_variables_bound_partial (env : Env) (m : Msg) (hr : Reachable env m) (n : Note) (hn : n ∈ m.notes)
    (hc : n.cls ≠ .CONTENT_NOT_ALLOWED) :
    (∀ x ∈ templateVars n.cls, dhas n.vars x = true) ∧
    ∀ s ∈ n.subnotes, ∀ x ∈ templateVars s.cls, dhas s.vars x = true := by
  have h := (hr.lint n hn).1 hc
  exact ⟨fun x hx => h.1 x (List.mem_cons_of_mem _ (templateVars_needs _ x hx)),
    fun s hs x hx => h.2 s hs x (List.mem_cons_of_mem _ (templateVars_needs _ x hx))⟩

/-- Translations are faithful: a translated template is well formed and refers only to variables of the original. -/
def FaithfulTranslation (e : RenderEnv) : Prop :=
  ∀ s names, tplNames s = some names → ∃ names', tplNames (e.translate s) = some names' ∧ ∀ x ∈ names', x ∈ names

theorem renderSegs_ok (conv : Val → Except Exn Str) (vars : Dict Val) (hv : ∀ p ∈ vars, ∃ s, conv p.2 = .ok s) (segs : List Seg)
    (h : ∀ x ∈ tplVars segs, dhas vars x = true) : ∃ s, renderSegs conv vars segs = .ok s := by
  induction segs with
  | nil => exact ⟨[], rfl⟩
  | cons seg segs ih =>
    cases seg with
    | text t =>
      obtain ⟨r, hr⟩ := ih fun x hx => h x (by simpa [tplVars] using hx)
      exact ⟨t ++ r, by simp [renderSegs, hr, bind, Except.bind, pure, Except.pure]⟩
    | var n =>
      obtain ⟨r, hr⟩ := ih fun x hx => h x (by simp only [tplVars, List.filterMap_cons]; exact List.mem_cons_of_mem _ hx)
      have hb := h n (by simp [tplVars])
      rw [← dget_isSome] at hb
      cases hd : dget vars n with
      | none => rw [hd] at hb; exact nomatch hb
      | some v =>
        have hm : ∃ p ∈ vars, p.2 = v := by
          unfold dget at hd
          cases hf : vars.find? fun p => p.1 == n with
          | none => simp [hf] at hd
          | some p => simp [hf] at hd; exact ⟨p, List.mem_of_find?_eq_some hf, hd⟩
        obtain ⟨p, hp, rfl⟩ := hm
        obtain ⟨s, hs⟩ := hv p hp
        exact ⟨s ++ r, by simp [renderSegs, hd, hs, hr, bind, Except.bind, pure, Except.pure]⟩

theorem percent_ok (conv : Val → Except Exn Str) (t : Str) (vars : Dict Val) (hv : ∀ p ∈ vars, ∃ s, conv p.2 = .ok s)
    {names} (ht : tplNames t = some names) (h : ∀ x ∈ names, dhas vars x = true) : ∃ s, percent conv t vars = .ok s := by
  unfold tplNames at ht
  unfold percent
  cases hs : tpl t with
  | none => simp [hs] at ht
  | some segs =>
    simp [hs] at ht
    subst ht
    exact renderSegs_ok conv vars hv segs h

theorem coerceAll_ok (e : RenderEnv) (vars : Dict Val) (hv : ∀ p ∈ vars, ∃ s, e.toStr p.2 = .ok s) :
    ∃ safe, e.coerceAll vars = .ok safe ∧ (∀ k, dhas safe k = dhas vars k) ∧ ∀ p ∈ safe, ∃ s, e.toStr p.2 = .ok s := by
  induction vars with
  | nil => exact ⟨[], rfl, fun _ => rfl, by simp⟩
  | cons p vars ih =>
    obtain ⟨safe, h1, h2, h3⟩ := ih fun q hq => hv q (List.mem_cons_of_mem _ hq)
    have hc : ∃ s, e.coerce p.2 = .ok s := by
      unfold RenderEnv.coerce
      split
      · exact ⟨_, rfl⟩
      · obtain ⟨s, hs⟩ := hv p (List.mem_cons_self ..)
        exact ⟨_, by rw [hs]; rfl⟩
    obtain ⟨s, hs⟩ := hc
    refine ⟨(p.1, .str s) :: safe, ?_, ?_, ?_⟩
    · obtain ⟨k, v⟩ := p
      simp only at hs
      simp [RenderEnv.coerceAll, hs, h1, bind, Except.bind, pure, Except.pure]
    · intro k; rw [dhas_cons, dhas_cons, h2]
    · intro q hq
      rcases List.mem_cons.1 hq with rfl | hq
      · exact ⟨s, rfl⟩
      · exact h3 q hq

theorem render_ok (e : RenderEnv) (ht : FaithfulTranslation e) (cls : NoteId) (vars : Dict Val)
    (hv : ∀ p ∈ vars, ∃ s, e.toStr p.2 = .ok s) (hb : ∀ x ∈ templateVars cls, dhas vars x = true) :
    (∃ s, e.summary cls vars = .ok s) ∧ ∃ s, e.detail cls vars = .ok s := by
  obtain ⟨a, b, ha, hb', _⟩ := templates_ok cls
  unfold templateVars at hb
  rw [ha, hb'] at hb
  simp only [Option.getD_some, List.mem_append] at hb
  constructor
  · obtain ⟨a', h1, h2⟩ := ht _ _ ha
    exact percent_ok _ _ _ hv h1 fun x hx => hb x (.inl (h2 x hx))
  · obtain ⟨b', h1, h2⟩ := ht _ _ hb'
    obtain ⟨safe, hs, hk, hvs⟩ := coerceAll_ok e vars hv
    obtain ⟨src, hsrc⟩ := percent_ok e.toStr _ safe hvs h1 fun x hx => by rw [hk]; exact hb x (.inr (h2 x hx))
    exact ⟨e.markdown src, by simp [RenderEnv.detail, RenderEnv.detailSource, hs, hsrc, bind, Except.bind, pure, Except.pure]⟩

/-- `str()` of a value returns: of a `RelativeTime`, when it is at most 999999999 days; of anything else, by assumption -/
def Printable (e : RenderEnv) : Val → Prop
  | .rel utime now _ => -(999999999 * 86400) ≤ utime - now ∧ utime - now ≤ 999999999 * 86400
  | v => ∃ s, e.toStr v = .ok s

theorem roundEven_between {q : Rat} {a b : Int} (ha : (a : Rat) ≤ q) (hb : q ≤ b) : a ≤ roundEven q ∧ roundEven q ≤ b := by
  have hf : a ≤ q.floor := Rat.le_floor_iff.2 ha
  have hq : (q.floor : Rat) ≤ q := Rat.floor_le q
  have hfb : q.floor ≤ b := Rat.intCast_le_intCast.1 (by grind)
  unfold roundEven
  dsimp only
  by_cases he : q.floor = b
  · have : q - (q.floor : Rat) < 1 / 2 := by rw [he]; grind
    rw [if_pos this]
    exact ⟨hf, hfb⟩
  · split
    · exact ⟨hf, hfb⟩
    · split
      · exact ⟨by omega, by omega⟩
      · split <;> exact ⟨by omega, by omega⟩

theorem timedeltaOf_ok {q : Rat} (h1 : -(999999999 * 86400) ≤ q) (h2 : q ≤ 999999999 * 86400) :
    timedeltaOf q = .ok (roundEven (q * 1000000)) := by
  obtain ⟨a, b⟩ := roundEven_between (q := q * 1000000) (a := -86399999913600000000) (b := 86399999913600000000)
    (by grind) (by grind)
  unfold timedeltaOf
  dsimp only
  rw [if_neg (by omega)]

theorem relative_ok (e : RenderEnv) {utime now : Rat} (k : Nat) (h1 : -(999999999 * 86400) ≤ utime - now)
    (h2 : utime - now ≤ 999999999 * 86400) : ∃ s, e.relative utime now k = .ok s := by
  unfold RenderEnv.relative
  dsimp only
  rw [timedeltaOf_ok h1 h2]
  simp only [bind, Except.bind, pure, Except.pure]
  split
  · exact ⟨_, rfl⟩
  · split
    · split <;> exact ⟨_, rfl⟩
    · exact ⟨_, rfl⟩

theorem Printable.toStr {e : RenderEnv} {v : Val} (h : Printable e v) : ∃ s, e.toStr v = .ok s := by
  unfold Printable at h
  split at h
  · exact relative_ok e _ h.1 h.2
  · exact h

/-- Hence summary and detail of each note (other than CONTENT_NOT_ALLOWED) and of each sub-note can be computed: no
exception, provided translations are faithful, no time or duration in the note's variables is longer than 999999999 days
(see `C06_long_lifetime_cannot`) and `str()` of the other variables returns. -/
theorem C06_every_note_can_be_rendered_partial (env : Env) (ht : FaithfulTranslation env.render) (m : Msg)
    (hr : Reachable env m) (n : Note) (hn : n ∈ m.notes) (hc : n.cls ≠ .CONTENT_NOT_ALLOWED)
    (hv : ∀ p ∈ n.vars, Printable env.render p.2)
    (hvs : ∀ k ∈ n.subnotes, ∀ p ∈ k.vars, Printable env.render p.2) :
    (∃ s, env.render.summary n.cls n.vars = .ok s) ∧ (∃ s, env.render.detail n.cls n.vars = .ok s) ∧
    ∀ k ∈ n.subnotes, (∃ s, env.render.summary k.cls k.vars = .ok s) ∧ ∃ s, env.render.detail k.cls k.vars = .ok s := by
  obtain ⟨h1, h2⟩ := C06_variables_bound_partial env m hr n hn hc
  obtain ⟨a, b⟩ := render_ok env.render ht n.cls n.vars (fun p hp => (hv p hp).toStr) h1
  exact ⟨a, b, fun k hk => render_ok env.render ht k.cls k.vars (fun p hp => (hvs k hk p hp).toStr) (h2 k hk)⟩

theorem toyEnv_faithful : FaithfulTranslation toyEnv.render := fun _ names h => ⟨names, h, fun _ hx => hx⟩

/-- a 304 response with content -/
def responseWithContent : List Op :=
  [.responseTopline (str "HTTP/1.1") (str "304") (some (str "Not Modified")),
   .headers [(str "Content-Length", str "2")], .feed (str "hi"), .finish true []]

/-- The full property fails: a 304 response with content gets CONTENT_NOT_ALLOWED, whose summary refers to an unbound
variable, so `str(note)` raises `KeyError`. -/
theorem C06_content_not_allowed_cannot :
    ∃ m, Reachable toyEnv m ∧ ∃ n ∈ m.notes, toyEnv.render.summary n.cls n.vars = .error .keyError :=
  ⟨_, ⟨.response, none, false, false, none, responseWithContent, rfl⟩, by decide +kernel⟩

/-- a response that may be cached for a billion days -/
def longLived : List Op :=
  [.responseTopline (str "HTTP/1.1") (str "200") (some (str "OK")),
   .headers [(str "Cache-Control", str "max-age=86400000000000")], .feed (str "hi"), .finish true []]

/-- It also fails for a response with a lifetime of a billion days, whatever the libraries do: the note on its freshness
has a `RelativeTime` that cannot be shown, so its summary raises `OverflowError`. -/
theorem C06_long_lifetime_cannot :
    ∃ m, Reachable toyEnv m ∧ ∃ n ∈ m.notes, n.cls = .FRESHNESS_FRESH ∧
      toyEnv.render.summary n.cls n.vars = .error .overflowError ∧ toyEnv.render.detail n.cls n.vars = .error .overflowError :=
  ⟨_, ⟨.response, some 1700000000, false, false, none, longLived, rfl⟩, by decide +kernel⟩

/-- other notes of the same message can be rendered -/
example : ∃ m, Reachable toyEnv m ∧ (m.notes.filter fun n => n.cls ≠ .CONTENT_NOT_ALLOWED).length = 3 :=
  ⟨_, ⟨.response, none, false, false, none, responseWithContent, rfl⟩, by decide +kernel⟩

end HL.Props
