import Verif.Props.CookieThm

/-!
# C11: what `offset-N` refers to

A section is compared with the same lines processed one at a time, each as a section of its own: the notes about `offset-k`
are those the line (or lines) numbered `k` get on their own.
-/

namespace HL.Props
open HL.F

/-! ### numbers -/

theorem charNat_inj {a b : Char} (h : a.toNat = b.toNat) : a = b := Char.ext (UInt32.toNat.inj h)

theorem map_charNat_inj : ∀ {a b : List Char}, a.map Char.toNat = b.map Char.toNat → a = b
  | [], [], _ => rfl
  | [], _ :: _, h => by simp at h
  | _ :: _, [], h => by simp at h
  | x :: xs, y :: ys, h => by
    simp only [List.map_cons, List.cons.injEq] at h
    rw [charNat_inj h.1, map_charNat_inj h.2]

theorem dec_inj {a b : Nat} (h : dec a = dec b) : a = b := by
  unfold dec at h
  have h := map_charNat_inj h
  have := congrArg (Nat.ofDigitChars 10 · 0) h
  simpa only [Nat.ofDigitChars_ten_toDigits] using this

theorem offsetSubject_inj {a b : Nat} : offsetSubject a = offsetSubject b ↔ a = b :=
  ⟨fun h => dec_inj (List.append_cancel_left h), fun h => by rw [h]⟩

/-- a subject of the form `offset-…` -/
def isOffset (s : Str) : Bool := (str "offset-").isPrefixOf s

theorem isOffset_offset (k : Nat) : isOffset (offsetSubject k) = true := by
  unfold isOffset offsetSubject
  rw [List.isPrefixOf_iff_prefix]
  exact List.prefix_append _ _

theorem isOffset_field (s : Str) : isOffset (str "field-" ++ s) = false := rfl

theorem ne_offset {s : Str} (h : isOffset s = false) (k : Nat) : s ≠ offsetSubject k := by
  intro e; rw [e, isOffset_offset] at h; exact absurd h (by simp)

/-! ### `evaluate` does not speak of lines -/

theorem date_away (add : AddNote) (h : isOffset add.subject = false) (c hd) : Emits (fun n => isOffset n.subject = false) (date.evaluate c add hd) := by
  have ha : ∀ X vrs, Emits (fun n => isOffset n.subject = false) (add.add X vrs) := by
    intro X vrs n hn
    simp only [AddNote.add, List.mem_singleton] at hn
    subst hn
    exact h
  have hb : ∀ X vrs, Emits (fun n => isOffset n.subject = false) ((add.on (str "field-date field-age")).add X vrs) := by
    intro X vrs n hn
    simp only [AddNote.add, List.mem_singleton] at hn
    subst hn
    rfl
  unfold date.evaluate
  repeat' first
    | with_reducible exact emits_pure _
    | with_reducible exact emits_throw _
    | with_reducible exact ha _ _
    | with_reducible exact hb _ _
    | with_reducible refine emits_ite ?_ ?_
    | with_reducible intro _
    | split
    | dsimp only

theorem acao_away (add : AddNote) (c hd) : Emits (fun n => isOffset n.subject = false) (access_control_allow_origin.evaluate c add hd) := by
  have hb : ∀ X vrs, Emits (fun n => isOffset n.subject = false) ((add.on (str "header-access-control-allow-origin")).add X vrs) := by
    intro X vrs n hn
    simp only [AddNote.add, List.mem_singleton] at hn
    subst hn
    rfl
  unfold access_control_allow_origin.evaluate
  refine emits_bind (emits_lift _) fun s => ?_
  unfold checkAllowOrigin
  repeat' first
    | with_reducible exact emits_pure _
    | with_reducible exact emits_throw _
    | with_reducible exact emits_lift _
    | with_reducible exact hb _ _
    | with_reducible refine emits_bind ?_ ?_
    | with_reducible refine emits_ite ?_ ?_
    | with_reducible intro _
    | split
    | dsimp only

theorem evalNotes_away (c : Ctx) (add : AddNote) (h : Handler) (hs : isOffset add.subject = false) (hf : h.fid ≠ .set_cookie_) :
    ∀ n ∈ evalNotes c add h, isOffset n.subject = false := by
  intro n hn
  unfold evalNotes at hn
  split at hn
  · simp at hn
  · by_cases hd : h.fid = .date_
    · unfold Handler.evaluate at hn
      rw [hd] at hn
      exact date_away add hs c h n hn
    · by_cases hc : h.fid = .access_control_allow_origin_
      · unfold Handler.evaluate at hn
        rw [hc] at hn
        exact acao_away add c h n hn
      · rw [(Handler.evaluate_here c h hd hf hc n hn).subject _ rfl]
        exact hs

/-! ### sums over lines -/

theorem sum_map_zero {α} (l : List α) (f : α → Nat) (h : ∀ a ∈ l, f a = 0) : (l.map f).sum = 0 := by
  induction l with
  | nil => rfl
  | cons a l ih => rw [List.map_cons, List.sum_cons, h a (by simp), ih fun x hx => h x (by simp [hx])]

theorem sum_map_add {α} (l : List α) (f g : α → Nat) : (l.map fun a => f a + g a).sum = (l.map f).sum + (l.map g).sum := by
  induction l with
  | nil => rfl
  | cons a l ih => simp only [List.map_cons, List.sum_cons, ih]; omega

theorem sum_map_congr {α} {l : List α} {f g : α → Nat} (h : ∀ a ∈ l, f a = g a) : (l.map f).sum = (l.map g).sum := by
  induction l with
  | nil => rfl
  | cons a l ih => rw [List.map_cons, List.map_cons, List.sum_cons, List.sum_cons, h a (by simp), ih fun x hx => h x (by simp [hx])]

theorem sum_pick {α} [DecidableEq α] (K : List α) (hK : K.Nodup) (a : α) (ha : a ∈ K) (x : Nat) : (K.map fun n => if a = n then x else 0).sum = x := by
  induction K with
  | nil => simp at ha
  | cons k K ih =>
    obtain ⟨h1, h2⟩ := List.nodup_cons.1 hK
    rw [List.map_cons, List.sum_cons]
    by_cases hk : a = k
    · rw [if_pos hk, sum_map_zero, Nat.add_zero]
      intro n hn
      rw [if_neg]
      rintro rfl
      exact h1 (hk ▸ hn)
    · rw [if_neg hk, ih h2 ((List.mem_cons.1 ha).resolve_left hk), Nat.zero_add]

/-- adding up by key -/
theorem sum_by_key {α} (K : List Str) (hK : K.Nodup) (key : α → Str) (L : List α) (hL : ∀ a ∈ L, key a ∈ K) (F : α → Nat) :
    (K.map fun n => ((L.filter fun a => key a == n).map F).sum).sum = (L.map F).sum := by
  induction L with
  | nil => exact sum_map_zero _ _ fun _ _ => rfl
  | cons a L ih =>
    rw [List.map_cons, List.sum_cons, ← ih fun x hx => hL x (by simp [hx]), ← sum_pick K hK (key a) (hL a (by simp)) (F a), ← sum_map_add]
    apply sum_map_congr
    intro n _
    by_cases h : key a = n
    · rw [if_pos h, List.filter_cons_of_pos (by simpa using h), List.map_cons, List.sum_cons]
    · rw [if_neg h, List.filter_cons_of_neg (by simpa using h), Nat.zero_add]

theorem sum_by_name (kind : MsgKind) (ls : List Line) (F : Nat × Line → Nat) :
    ((namesOf ls).map fun n => ((linesOf kind n 0 ls).map F).sum).sum = ((numbered kind 0 ls).map F).sum := by
  refine sum_by_key (namesOf ls) (dedup_nodup _) (fun p => lineKey p.2.1) (numbered kind 0 ls) ?_ F
  intro p hp
  have : p.2 ∈ ls := by rw [← numbered_map kind 0 ls]; exact List.mem_map.2 ⟨p, hp, rfl⟩
  exact mem_dedup.2 (List.mem_map.2 ⟨p.2, this, rfl⟩)

/-- how often a tagged list has a given class about line `k` -/
theorem count_tagged (X : NoteId) (cs : List NoteId) (o k : Nat) :
    (((cs.map (·, offsetSubject o)).filter (·.1 == X)).map (·.2)).count (offsetSubject k) = if o = k then cs.count X else 0 := by
  rw [tagged_filter, countOf_replicate, List.count_replicate]
  by_cases h : o = k
  · rw [if_pos h, h, if_pos (by simp)]
  · rw [if_neg h, if_neg]
    simp only [beq_iff_eq, offsetSubject_inj]
    exact h

theorem count_none {X : NoteId} {ts : List (NoteId × Str)} (h : ∀ p ∈ ts, isOffset p.2 = false) (k : Nat) :
    ((ts.filter (·.1 == X)).map (·.2)).count (offsetSubject k) = 0 := by
  rw [List.count_eq_zero]
  intro hh
  obtain ⟨p, hp, e⟩ := List.mem_map.1 hh
  exact ne_offset (h p (List.mem_filter.1 hp).1) k e

theorem count_lines (X : NoteId) (G : Line → List NoteId) (ps : List (Nat × Line)) (k : Nat) :
    (((ps.flatMap fun p => (G p.2).map (·, offsetSubject p.1)).filter (·.1 == X)).map (·.2)).count (offsetSubject k) =
      (ps.map fun p => if p.1 = k then (G p.2).count X else 0).sum := by
  rw [List.filter_flatMap, List.map_flatMap, List.count_flatMap]
  apply sum_map_congr
  intro p _
  exact count_tagged X _ _ _

/-! ### the notes of a section about a line -/

/-- the classes of note `Set-Cookie`'s parser keeps for a line -/
def cookieTags (c : Ctx) (v : Str) : List NoteId :=
  match c.env.urlsplit c.msg.baseUri with
  | .ok u => cookieLineNotes c.msg.startTime u.path v
  | .error _ => []

theorem brokenLoop_tags {c : Ctx} (rs : List (Str × Nat)) :
    ∀ (h : Handler) (acc : List Val), h.fid = .set_cookie_ →
      (h.brokenLoop c rs acc).1.aux.notes.map tag =
        h.aux.notes.map tag ++ rs.flatMap fun p => (cookieTags c (strip p.1)).map (·, offsetSubject p.2) := by
  unfold cookieTags
  cases hu : c.env.urlsplit c.msg.baseUri with
  | ok u => exact brokenLoop_cookies hu rs
  | error e =>
    induction rs with
    | nil => intro h acc _; rw [List.flatMap_nil, List.append_nil]; rfl
    | cons r rs ih =>
      intro h acc hf
      obtain ⟨raw, o⟩ := r
      unfold Handler.brokenLoop
      dsimp only
      have hp : h.parse c (h.offsetAdd c.msg.defaults o) (strip raw) = (h.aux, W.throw e) := by
        unfold Handler.parse; rw [hf]
        dsimp only
        unfold set_cookie.parse
        rw [hu]
      rw [hp]
      dsimp only [W.throw]
      split
      · rw [ih { h with aux := h.aux } acc hf, List.flatMap_cons]
        rfl
      · simp

section
variable {env : Env} {related : Option Msg} {t : Bool} {ls : List Line} {m m' : Msg}

theorem cookieTags_during {c : Ctx} (hd : During env related t m c) (v : Str) : cookieTags c v = cookieTags ⟨env, m, related⟩ v := by
  unfold cookieTags
  rw [hd.env, (during_same hd).1, (during_same hd).2]

theorem cookie_setup_tags {c : Ctx} {n : Str} (hd : During env related t m c) (hn : n ∈ namesOf ls) (hc : classOf n = .set_cookie_) :
    (evalSetup m t c related ls n).2.aux.notes.map tag =
      ((sent m.kind n ls).flatMap fun p => (cookieTags ⟨env, m, related⟩ (strip p.2)).map (·, offsetSubject p.1)) ∧
    (∃ xs, (evalSetup m t c related ls n).2.value = .list xs) := by
  have hc' : classOf (spelling ls n) = .set_cookie_ := by rw [classOf_spelling hn, hc]
  have hk : (classOf (spelling ls n)).info.kind = .broken := by rw [hc']; rfl
  have haux : (mkHandler (classOf (spelling ls n)) (spelling ls n)).aux = {} := by unfold mkHandler; dsimp only; split <;> rfl
  have hfid := fed_id ⟨c.env, m, related⟩ (spelling ls n) (sent m.kind n ls)
  have hv := fed_broken (c := ⟨c.env, m, related⟩) hk (sent m.kind n ls)
  constructor
  · unfold evalSetup evalHandler
    dsimp only
    rw [hk]
    dsimp only
    rw [brokenLoop_tags _ _ _ (by rw [hfid.fid, mkHandler_fid, hc'])]
    rw [hv]
    dsimp only
    rw [haux, List.flatMap_map]
    simp only [cookieTags_during hd]
    rfl
  · unfold evalSetup evalHandler
    dsimp only
    rw [hk]
    dsimp only
    rw [hc']
    exact ⟨_, rfl⟩

/-- the notes of `evaluate` about lines are those `Set-Cookie` has kept for them -/
theorem eval_offsets {c : Ctx} {n : Str} (hd : During env related t m c) (hn : n ∈ namesOf ls) (X : NoteId) (k : Nat) :
    ((ofClass X (evalNotes c (evalSetup m t c related ls n).1 (evalSetup m t c related ls n).2)).map (·.subject)).count (offsetSubject k) =
      ((sent m.kind n ls).map fun p => if p.1 = k then (if classOf n = .set_cookie_ then (cookieTags ⟨env, m, related⟩ (strip p.2)).count X else 0) else 0).sum := by
  have hsub := evalSetup_subject (t := t) (m := m) (related := related) (c := c) hn
  have hfid := evalSetup_fid (m := m) (t := t) (c := c) (related := related) hn
  by_cases hc : classOf n = .set_cookie_
  · obtain ⟨h1, xs, h2⟩ := cookie_setup_tags (t := t) hd hn hc
    rw [ofClass_subjects]
    unfold evalNotes
    rw [if_neg (by rw [h2]; simp)]
    unfold Handler.evaluate
    rw [hfid, hc]
    show (((set_cookie.evaluate _ _).notes.map tag).filter _ |>.map _).count _ = _
    rw [set_cookie_evaluate_notes _ _ _ h2, hsub, List.filter_append, List.map_append, List.count_append, count_none, Nat.zero_add, h1]
    · rw [List.filter_flatMap, List.map_flatMap, List.count_flatMap]
      apply sum_map_congr
      intro p _
      rw [if_pos rfl]
      exact count_tagged X _ _ _
    · intro p hp
      rcases List.mem_append.1 hp with hp | hp <;> (split at hp <;> simp only [List.mem_singleton, List.not_mem_nil] at hp) <;> (subst hp; rfl)
  · rw [sum_map_zero]
    · rw [List.count_eq_zero]
      intro hh
      obtain ⟨x, hx, e⟩ := List.mem_map.1 hh
      refine ne_offset (evalNotes_away c _ _ ?_ ?_ x (List.mem_filter.1 hx).1) k e
      · rw [hsub]; rfl
      · rw [hfid]; exact hc
    · intro p _
      rw [if_neg hc]; simp

/-- how many notes of class `X` line `l` gets, whatever lines it is among -/
def lineShare (env : Env) (related : Option Msg) (m : Msg) (X : NoteId) (l : Line) : Nat :=
  match X.origin with
  | .line => (lineClasses m.kind l).count X
  | .frame => (lineFrame m.kind l).count X + (if okName m.kind (lineKey l.1) then
      (if (classOf (lineKey l.1)).info.kind = .broken then (if inGrammar (classOf (lineKey l.1)) l.2 then 0 else if NoteId.BAD_SYNTAX = X then 1 else 0) else 0) else 0)
  | .field => (lineField ⟨env, m, related⟩ l).count X + (if okName m.kind (lineKey l.1) then
      (if (classOf (lineKey l.1)).info.kind = .broken then (parseNotes ⟨env, m, related⟩ (classOf (lineKey l.1)) (strip l.2)).count X else 0) +
      (if classOf (lineKey l.1) = .set_cookie_ then (cookieTags ⟨env, m, related⟩ (strip l.2)).count X else 0) else 0)
  | _ => 0

/-- the number of notes of class `X` about `offset-k` that were added -/
def marks (X : NoteId) (k : Nat) (m m' : Msg) : Nat :=
  ((m'.notes.drop m.notes.length).filter fun n => n.cls == X && n.subject == offsetSubject k).length

theorem marks_eq {X k added} (e : m'.notes = m.notes ++ added) : marks X k m m' = ((ofClass X added).map (·.subject)).count (offsetSubject k) := by
  unfold marks ofClass
  rw [e, List.drop_left, List.count_eq_countP, List.countP_map, List.countP_eq_length_filter, List.filter_filter]
  congr 2
  funext n
  simp only [Function.comp, Bool.and_comm]

theorem ofClass_origin {X : NoteId} {p : Note → Bool} (h : ∀ n : Note, n.cls = X → p n = true) (ns : List Note) :
    (ofClass X ns).map (·.subject) = (((ns.filter p).map tag).filter (·.1 == X)).map (·.2) := by
  rw [← ofClass_subjects]
  unfold ofClass
  rw [List.filter_filter]
  congr 2
  funext n
  by_cases hn : n.cls = X
  · rw [h n hn, Bool.and_true]
  · have : (n.cls == X) = false := by simpa using hn
    rw [this, Bool.false_and]

theorem sum_sent (n : Str) (F : Nat × Str → Nat) : ((sent m.kind n ls).map F).sum = ((linesOf m.kind n 0 ls).map fun p => F (p.1, p.2.2)).sum := by
  unfold sent
  rw [List.map_map]
  rfl

theorem mem_linesOf_key {kind n p} (h : p ∈ linesOf kind n 0 ls) : lineKey p.2.1 = n := by
  unfold linesOf at h
  simpa using (List.mem_filter.1 h).2

/-- **the notes about lines**: those with the number of a line are its share, and there are no others -/
theorem section_marks (P : Processed env related t ls m m') (X : NoteId) (k : Nat) :
    marks X k m m' = ((numbered m.kind 0 ls).map fun p => if p.1 = k then lineShare env related m X p.2 else 0).sum := by
  by_cases hl : X.origin = .line
  · obtain ⟨added, e, ht⟩ := processSection_notes (P.linting.ready t) P.ok
    rw [marks_eq e, ofClass_origin (p := isLine) (by intro n hn; unfold isLine; rw [hn, hl]; rfl), ht, List.filter_append, List.map_append, List.count_append,
      count_lines X (lineClasses m.kind), count_none, Nat.add_zero]
    · apply sum_map_congr
      intro p _
      unfold lineShare
      rw [hl]
    · intro p hp
      split at hp <;> simp only [List.mem_singleton, List.not_mem_nil] at hp
      subst hp; rfl
  by_cases hf : X.origin = .frame
  · obtain ⟨added, e, ht⟩ := section_frame P.linting P.new P.ok
    rw [marks_eq e, ofClass_origin (p := isFrame) (by intro n hn; unfold isFrame; rw [hn, hf]; rfl), ht, List.filter_append, List.map_append, List.count_append,
      count_lines X (lineFrame m.kind), List.filter_flatMap, List.map_flatMap, List.count_flatMap]
    have key : ∀ n ∈ namesOf ls, (List.count (offsetSubject k) ∘ fun n => (((if okName m.kind n then finishFrame env (classOf n) (fieldSubject n) (sent m.kind n ls) else []).filter (·.1 == X)).map (·.2))) n =
        ((linesOf m.kind n 0 ls).map fun p => if p.1 = k then (if okName m.kind (lineKey p.2.1) then
      (if (classOf (lineKey p.2.1)).info.kind = .broken then (if inGrammar (classOf (lineKey p.2.1)) p.2.2 then 0 else if NoteId.BAD_SYNTAX = X then 1 else 0) else 0) else 0) else 0).sum := by
      intro n _
      dsimp only [Function.comp]
      rw [sum_map_congr (g := fun p => if p.1 = k then (if okName m.kind n then
        (if (classOf n).info.kind = .broken then (if inGrammar (classOf n) p.2.2 then 0 else if NoteId.BAD_SYNTAX = X then 1 else 0) else 0) else 0) else 0)
        (fun p hp => by rw [mem_linesOf_key hp])]
      by_cases hok : okName m.kind n = true
      · by_cases hb : (classOf n).info.kind = .broken
        · simp only [hok, if_true, hb]
          rw [← sum_sent n (fun p => if p.1 = k then (if inGrammar (classOf n) p.2 then 0 else if NoteId.BAD_SYNTAX = X then 1 else 0) else 0)]
          unfold finishFrame
          rw [hb]
          dsimp only
          generalize sent m.kind n ls = ps
          induction ps with
          | nil => rfl
          | cons p ps ih =>
            rw [List.map_cons, List.sum_cons, ← ih]
            by_cases hg : inGrammar (classOf n) p.2 = true
            · rw [List.filter_cons_of_neg (by simp [hg]), if_pos hg]
              simp
            · rw [List.filter_cons_of_pos (by simpa using hg), if_neg hg, List.map_cons]
              by_cases hX : NoteId.BAD_SYNTAX = X
              · rw [List.filter_cons_of_pos (by simpa using hX), List.map_cons, List.count_cons, if_pos hX, Nat.add_comm]
                congr 1
                simp only [beq_iff_eq, offsetSubject_inj]
              · rw [List.filter_cons_of_neg (by simpa using hX), if_neg hX]
                simp
        · simp only [hok, if_true, if_neg hb]
          rw [sum_map_zero _ _ (by intro p _; simp)]
          apply count_none
          intro p hp
          unfold finishFrame at hp
          split at hp
          · rcases List.mem_append.1 hp with hp | hp
            · split at hp <;> simp only [List.mem_singleton, List.not_mem_nil] at hp
              subst hp; rfl
            · repeat' split at hp
              all_goals simp only [List.mem_singleton, List.not_mem_nil] at hp
              subst hp; rfl
          · rename_i h; exact absurd h hb
          · repeat' split at hp
            all_goals
              simp only [List.mem_append, List.mem_map, List.mem_singleton] at hp
            · obtain ⟨_, _, rfl⟩ := hp; rfl
            · rcases hp with ⟨_, _, rfl⟩ | rfl <;> rfl
            · rcases hp with ⟨_, _, rfl⟩ | rfl <;> rfl
          · split at hp <;> simp only [List.mem_singleton, List.not_mem_nil] at hp
            subst hp; rfl
          · simp at hp
      · simp only [hok]
        rw [sum_map_zero _ _ (by intro p _; simp)]
        rfl
    rw [sum_map_congr key, sum_by_name, ← sum_map_add]
    apply sum_map_congr
    intro p _
    unfold lineShare
    rw [hf]
    dsimp only
    split <;> rfl
  by_cases hd : X.origin = .field
  · obtain ⟨added, ctx, e, hctx, ht⟩ := section_ofClass X hd P.linting P.new P.ok
    rw [marks_eq e, ht, List.count_append, List.count_flatMap, List.count_flatMap]
    have key : ∀ n ∈ namesOf ls, (List.count (offsetSubject k) ∘ fun n => if okName m.kind n then
        (((finishParse ⟨env, m, related⟩ (classOf n) (fieldSubject n) (sent m.kind n ls)).filter (·.1 == X)).map (·.2)) ++
        (ofClass X (evalNotes (ctx n) (evalSetup m t (ctx n) related ls n).1 (evalSetup m t (ctx n) related ls n).2)).map (·.subject) else []) n =
        ((linesOf m.kind n 0 ls).map fun p => if p.1 = k then (if okName m.kind (lineKey p.2.1) then
      (if (classOf (lineKey p.2.1)).info.kind = .broken then (parseNotes ⟨env, m, related⟩ (classOf (lineKey p.2.1)) (strip p.2.2)).count X else 0) +
      (if classOf (lineKey p.2.1) = .set_cookie_ then (cookieTags ⟨env, m, related⟩ (strip p.2.2)).count X else 0) else 0) else 0).sum := by
      intro n hn
      dsimp only [Function.comp]
      rw [sum_map_congr (g := fun p => if p.1 = k then (if okName m.kind n then
        (if (classOf n).info.kind = .broken then (parseNotes ⟨env, m, related⟩ (classOf n) (strip p.2.2)).count X else 0) +
        (if classOf n = .set_cookie_ then (cookieTags ⟨env, m, related⟩ (strip p.2.2)).count X else 0) else 0) else 0)
        (fun p hp => by rw [mem_linesOf_key hp])]
      by_cases hok : okName m.kind n = true
      · rw [if_pos hok, List.count_append, eval_offsets (hctx n hn) hn, sum_sent]
        have h1 : (((finishParse ⟨env, m, related⟩ (classOf n) (fieldSubject n) (sent m.kind n ls)).filter (·.1 == X)).map (·.2)).count (offsetSubject k) =
            ((linesOf m.kind n 0 ls).map fun p => if p.1 = k then (if (classOf n).info.kind = .broken then (parseNotes ⟨env, m, related⟩ (classOf n) (strip p.2.2)).count X else 0) else 0).sum := by
          by_cases hb : (classOf n).info.kind = .broken
          · unfold finishParse
            rw [hb]
            dsimp only
            simp only [if_true]
            rw [← sum_sent n (fun p => if p.1 = k then (parseNotes ⟨env, m, related⟩ (classOf n) (strip p.2)).count X else 0),
              List.filter_flatMap, List.map_flatMap, List.count_flatMap]
            apply sum_map_congr
            intro p _
            exact count_tagged X _ _ _
          · rw [sum_map_zero _ _ (by intro p _; rw [if_neg hb]; simp)]
            apply count_none
            intro p hp
            unfold finishParse at hp
            split at hp
            · split at hp
              · obtain ⟨c, _, rfl⟩ := List.mem_map.1 hp; rfl
              · simp at hp
            · rename_i h; exact absurd h hb
            · simp at hp
        rw [h1, ← sum_map_add]
        apply sum_map_congr
        intro p _
        rw [if_pos hok]
        dsimp only
        split <;> rfl
      · rw [if_neg hok, sum_map_zero _ _ (by intro p _; rw [if_neg hok]; simp)]
        rfl
    rw [sum_map_congr key, sum_by_name, ← sum_map_add]
    apply sum_map_congr
    intro p _
    unfold lineShare
    rw [hd]
    dsimp only [Function.comp]
    rw [countOf_replicate, List.count_replicate]
    simp only [beq_iff_eq, offsetSubject_inj]
    split <;> rfl
  · have hz : ∀ l, lineShare env related m X l = 0 := by
      intro l
      unfold lineShare
      split <;> simp_all
    rw [sum_map_zero _ _ (by intro p _; rw [hz]; simp)]
    have hr := P.linting.ready t
    have hrun := processSection_run env related t ls m hr.mt hr.sec
    rw [P.ok] at hrun
    obtain ⟨added, sec, e, _, hs⟩ := hrun.ext
    have e : m'.notes = m.notes ++ added := by rw [show m' = _ from e]; cases t <;> rfl
    rw [marks_eq e, List.count_eq_zero]
    intro hh
    obtain ⟨x, hx, _⟩ := List.mem_map.1 hh
    obtain ⟨hx, hc⟩ := List.mem_filter.1 hx
    have hc : x.cls = X := by simpa using hc
    rcases (hs x hx).2 with h | h | h <;> rw [hc] at h
    · exact hd h
    · exact hf h
    · exact hl h

/-! ### C11 -/

/-- the number of accepted lines before the `j`-th: this is what the code counts -/
def acceptedBefore (kind : MsgKind) (ls : List Line) (j : Nat) : Nat := ((ls.take j).filter (accepted kind)).length

theorem sum_numbered (kind : MsgKind) (k : Nat) (H : Line → Nat) (ls : List Line) : ∀ o,
    ((numbered kind o ls).map fun p => if p.1 = k then H p.2 else 0).sum =
      ((List.range ls.length).map fun j => if o + acceptedBefore kind ls j = k then (ls[j]?.elim 0 H) else 0).sum := by
  induction ls with
  | nil => intro o; rfl
  | cons l ls ih =>
    intro o
    unfold numbered
    rw [List.map_cons, List.sum_cons, ih, List.length_cons, List.range_succ_eq_map, List.map_cons, List.sum_cons, List.map_map]
    congr 1
    apply sum_map_congr
    intro j _
    dsimp only [Function.comp]
    have : o + acceptedBefore kind (l :: ls) (j + 1) = (if accepted kind l then o + 1 else o) + acceptedBefore kind ls j := by
      unfold acceptedBefore
      rw [List.take_succ_cons, List.filter_cons]
      split
      · rw [List.length_cons]; omega
      · rfl
    rw [this]
    rfl

theorem numbered_one (kind : MsgKind) (l : Line) : numbered kind 0 [l] = [(0, l)] := by
  unfold numbered numbered
  rfl

/-- a line on its own -/
theorem marks_alone {m1 : Msg} {l : Line} (P : Processed env related t [l] m m1) (X : NoteId) : marks X 0 m m1 = lineShare env related m X l := by
  rw [section_marks P X 0, numbered_one]
  simp

/-- **C11** (what the numbers mean) Let `alone j` be the outcome of processing the `j`-th line as a section of its own, where all
notes about it have the subject `offset-0`.  Then the notes of each class that the whole section adds about `offset-k` are those
that the lines with `k` accepted lines before them get on their own. -/
theorem C11_alone (P : Processed env related t ls m m') (alone : Nat → Msg)
    (ha : ∀ j l, ls[j]? = some l → Processed env related t [l] m (alone j)) (X : NoteId) (k : Nat) :
    marks X k m m' = ((List.range ls.length).map fun j => if acceptedBefore m.kind ls j = k then marks X 0 m (alone j) else 0).sum := by
  rw [section_marks P X k, sum_numbered]
  apply sum_map_congr
  intro j hj
  rw [Nat.zero_add, List.getElem?_eq_getElem (List.mem_range.1 hj)]
  rw [marks_alone (ha j _ (List.getElem?_eq_getElem (List.mem_range.1 hj)))]
  rfl

/-- **C11** When every line is accepted, the notes about `offset-k` are those the `k`-th line gets on its own. -/
theorem C11_accepted_partial (P : Processed env related t ls m m') (alone : Nat → Msg)
    (ha : ∀ j l, ls[j]? = some l → Processed env related t [l] m (alone j)) (hall : ∀ l ∈ ls, accepted m.kind l = true) (X : NoteId) (k : Nat) :
    marks X k m m' = if k < ls.length then marks X 0 m (alone k) else 0 := by
  rw [C11_alone P alone ha]
  have hb : ∀ j ∈ List.range ls.length, acceptedBefore m.kind ls j = j := by
    intro j hj
    unfold acceptedBefore
    rw [List.filter_eq_self.2 fun l hl => hall l (List.mem_of_mem_take hl), List.length_take]
    have := List.mem_range.1 hj
    omega
  rw [sum_map_congr (g := fun j => if k = j then marks X 0 m (alone k) else 0)]
  · split
    · rename_i hk
      exact sum_pick _ List.nodup_range _ (List.mem_range.2 hk) _
    · rename_i hk
      apply sum_map_zero
      intro j hj
      rw [if_neg]
      rintro rfl
      exact hk (List.mem_range.1 hj)
  · intro j hj
    rw [hb j hj]
    by_cases h : j = k
    · rw [if_pos h, if_pos h.symm, h]
    · rw [if_neg h, if_neg (Ne.symm h)]
end

/-- the numbers refer to lines: a note about `offset-k` is about a line with `k` accepted lines before it -/
theorem C11_refers {env related t ls} {m m' : Msg} (P : Processed env related t ls m m') {n : Note} {k : Nat}
    (hn : n ∈ m'.notes.drop m.notes.length) (hs : n.subject = offsetSubject k) : ∃ j, j < ls.length ∧ acceptedBefore m.kind ls j = k := by
  have h := section_marks P n.cls k
  rw [sum_numbered] at h
  apply Classical.byContradiction
  intro hno
  rw [sum_map_zero] at h
  · unfold marks at h
    rw [List.length_eq_zero_iff, List.filter_eq_nil_iff] at h
    exact h n hn (by simp [hs])
  · intro j hj
    rw [if_neg]
    intro e
    exact hno ⟨j, List.mem_range.1 hj, by omega⟩

/-! ### a concrete case: cookies, lists with bad elements and deprecated fields -/

/-- six accepted lines -/
def exOffsets : List Line := [(str "Set-Cookie", str "a=b; foo; foo"), (str "Accept-Ranges", str "x, bytes, y"), (str "Content-MD5", str "x"),
  (str "Set-Cookie", str "=; Max-Age=01"), (str "Allow", str "G=T, PUT"), (str "Set-Cookie", str "c=d; Max-Age=01")]

/-- the outcome of one of them -/
def exAlone (j : Nat) : Msg := (processSection toyEnv none false [(exOffsets[j]?.getD ([], []))] (fresh toyEnv .response none false false)).1

example : (∃ m', Processed toyEnv none false exOffsets (fresh toyEnv .response none false false) m' ∧
      (m'.notes.filter fun n => isOffset n.subject).map tag = [(.UNKNOWN_RANGE, str "offset-1"), (.UNKNOWN_RANGE, str "offset-1"),
        (.FIELD_DEPRECATED, str "offset-2"), (.BAD_SYNTAX_DETAILED, str "offset-4"), (.SET_COOKIE_UNKNOWN_ATTRIBUTE, str "offset-0"),
        (.SET_COOKIE_ATTRIBUTE_DUP, str "offset-0"), (.SET_COOKIE_UNKNOWN_ATTRIBUTE, str "offset-0"), (.SET_COOKIE_NO_NAME, str "offset-3"),
        (.SET_COOKIE_LEADING_ZERO_MAX_AGE, str "offset-5")]) ∧
    (∀ j l, exOffsets[j]? = some l → Processed toyEnv none false [l] (fresh toyEnv .response none false false) (exAlone j)) ∧
    (∀ l ∈ exOffsets, accepted .response l = true) := by
  refine ⟨⟨(processSection toyEnv none false exOffsets (fresh toyEnv .response none false false)).1, ⟨exLinting, rfl, by kernel_rfl⟩, by kernel_rfl⟩, ?_, by decide +kernel⟩
  intro j l hj
  refine ⟨exLinting, rfl, ?_⟩
  unfold exAlone
  rw [hj]
  have hl : l ∈ exOffsets := List.mem_of_getElem? hj
  have : ∀ l ∈ exOffsets, (processSection toyEnv none false [l] (fresh toyEnv .response none false false)).2 = .ok () := by decide +kernel
  exact Prod.ext rfl (this l hl)
end HL.Props
