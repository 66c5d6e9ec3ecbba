import Verif.Props.Outcome

/-!
# The value a field ends up with, and the syntax notes its `finish` adds
-/

namespace HL.Props
open HL.F

/-! ### parsing a piece of text does not depend on what was parsed before -/

theorem hsts_loop_fst (ds : List Str) : ∀ (x : Hsts) (seen : List Str) (k k' : List (NoteId × Dict Val)),
    (hsts.loop x seen k ds).1 = (hsts.loop x seen k' ds).1 := by
  induction ds with
  | nil => intros; rfl
  | cons d ds ih =>
    intro x seen k k'
    unfold hsts.loop
    dsimp only
    split <;> (split <;> exact ih _ _ _ _)

theorem parse_aux (c : Ctx) (add : AddNote) (h : Handler) (a : Aux) (v : Str) :
    (({ h with aux := a } : Handler).parse c add v).2 = (h.parse c add v).2 := by
  unfold Handler.parse Handler.noAux
  dsimp only
  split
  all_goals first
    | rfl
    | (unfold set_cookie.parse; split <;> rfl)
    | (unfold hsts.parse; dsimp only; rw [hsts_loop_fst _ _ _ _ (h.aux.kids ++ _)])

/-- what a field class makes of a piece of text (a line or an element, without surrounding white space): a value or an
exception (`ValueError` for text it rejects) -/
def parseText (c : Ctx) (f : FieldId) (v : Str) : Except Exn Val := ((mkHandler f []).parse c ⟨[], [], []⟩ v).2.res

theorem parse_res (c : Ctx) (add : AddNote) (h : Handler) (v : Str) : (h.parse c add v).2.res = parseText c h.fid v := by
  unfold parseText
  rw [← parse_aux c add h (mkHandler h.fid []).aux v]
  exact (Handler.parse_sim (b := false) (add := add) (add' := ⟨[], [], []⟩) (fun h => by simp at h)
    (hd := { h with aux := (mkHandler h.fid []).aux }) (hd' := mkHandler h.fid []) (mkHandler_fid _ _).symm (.refl _) c v).2.res

theorem parseText_during {env related t m c} (hd : During env related t m c) (f : FieldId) (v : Str) :
    parseText c f v = parseText ⟨env, m, related⟩ f v := by
  unfold parseText
  obtain ⟨e, mm, r⟩ := c
  obtain ⟨he, hr, hx⟩ := hd
  dsimp only at he hr
  subst he; subst hr
  rw [parse_ext hx]

/-! ### evaluation -/

/-- accept_query.py:31-51: the ranges in lower case -/
def rangeLower (item : Val) : Val :=
  match item.unpack2 with
  | .ok (.token s, p) => .tuple [.token (lower s), p]
  | .ok (.str s, p) => .tuple [.str (lower s), p]
  | _ => item

/-- what `evaluate` leaves of a value: `Vary` drops repeated names, `Accept-Query` lower-cases its ranges -/
def evaluated (f : FieldId) (v : Val) : Val :=
  match f with
  | .vary_ => (match v.iter with | .ok items => .list ((dedup (items.map Val.asStr)).map .str) | .error _ => v)
  | .accept_query_ => (match v.iter with | .ok items => .list (items.map rangeLower) | .error _ => v)
  | _ => v

theorem W.bind_res_ok {α β} {x : W α} {f : α → W β} {b : β} (h : (x >>= f).res = .ok b) :
    ∃ a, x.res = .ok a ∧ (f a).res = .ok b := by
  cases hx : x.res with
  | error e => rw [W.bind_err hx] at h; simp at h
  | ok a => rw [W.bind_ok hx] at h; exact ⟨a, rfl, h⟩

theorem mapM_res {α β} (f : α → W β) (g : α → β) (hfg : ∀ a b, (f a).res = .ok b → b = g a) (l : List α) {r : List β}
    (h : (l.mapM f).res = .ok r) : r = l.map g := by
  induction l generalizing r with
  | nil => simp only [List.mapM_nil] at h; cases h; rfl
  | cons a l ih =>
    rw [List.mapM_cons] at h
    obtain ⟨b, h1, h2⟩ := W.bind_res_ok h
    obtain ⟨bs, h3, h4⟩ := W.bind_res_ok h2
    cases h4
    rw [List.map_cons, ← hfg a b h1, ← ih h3]

theorem accept_query_item (c : Ctx) (add : AddNote) (item v : Val) (h : (accept_query.item c add item).res = .ok v) : v = rangeLower item := by
  unfold accept_query.item at h
  obtain ⟨⟨a, p⟩, h1, h2⟩ := W.bind_res_ok h
  have h1' : item.unpack2 = .ok (a, p) := h1
  dsimp only at h2
  unfold rangeLower
  rw [h1']
  split at h2
  · obtain ⟨_, _, h3⟩ := W.bind_res_ok h2; cases h3; rfl
  · obtain ⟨_, _, h3⟩ := W.bind_res_ok h2; cases h3; rfl
  · obtain ⟨_, _, h3⟩ := W.bind_res_ok h2
    obtain ⟨_, _, h4⟩ := W.bind_res_ok h3
    cases h4
    split
    · rename_i heq; cases heq; simp_all
    · rename_i heq; cases heq; simp_all
    · rfl

theorem keep_value (h : Handler) (w) : (h.keep w).1.value = h.value := rfl
theorem appendVals_value (h : Handler) (w) : (h.appendVals w).1.value = h.value := by
  unfold Handler.appendVals; split <;> rfl

theorem evaluate_keeps (c add) (h : Handler) (h1 : h.fid ≠ .vary_) (h2 : h.fid ≠ .accept_query_) :
    (h.evaluate c add).1.value = h.value := by
  unfold Handler.evaluate
  split
  all_goals first
    | (with_reducible exact keep_value _ _)
    | (with_reducible exact appendVals_value _ _)
    | (rename_i he; exact absurd he h1)
    | (rename_i he; exact absurd he h2)
    | rfl

theorem evaluate_value (c add) (h : Handler) (hr : (h.evaluate c add).2.res = .ok ()) :
    (h.evaluate c add).1.value = evaluated h.fid h.value := by
  by_cases h1 : h.fid = .vary_
  · unfold Handler.evaluate at hr ⊢
    rw [h1] at hr ⊢
    simp only [Handler.assign] at hr ⊢
    cases hv : (vary.evaluate add h).res with
    | error e => rw [hv] at hr; simp at hr
    | ok v =>
      unfold vary.evaluate at hv
      obtain ⟨items, h1, h2⟩ := W.bind_res_ok hv
      have h1' : h.value.iter = .ok items := h1
      unfold evaluated
      dsimp only
      rw [h1']
      dsimp only at h2
      obtain ⟨_, _, h2⟩ := W.bind_res_ok h2
      obtain ⟨_, _, h2⟩ := W.bind_res_ok h2
      obtain ⟨_, _, h2⟩ := W.bind_res_ok h2
      obtain ⟨_, _, h2⟩ := W.bind_res_ok h2
      obtain ⟨_, _, h2⟩ := W.bind_res_ok h2
      obtain ⟨_, _, h2⟩ := W.bind_res_ok h2
      cases h2; rfl
  · by_cases h2 : h.fid = .accept_query_
    · unfold Handler.evaluate at hr ⊢
      rw [h2] at hr ⊢
      simp only [Handler.assign] at hr ⊢
      cases hv : (accept_query.evaluate c add h).res with
      | error e => rw [hv] at hr; simp at hr
      | ok v =>
        unfold accept_query.evaluate at hv
        obtain ⟨items, h1, h2⟩ := W.bind_res_ok hv
        obtain ⟨l, h3, h4⟩ := W.bind_res_ok h2
        have h1' : h.value.iter = .ok items := h1
        unfold evaluated
        dsimp only
        rw [h1']
        cases h4
        rw [mapM_res _ rangeLower (accept_query_item c add) _ h3]
    · rw [evaluate_keeps c add h h1 h2]
      unfold evaluated
      split
      · rename_i he; exact absurd he h1
      · rename_i he; exact absurd he h2
      · rfl

/-- the value after `evaluate`, which is skipped for `None` -/
def afterCheck (f : FieldId) (v : Val) : Val := if v = .none then .none else evaluated f v

theorem evalAfter_value (c add ns) (h : Handler) (hr : (h.evalAfter c add ns).2.res = .ok ()) :
    (h.evalAfter c add ns).1.value = afterCheck h.fid h.value := by
  unfold Handler.evalAfter afterCheck at *
  split
  · rename_i hn; rw [hn]
  · rename_i hn
    rw [if_neg hn] at hr
    exact evaluate_value c add h hr

/-! ### the elements of a list -/

/-- reading the elements raises nothing: each is accepted or rejected with `ValueError` -/
def CleanElems (c : Ctx) (f : FieldId) (vs : List Str) : Prop :=
  ∀ v ∈ vs, ∀ e, parseText c f (strip v) = .error e → e.isValueError = true

theorem listLoop_clean (c : Ctx) (add : AddNote) (vs : List Str) :
    ∀ h : Handler, (h.listLoop c add vs).2.res = .ok () → CleanElems c h.fid vs := by
  induction vs with
  | nil => intro h _ v hv; simp at hv
  | cons v vs ih =>
    intro h
    unfold Handler.listLoop
    dsimp only
    cases (h.elementSyntax add v).res with
    | error e => intro h; simp at h
    | ok u =>
      dsimp only
      have hp := parse_res c add h (strip v)
      generalize h.parse c add (strip v) = p at *
      obtain ⟨aux, r⟩ := p
      dsimp only at *
      cases hr2 : r.res with
      | error e =>
        dsimp only
        split
        · rename_i hv
          intro hok w hw e' he'
          rcases List.mem_cons.1 hw with rfl | hw
          · rw [← hp, hr2] at he'; cases he'; exact hv
          · exact ih { h with aux } hok w hw e' he'
        · intro h; simp at h
      | ok x =>
        dsimp only
        cases ha2 : ({ h with aux } : Handler).append x with
        | error e => intro h; simp at h
        | ok h' =>
          have hf : h'.fid = h.fid := (append_id ha2).fid
          intro hok w hw e' he'
          rcases List.mem_cons.1 hw with rfl | hw
          · rw [← hp, hr2] at he'; cases he'
          · have := ih h' hok; rw [hf] at this; exact this w hw e' he'

/-- an element that is not in the grammar: the place of the error is inside it -/
theorem matchPrefix_inside {r : RE} {v : Str} {i : Nat} (hm : ¬ matchSpaced r v = true) (h : matchPrefix r v = some i) : i < v.length := by
  obtain ⟨hle, a, b, he, ha, hb⟩ := matchPrefix_some h
  rcases Nat.lt_or_ge i v.length with hl | hl
  · exact hl
  · exfalso
    apply hm
    rw [matchSpaced_iff]
    refine ⟨a, b, [], ?_, ha, hb, fun c hc => by simp at hc⟩
    rw [List.append_nil, ← he, List.take_of_length_le hl]

theorem syntaxProblem_ok {v : Str} {i : Nat} (h : i < v.length) : ∃ p, syntaxProblem v i = .ok p := by
  unfold syntaxProblem
  rw [List.getElem?_eq_getElem h]
  exact ⟨_, rfl⟩

/-- checking the syntax of an element never raises -/
theorem elementSyntax_res (h : Handler) (add : AddNote) (v : Str) : (h.elementSyntax add v).res = .ok () := by
  unfold Handler.elementSyntax
  split
  · rfl
  · split
    · rfl
    · rename_i hm
      split
      · rename_i hp
        obtain ⟨p, hq⟩ := syntaxProblem_ok (matchPrefix_inside hm hp)
        rw [hq]; rfl
      · unfold W.when; split <;> rfl

theorem Except.toOption_error {α} {e : Exn} : (Except.error e : Except Exn α).toOption = none := rfl

theorem listLoop_value (c : Ctx) (add : AddNote) (vs : List Str) :
    ∀ (h : Handler) (xs : List Val), h.value = .list xs → CleanElems c h.fid vs →
      (h.listLoop c add vs).1.value = .list (xs ++ vs.filterMap fun v => (parseText c h.fid (strip v)).toOption) ∧
      (h.listLoop c add vs).1.fid = h.fid := by
  induction vs with
  | nil => intro h xs hv _; exact ⟨by rw [List.filterMap_nil, List.append_nil]; exact hv, rfl⟩
  | cons v vs ih =>
    intro h xs hv hc
    unfold Handler.listLoop
    dsimp only
    rw [elementSyntax_res]
    dsimp only
    have hp := parse_res c add h (strip v)
    have hcl := hc v (by simp)
    generalize h.parse c add (strip v) = p at *
    obtain ⟨aux, r⟩ := p
    dsimp only at *
    rw [List.filterMap_cons, ← hp]
    cases hr2 : r.res with
    | error e =>
      dsimp only
      rw [hr2] at hp
      rw [if_pos (hcl e hp.symm)]
      exact ih { h with aux } xs hv (fun w hw => hc w (by simp [hw]))
    | ok x =>
      dsimp only
      have ha : ({ h with aux } : Handler).append x = .ok { h with aux, value := .list (xs ++ [x]) } := by
        unfold Handler.append; simp only [hv]
      rw [ha]
      dsimp only
      have := ih { h with aux, value := .list (xs ++ [x]) } (xs ++ [x]) rfl (fun w hw => hc w (by simp [hw]))
      rw [List.append_assoc] at this
      exact this

theorem fed_list {c name} (hk : (classOf name).info.kind = .list) (ps : List (Nat × Str))
    (hc : ∀ p ∈ ps, CleanElems c (classOf name) (splitListField p.2)) :
    (fedLines c name ps).value = .list ((ps.flatMap fun p => splitListField p.2).filterMap fun v => (parseText c (classOf name) (strip v)).toOption) := by
  unfold fedLines
  have key : ∀ (ps : List (Nat × Str)) (h : Handler) (xs : List Val), h.fid = classOf name → h.value = .list xs →
      (∀ p ∈ ps, CleanElems c (classOf name) (splitListField p.2)) →
      (ps.foldl (fun h p => (h.handleInput c p.2 p.1).1) h).value =
        .list (xs ++ (ps.flatMap fun p => splitListField p.2).filterMap fun v => (parseText c (classOf name) (strip v)).toOption) := by
    intro ps
    induction ps with
    | nil => intro h xs _ hv _; simp [hv]
    | cons p ps ih =>
      intro h xs hf hv hc
      have hcl : CleanElems c h.fid (splitListField p.2) := by rw [hf]; exact hc p (by simp)
      have e := listLoop_value c (h.offsetAdd c.msg.defaults p.1) (splitListField p.2) h xs hv hcl
      have e' : h.handleInput c p.2 p.1 = h.listLoop c (h.offsetAdd c.msg.defaults p.1) (splitListField p.2) := by
        unfold Handler.handleInput; rw [hf, hk]
      rw [← e', hf] at e
      rw [List.foldl_cons, ih _ _ e.2 e.1 (fun q hq => hc q (by simp [hq])), List.flatMap_cons, List.filterMap_append, List.append_assoc]
  rw [key ps _ [] (mkHandler_fid _ _) (mkHandler_value _ _) hc, List.nil_append]

/-! ### several lines, each parsed (`Set-Cookie` and the like) -/

theorem brokenLoop_value (c : Ctx) (rs : List (Str × Nat)) :
    ∀ (h : Handler) (acc vs : List Val), (h.brokenLoop c rs acc).2.res = .ok vs →
      vs = acc ++ rs.filterMap (fun p => (parseText c h.fid (strip p.1)).toOption) := by
  induction rs with
  | nil => intro h acc vs hv; cases hv; simp
  | cons r rs ih =>
    obtain ⟨raw, o⟩ := r
    intro h acc vs
    unfold Handler.brokenLoop
    dsimp only
    have hp := parse_res c (h.offsetAdd c.msg.defaults o) h (strip raw)
    generalize h.parse c (h.offsetAdd c.msg.defaults o) (strip raw) = p at *
    obtain ⟨aux, r⟩ := p
    dsimp only at *
    rw [List.filterMap_cons]
    dsimp only
    rw [← hp]
    cases hr2 : r.res with
    | error e =>
      dsimp only
      split
      · intro hok; exact ih { h with aux } acc vs hok
      · intro h; simp at h
    | ok x =>
      intro hok
      have := ih { h with aux } (acc ++ [x]) vs hok
      rw [List.append_assoc] at this
      exact this

/-! ### the value of a field -/

/-- the value some lines `xs` of a field of class `f` stand for -/
def lineValue (c : Ctx) (f : FieldId) (xs : List Str) : Val :=
  match f.info.kind with
  | .singleton => (match xs with | [] => .none | x :: _ => (parseText c f (strip x)).toOption.getD .none)
  | .broken => .list (xs.filterMap fun x => (parseText c f (strip x)).toOption)
  | .list => .list ((xs.flatMap splitListField).filterMap fun x => (parseText c f (strip x)).toOption)
  | .sf t => (match c.env.sfParse t (strip (join (str ", ") xs)) with | .ok v _ => v | _ => .none)
  | .json => (match c.env.jsonLoads (str "[" ++ join (str ", ") xs ++ str "]") with | .ok v => v | _ => .none)
  | .unknown => .list []

theorem joinValue_text (xs : List Str) : joinValue (textVal xs) = .ok (join (str ", ") xs) := by
  unfold joinValue textVal Val.iter
  dsimp only
  rw [if_pos (by simp [List.all_map, Val.isStr]), List.map_map]
  congr 2
  exact List.map_id' xs

theorem textVal_truthy {xs : List Str} (h : xs ≠ []) : (textVal xs).truthy = true := by
  cases xs with
  | nil => exact absurd rfl h
  | cons x xs => rfl

theorem afterCheck_none (f) : afterCheck f .none = .none := by unfold afterCheck; rw [if_pos rfl]

theorem finish_fed {c0 c add name} {ps : List (Nat × Str)} (hne : ps ≠ []) (henv : c0.env = c.env)
    (hpt : ∀ f v, parseText c0 f v = parseText c f v)
    (hc : (classOf name).info.kind = .list → ∀ p ∈ ps, CleanElems c (classOf name) (splitListField p.2))
    (hr : ((fedLines c0 name ps).finish c add).2.res = .ok ()) :
    ((fedLines c0 name ps).finish c add).1.value = afterCheck (classOf name) (lineValue c (classOf name) (ps.map (·.2))) := by
  have hid := (fed_id c0 name ps).fid
  rw [mkHandler_fid] at hid
  have hxs : ps.map (·.2) ≠ [] := by simpa using hne
  cases hk : (classOf name).info.kind with
  | list =>
    have hc' : ∀ p ∈ ps, CleanElems c0 (classOf name) (splitListField p.2) := by
      intro p hp v hv e he
      rw [hpt] at he
      exact hc hk p hp v hv e he
    have hv := fed_list hk ps hc'
    unfold Handler.finish at hr ⊢
    rw [hid, hk] at hr ⊢
    dsimp only at hr ⊢
    rw [evalAfter_value _ _ _ _ hr, hid, hv]
    unfold lineValue
    rw [hk]
    simp only [hpt, List.flatMap_map]
  | unknown =>
    have hv := fed_unknown (c := c0) hk ps
    unfold Handler.finish at hr ⊢
    rw [hid, hk] at hr ⊢
    dsimp only at hr ⊢
    rw [evalAfter_value _ _ _ _ hr, hid, hv]
    unfold lineValue
    rw [hk, mkHandler_value]
  | singleton =>
    have hv := fed_singleton (c := c0) hk ps
    unfold Handler.finish at hr ⊢
    rw [hid, hk] at hr ⊢
    dsimp only at hr ⊢
    unfold Handler.finishSingleton at hr ⊢
    cases ps with
    | nil => exact absurd rfl hne
    | cons p ps =>
      have hraw : (fedLines c0 name (p :: ps)).raw = (p.2, 0) :: ps.map fun p => (p.2, 0) := by rw [hv]; rfl
      simp only [hraw] at hr ⊢
      have hp := parse_res c add (fedLines c0 name (p :: ps)) (strip p.2)
      generalize (fedLines c0 name (p :: ps)).parse c add (strip p.2) = q at *
      obtain ⟨aux, r⟩ := q
      dsimp only at *
      have hl : lineValue c (classOf name) ((p :: ps).map (·.2)) = (parseText c (classOf name) (strip p.2)).toOption.getD .none := by
        unfold lineValue; rw [hk]; rfl
      rw [hl, ← hid, ← hp]
      cases hres : r.res with
      | ok v =>
        simp only [hres] at hr ⊢
        rw [evalAfter_value _ _ _ _ hr]
        rfl
      | error e =>
        simp only [hres] at hr ⊢
        by_cases he : e.isValueError = true
        · rw [if_pos he]; exact (afterCheck_none _).symm
        · rw [if_neg he] at hr; simp at hr
  | broken =>
    have hv := fed_broken (c := c0) hk ps
    unfold Handler.finish at hr ⊢
    rw [hid, hk] at hr ⊢
    dsimp only at hr ⊢
    unfold Handler.finishBroken at hr ⊢
    have hb := brokenLoop_value c (fedLines c0 name ps).raw (fedLines c0 name ps) []
    have hbi := (brokenLoop_id c (fedLines c0 name ps).raw (fedLines c0 name ps) []).fid
    generalize (fedLines c0 name ps).brokenLoop c (fedLines c0 name ps).raw [] = q at *
    obtain ⟨h', w⟩ := q
    dsimp only at *
    cases hres : w.res with
    | error e => simp only [hres] at hr; simp at hr
    | ok vs =>
      simp only [hres] at hr ⊢
      rw [evalAfter_value _ _ _ _ hr, hb vs hres, hbi, hid]
      unfold lineValue
      have : (fedLines c0 name ps).raw = ps.map fun p => (p.2, p.1) := by rw [hv]
      rw [hk, this]
      simp only [List.nil_append, List.filterMap_map, Function.comp_def]
  | sf t =>
    have hv := fed_text (c := c0) (k := .sf t) hk (.inr ⟨t, rfl⟩) ps
    unfold Handler.finish at hr ⊢
    rw [hid, hk] at hr ⊢
    dsimp only at hr ⊢
    unfold Handler.finishSf at hr ⊢
    have h1 : (fedLines c0 name ps).value = textVal (ps.map (·.2)) := by rw [hv]
    have h2 : (fedLines c0 name ps).sfParsed = false := by rw [hv]; exact mkHandler_sf _ _
    rw [h1, textVal_truthy hxs, h2, joinValue_text] at hr ⊢
    simp only [Bool.not_true, Bool.false_eq_true, if_false] at hr ⊢
    have hl : lineValue c (classOf name) (ps.map (·.2)) = (match c.env.sfParse t (strip (join (str ", ") (ps.map (·.2)))) with | .ok v _ => v | _ => .none) := by
      unfold lineValue; rw [hk]
    rw [hl]
    cases hs : c.env.sfParse t (strip (join (str ", ") (ps.map (·.2)))) with
    | ok v d => simp only [hs] at hr ⊢; rw [evalAfter_value _ _ _ _ hr]; dsimp only; rw [hid]
    | sfError p i d => exact (afterCheck_none _).symm
    | error p d => exact (afterCheck_none _).symm
  | json =>
    have hv := fed_text (c := c0) (k := .json) hk (.inl rfl) ps
    unfold Handler.finish at hr ⊢
    rw [hid, hk] at hr ⊢
    dsimp only at hr ⊢
    unfold Handler.finishJson at hr ⊢
    have h1 : (fedLines c0 name ps).value = textVal (ps.map (·.2)) := by rw [hv]
    rw [h1, textVal_truthy hxs, joinValue_text] at hr ⊢
    simp only [Bool.not_true, Bool.false_eq_true, if_false] at hr ⊢
    have hl : lineValue c (classOf name) (ps.map (·.2)) = (match c.env.jsonLoads (str "[" ++ join (str ", ") (ps.map (·.2)) ++ str "]") with | .ok v => v | _ => .none) := by
      unfold lineValue; rw [hk]
    rw [hl]
    cases hs : c.env.jsonLoads (str "[" ++ join (str ", ") (ps.map (·.2)) ++ str "]") with
    | ok v => simp only [hs] at hr ⊢; rw [evalAfter_value _ _ _ _ hr]; dsimp only; rw [hid]
    | decodeError p => exact (afterCheck_none _).symm
    | raises e => simp only [hs] at hr; exact absurd hr (by simp [W.throw])

/-! ### names that are not tokens have no class of their own -/

/-- not a token (RFC 9110 5.6.2) -/
def notToken (s : Str) : Bool := s.isEmpty || s.any fun c => !isTchar c

theorem notToken_lower {s : Str} (h : notToken s = true) : notToken (lower s) = true := by
  unfold notToken at *
  rw [Bool.or_eq_true] at *
  rcases h with h | h
  · left; simpa [lower] using h
  · right
    rw [List.any_eq_true] at *
    obtain ⟨c, hc, h⟩ := h
    exact ⟨lowerC c, List.mem_map_of_mem hc, by rw [isTchar_lower]; exact h⟩

theorem notToken_nameToken {s : Str} (h : notToken s = true) : notToken (nameToken s) = true := by
  rw [nameToken_eq]
  have h := notToken_lower h
  unfold notToken at *
  rw [Bool.or_eq_true] at *
  rcases h with h | h
  · left; simpa [lower] using h
  · right
    rw [List.any_eq_true] at *
    obtain ⟨c, hc, h⟩ := h
    refine ⟨_, List.mem_map_of_mem hc, ?_⟩
    have : c ≠ 45 := by rintro rfl; revert h; decide
    rw [if_neg this]; exact h

theorem dget_none_token {β} {d : Dict β} {k : Str} (hd : d.all (fun p => !notToken p.1) = true) (hk : notToken k = true) :
    dget d k = none := by
  rw [dget_eq_none]
  intro h
  obtain ⟨p, hp, rfl⟩ := List.mem_map.1 h
  have := (List.all_eq_true.1 hd) p hp
  rw [hk] at this
  exact nomatch this

theorem findHandlerClass_notToken {s : Str} (h : notToken s = true) : findHandlerClass s = none := by
  have h1 : findModule s = none := by
    unfold findModule
    dsimp only
    split
    · rfl
    · unfold unalias
      rw [dget_none_token (by decide +kernel) (notToken_nameToken h)]
      exact dget_none_token (by decide +kernel) (notToken_nameToken h)
  unfold findHandlerClass
  rw [h1]
  dsimp only
  have h3 : (deprecatedTable.any fun p => p.1 == lower s) = false := by
    rw [List.any_eq_false]
    intro p hp he
    have hd : deprecatedTable.all (fun p => !notToken p.1) = true := by decide +kernel
    have := (List.all_eq_true.1 hd) p hp
    rw [beq_iff_eq.1 he, notToken_lower h] at this
    exact nomatch this
  rw [h3]
  have h2 : unnecessaryNames.contains (lower s) = false := by
    rw [← Bool.not_eq_true, List.contains_iff_mem]
    intro hm
    have hd : unnecessaryNames.all (fun p => !notToken p) = true := by decide +kernel
    have := (List.all_eq_true.1 hd) _ hm
    rw [notToken_lower h] at this
    exact nomatch this
  rw [h2]
  rfl

/-- a name that is not a token even without the white space around it is an unknown field -/
theorem classOf_notToken {s : Str} (h : isToken (strip s) = false) : classOf s = .unknownField := by
  unfold classOf
  rw [findHandlerClass_notToken]
  · rfl
  · rcases hn : notToken s with _ | _
    · exfalso
      unfold notToken at hn
      rw [Bool.or_eq_false_iff, List.any_eq_false] at hn
      have hsp : hasSpace s = false := by
        unfold hasSpace
        rw [List.any_eq_false]
        intro c hc hs
        have h2 := hn.2 c hc
        have : isTchar c = false := by
          have key : ∀ c, c < 256 → isSpace c = true → isTchar c = false := by decide +kernel
          by_cases hl : c < 256
          · exact key c hl hs
          · unfold isTchar
            have : (str "!#$%&'*+-.^_`|~").contains c = false := by
              rw [← Bool.not_eq_true, List.contains_iff_mem]
              intro hm
              have : ∀ x ∈ str "!#$%&'*+-.^_`|~", x < 256 := by decide
              exact hl (this c hm)
            rw [this]; simp; omega
        rw [this] at h2
        exact h2 rfl
      have := isToken_strip s
      rw [strip_of_no_space hsp] at this h
      rw [← Bool.not_eq_true] at h
      apply h
      rw [this]
      refine ⟨by simpa using hn.1, ?_⟩
      intro c hc
      have := hn.2 c hc
      simpa using this
    · rfl

theorem evaluated_nil (f) : evaluated f (.list []) = .list [] := by
  unfold evaluated; split <;> rfl

theorem afterCheck_nil (f) : afterCheck f (.list []) = .list [] := by
  unfold afterCheck; rw [if_neg (by simp), evaluated_nil]

/-- a field that is not read at all -/
theorem finish_unread {c add kind name} (hok : okName kind name = false)
    (hr : ((checked kind (mkHandler (classOf name) name)).finish c add).2.res = .ok ()) :
    ((checked kind (mkHandler (classOf name) name)).finish c add).1.value =
      if (classOf name).validIn kind || (classOf name).info.kind == .broken then .list [] else .none := by
  have hfid : (checked kind (mkHandler (classOf name) name)).fid = classOf name := by rw [(checked_id _ _).fid, mkHandler_fid]
  have hraw : (checked kind (mkHandler (classOf name) name)).raw = [] := by
    unfold checked; split <;> exact mkHandler_raw _ _
  have hval : (checked kind (mkHandler (classOf name) name)).value = if (classOf name).validIn kind then .list [] else .none := by
    unfold checked
    rw [mkHandler_fid]
    split
    · exact mkHandler_value _ _
    · rfl
  have hvk : (classOf name).validIn kind = true → (classOf name).info.kind = .unknown := by
    intro hv
    unfold okName at hok
    rw [hv, Bool.true_and] at hok
    rw [classOf_notToken hok]; rfl
  generalize checked kind (mkHandler (classOf name) name) = h at *
  unfold Handler.finish at hr ⊢
  rw [hfid] at hr ⊢
  cases hv : (classOf name).validIn kind with
  | true =>
    rw [hvk hv] at hr ⊢
    dsimp only at hr
    rw [evalAfter_value _ _ _ _ hr, hfid, hval, hv, if_pos rfl, afterCheck_nil]
    rfl
  | false =>
    rw [hv, if_neg (by simp)] at hval
    rw [Bool.false_or]
    cases hk : (classOf name).info.kind with
    | singleton => dsimp only; unfold Handler.finishSingleton; rw [hraw]; rfl
    | broken =>
      simp only [hk] at hr ⊢
      unfold Handler.finishBroken at hr ⊢
      rw [hraw] at hr ⊢
      have : ((({ h with value := .list [] } : Handler).evalAfter c add []).1).value = _ := evalAfter_value c add [] { h with value := .list [] } hr
      rw [afterCheck_nil] at this
      exact this
    | list =>
      simp only [hk] at hr ⊢
      rw [evalAfter_value _ _ _ _ hr, hfid, hval, afterCheck_none]
      rfl
    | unknown =>
      simp only [hk] at hr ⊢
      rw [evalAfter_value _ _ _ _ hr, hfid, hval, afterCheck_none]
      rfl
    | sf t =>
      dsimp only
      unfold Handler.finishSf
      rw [hval]
      exact hval
    | json =>
      dsimp only
      unfold Handler.finishJson
      rw [hval]
      exact hval

end HL.Props
