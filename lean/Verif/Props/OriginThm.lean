import Verif.Props.StructuredThm
import Verif.Props.TimeThm

/-!
# Origin, Referer, Access-Control-Max-Age (C92, C93)
-/

namespace HL.Props
open HL.F Syntax

/-! ### what characters an expression can match -/

/-- the character can occur in a match -/
def RE.uses (ic : Bool) : RE → Nat → Bool
  | .eps, _ => false
  | .cset neg rs, c => csetHas ic neg rs c
  | .seq a b, c => RE.uses ic a c || RE.uses ic b c
  | .alt a b, c => RE.uses ic a c || RE.uses ic b c
  | .rep _ _ _ r, c => RE.uses ic r c
  | .sens r, c => RE.uses false r c

theorem uses_of_L {ic : Bool} {r : RE} : ∀ {s : Str}, r.L ic s → ∀ c ∈ s, RE.uses ic r c = true := by
  induction r generalizing ic with
  | eps => intro s h c hc; unfold RE.L at h; subst h; exact absurd hc (by simp)
  | cset neg rs =>
    intro s h c hc
    obtain ⟨d, rfl, hd⟩ := h
    rw [List.mem_singleton] at hc; subst hc
    exact hd
  | seq a b iha ihb =>
    intro s h c hc
    obtain ⟨s₁, s₂, rfl, h1, h2⟩ := h
    unfold RE.uses
    rcases List.mem_append.1 hc with hc | hc
    · rw [iha h1 c hc]; rfl
    · rw [ihb h2 c hc, Bool.or_true]
  | alt a b iha ihb =>
    intro s h c hc
    unfold RE.uses
    rcases h with h | h
    · rw [iha h c hc]; rfl
    · rw [ihb h c hc, Bool.or_true]
  | rep lo hi lazy r ih =>
    intro s h c hc
    obtain ⟨ps, rfl, _, _, hp⟩ := h
    obtain ⟨p, hp1, hp2⟩ := List.mem_flatten.1 hc
    exact ih (hp p hp1) c hp2
  | sens r ih =>
    intro s h c hc
    exact ih (ic := false) h c hc

theorem not_mem_of_L {ic : Bool} {r : RE} {s : Str} {c : Nat} (h : r.L ic s) (hc : RE.uses ic r c = false) : c ∉ s := by
  intro hm
  rw [uses_of_L h c hm] at hc
  exact Bool.noConfusion hc

/-! ### Origin -/

/-- the port, with its colon -/
def portPart (port : Option Str) : Str := match port with | some p => 58 :: p | none => []

/-- a serialised origin (RFC 6454, section 6.2): `scheme "://" host [ ":" port ]` -/
def IsOrigin (scheme host : Str) (port : Option Str) (s : Str) : Prop :=
  s = scheme ++ str "://" ++ host ++ portPart port ∧
  rfc3986.scheme.L false scheme ∧ rfc3986.host.L false host ∧ ∀ p, port = some p → rfc3986.port.L false p

theorem take_of_append (p t : Str) : (p ++ t).take ((p ++ t).length - t.length) = p := by
  rw [List.length_append, Nat.add_sub_cancel, List.take_left']
  rfl

theorem atEnd_iff (t : Str) : (t == [] || t == [10]) = true ↔ t = [] ∨ t = [10] := by simp

theorem origin_found {s sc h : Str} {p : Option Str} (hf : serializedOrigin s = some (sc, h, p)) : Lined (IsOrigin sc h p) s := by
  unfold serializedOrigin at hf
  dsimp only at hf
  replace hf := List.exists_of_findSome?_eq_some hf
  obtain ⟨t, ht, hf⟩ := hf
  obtain ⟨q, rfl, hq⟩ := (mem_run_iff _ _ _ _).1 ht
  split at hf
  · rename_i u
    replace hf := List.exists_of_findSome?_eq_some hf
    obtain ⟨w, hw, hf⟩ := hf
    obtain ⟨r, rfl, hr⟩ := (mem_run_iff _ _ _ _).1 hw
    have plain : (if (w == [] || w == [10]) = true then some (q, r, none) else none) = some (sc, h, p) → Lined (IsOrigin sc h p) (q ++ 58 :: 47 :: 47 :: (r ++ w)) := by
      intro hx
      split at hx
      · rename_i he
        injection hx with hx
        injection hx with h1 hx
        injection hx with h2 h3
        subst h1 h2 h3
        rcases (atEnd_iff _).1 he with rfl | rfl
        · exact Or.inl ⟨by simp [portPart], hq, hr, by simp⟩
        · exact Or.inr ⟨q ++ 58 :: 47 :: 47 :: r, by simp, by simp [portPart], hq, hr, by simp⟩
      · exact nomatch hx
    rw [take_of_append, take_of_append] at hf
    rcases w with _ | ⟨c, w'⟩
    · exact plain hf
    · by_cases hc : c = 58
      · subst hc
        split at hf
        · rename_i x hx
          replace hx := List.exists_of_findSome?_eq_some hx
          obtain ⟨z, hz, hx⟩ := hx
          obtain ⟨y, rfl, hy⟩ := (mem_run_iff _ _ _ _).1 hz
          rw [take_of_append] at hx
          split at hx
          · rename_i he
            rw [hf] at hx
            injection hx with hx
            injection hx with h1 hx
            injection hx with h2 h3
            subst h1 h2 h3
            rcases (atEnd_iff _).1 he with rfl | rfl
            · exact Or.inl ⟨by simp [portPart], hq, hr, fun _ e => by injection e with e; subst e; exact hy⟩
            · exact Or.inr ⟨q ++ 58 :: 47 :: 47 :: (r ++ 58 :: y), by simp, by simp [portPart], hq, hr, fun _ e => by injection e with e; subst e; exact hy⟩
          · exact nomatch hx
        · exact plain hf
      · split at hf
        · rename_i x hx
          split at hx
          · rename_i heq; injection heq with h1 h2; exact absurd h1 hc
          · exact nomatch hx
        · exact plain hf
  · exact nomatch hf

theorem origin_not_found {s : Str} (hf : serializedOrigin s = none) (sc h : Str) (p : Option Str) : ¬ Lined (IsOrigin sc h p) s := by
  intro hl
  have key : ∃ e : Str, (e = [] ∨ e = [10]) ∧ ∃ o, s = o ++ e ∧ IsOrigin sc h p o := by
    rcases hl with hl | ⟨o, rfl, hl⟩
    · exact ⟨[], Or.inl rfl, s, by simp, hl⟩
    · exact ⟨[10], Or.inr rfl, o, rfl, hl⟩
  obtain ⟨e, he, o, rfl, ho, hsc, hh, hp⟩ := key
  unfold serializedOrigin at hf
  dsimp only at hf
  rw [List.findSome?_eq_none_iff] at hf
  have h1 := hf (str "://" ++ h ++ portPart p ++ e) ((mem_run_iff _ _ _ _).2 ⟨sc, by rw [ho]; simp, hsc⟩)
  change (List.findSome? _ (rfc3986.host.run false (h ++ portPart p ++ e))) = none at h1
  rw [List.findSome?_eq_none_iff] at h1
  have h2 := h1 (portPart p ++ e) ((mem_run_iff _ _ _ _).2 ⟨h, by simp, hh⟩)
  have hend : (e == [] || e == [10]) = true := (atEnd_iff e).2 he
  cases p with
  | none =>
    dsimp only [List.nil_append, portPart] at h2
    split at h2
    · exact nomatch h2
    · exact Option.noConfusion rfl (heq_of_eq ((if_pos hend).symm.trans h2))
  | some q =>
    dsimp only [List.cons_append, portPart] at h2
    split at h2
    · exact nomatch h2
    · rename_i hn
      change List.findSome? _ (rfc3986.port.run false (q ++ e)) = none at hn
      rw [List.findSome?_eq_none_iff] at hn
      have := hn e ((mem_run_iff _ _ _ _).2 ⟨q, rfl, hp q rfl⟩)
      split at this
      · exact nomatch this
      · rename_i hne; exact hne hend

theorem cut_unique {c : Nat} {a b x y : Str} (ha : c ∉ a) (hb : c ∉ b) (h : a ++ c :: x = b ++ c :: y) : a = b ∧ x = y := by
  induction a generalizing b with
  | nil =>
    cases b with
    | nil => injection h with h1 h2; exact ⟨rfl, h2⟩
    | cons d b => injection h with h1 h2; exact absurd (by rw [h1]; simp) hb
  | cons d a ih =>
    cases b with
    | nil => injection h with h1 h2; exact absurd (by rw [h1]; simp) ha
    | cons d' b =>
      injection h with h1 h2
      obtain ⟨e1, e2⟩ := ih (fun h => ha (by simp [h])) (fun h => hb (by simp [h])) h2
      exact ⟨by rw [h1, e1], e2⟩

theorem cut_unique_last {c : Nat} {a b x y : Str} (hx : c ∉ x) (hy : c ∉ y) (h : a ++ c :: x = b ++ c :: y) : a = b ∧ x = y := by
  have h' := congrArg List.reverse h
  rw [List.reverse_append, List.reverse_append, List.reverse_cons, List.reverse_cons, List.append_assoc, List.append_assoc] at h'
  obtain ⟨e1, e2⟩ := cut_unique (by simpa using hx) (by simpa using hy) h'
  exact ⟨List.reverse_inj.1 e2, List.reverse_inj.1 e1⟩

/-- a host in brackets, or one without brackets and colons -/
theorem host_cases {h : Str} (hh : rfc3986.host.L false h) : (∃ x, h = 91 :: (x ++ [93])) ∨ (58 ∉ h ∧ 91 ∉ h ∧ 93 ∉ h) := by
  rcases hh with hh | hh
  · left
    obtain ⟨a, b, rfl, ha, hb⟩ := hh
    obtain ⟨b1, b2, rfl, _, hb2⟩ := hb
    obtain ⟨ca, rfl, hca⟩ := ha
    obtain ⟨cb, rfl, hcb⟩ := hb2
    have e1 : ca = 91 := by
      have : (91 ≤ ca ∧ ca ≤ 91) := by simpa [csetHas, inRanges] using hca
      omega
    have e2 : cb = 93 := by
      have : (93 ≤ cb ∧ cb ≤ 93) := by simpa [csetHas, inRanges] using hcb
      omega
    subst e1 e2
    exact ⟨b1, rfl⟩
  · right
    have : (RE.alt rfc3986.IPv4address rfc3986.reg_name).L false h := hh
    exact ⟨not_mem_of_L this (by decide +kernel), not_mem_of_L this (by decide +kernel), not_mem_of_L this (by decide +kernel)⟩

theorem port_digits {p : Str} (hp : rfc3986.port.L false p) : 58 ∉ p ∧ 91 ∉ p ∧ 93 ∉ p ∧ 10 ∉ p :=
  ⟨not_mem_of_L hp (by decide +kernel), not_mem_of_L hp (by decide +kernel), not_mem_of_L hp (by decide +kernel), not_mem_of_L hp (by decide +kernel)⟩

theorem portPart_clean {p : Option Str} (hp : ∀ q, p = some q → rfc3986.port.L false q) : 91 ∉ portPart p ∧ 93 ∉ portPart p ∧ 10 ∉ portPart p := by
  cases p with
  | none => exact ⟨by simp [portPart], by simp [portPart], by simp [portPart]⟩
  | some q =>
    obtain ⟨_, h1, h2, h3⟩ := port_digits (hp q rfl)
    refine ⟨?_, ?_, ?_⟩ <;> (intro h; rcases List.mem_cons.1 h with h | h; exact absurd h (by decide)) <;> contradiction

theorem portPart_inj {p q : Option Str} (h : portPart p = portPart q) : p = q := by
  cases p <;> cases q <;> simp_all [portPart]

/-- a text is an origin in at most one way -/
theorem origin_unique {s a b a' b' : Str} {p p' : Option Str} (h : IsOrigin a b p s) (h' : IsOrigin a' b' p' s) : a = a' ∧ b = b' ∧ p = p' := by
  obtain ⟨e, hsc, hh, hp⟩ := h
  obtain ⟨e', hsc', hh', hp'⟩ := h'
  rw [e] at e'
  have n1 : 58 ∉ a := not_mem_of_L hsc (by decide +kernel)
  have n2 : 58 ∉ a' := not_mem_of_L hsc' (by decide +kernel)
  have e2 : a ++ 58 :: (47 :: 47 :: (b ++ portPart p)) = a' ++ 58 :: (47 :: 47 :: (b' ++ portPart p')) := by
    simpa using e'
  obtain ⟨rfl, e3⟩ := cut_unique n1 n2 e2
  injection e3 with _ e3
  injection e3 with _ e3
  refine ⟨rfl, ?_⟩
  obtain ⟨q1, q2, _⟩ := portPart_clean hp
  obtain ⟨q1', q2', _⟩ := portPart_clean hp'
  have mixed : ∀ {x y : Str} {r r' : Option Str}, 91 ∉ y → 91 ∉ portPart r' → 91 :: (x ++ [93]) ++ portPart r = y ++ portPart r' → False := by
    intro x y r r' h1 h2 h3
    have : 91 ∈ y ++ portPart r' := by rw [← h3]; simp
    rcases List.mem_append.1 this with h | h
    · exact h1 h
    · exact h2 h
  rcases host_cases hh with ⟨x, rfl⟩ | ⟨k1, k2, k3⟩ <;> rcases host_cases hh' with ⟨x', rfl⟩ | ⟨k1', k2', k3'⟩
  · have e4 : 91 :: x ++ 93 :: portPart p = 91 :: x' ++ 93 :: portPart p' := by simpa using e3
    obtain ⟨h1, h2⟩ := cut_unique_last q2 q2' e4
    refine ⟨?_, portPart_inj h2⟩
    rw [← List.cons_append, ← List.cons_append, h1]
  · exact (mixed k2' q1' e3).elim
  · exact (mixed k2 q1 e3.symm).elim
  · have : ∀ {y z : Str} {r r' : Option Str}, 58 ∉ y → 58 ∉ z → (∀ q, r = some q → 58 ∉ q) → (∀ q, r' = some q → 58 ∉ q) → y ++ portPart r = z ++ portPart r' → y = z ∧ r = r' := by
      intro y z r r' hy hz hr hr' he
      cases r with
      | none =>
        cases r' with
        | none => exact ⟨by simpa [portPart] using he, rfl⟩
        | some q' =>
          have : 58 ∈ y ++ portPart none := by rw [he]; simp [portPart]
          exact absurd (by simpa [portPart] using this) hy
      | some q =>
        cases r' with
        | none =>
          have : 58 ∈ z ++ portPart none := by rw [← he]; simp [portPart]
          exact absurd (by simpa [portPart] using this) hz
        | some q' =>
          obtain ⟨h1, h2⟩ := cut_unique hy hz he
          exact ⟨h1, by rw [h2]⟩
    exact this k1 k1' (fun q hq => (port_digits (hp q hq)).1) (fun q hq => (port_digits (hp' q hq)).1) e3

theorem origin_no_newline {s a b : Str} {p : Option Str} (h : IsOrigin a b p s) : 10 ∉ s := by
  obtain ⟨e, hsc, hh, hp⟩ := h
  rw [e]
  intro hm
  rw [List.mem_append, List.mem_append, List.mem_append] at hm
  rcases hm with ((hm | hm) | hm) | hm
  · exact not_mem_of_L hsc (by decide +kernel) hm
  · exact absurd hm (by decide)
  · exact not_mem_of_L hh (by decide +kernel) hm
  · exact (portPart_clean hp).2.2 hm

/-- `serializedOrigin` finds *the* way a text is an origin -/
theorem origin_iff (s a b : Str) (p : Option Str) : serializedOrigin s = some (a, b, p) ↔ Lined (IsOrigin a b p) s := by
  constructor
  · exact origin_found
  · intro h
    cases hs : serializedOrigin s with
    | none => exact absurd h (origin_not_found hs a b p)
    | some q =>
      obtain ⟨a', b', p'⟩ := q
      have h' := origin_found hs
      have : a' = a ∧ b' = b ∧ p' = p := by
        rcases h with h | ⟨o, e, h⟩ <;> rcases h' with h' | ⟨o', e', h'⟩
        · exact origin_unique h' h
        · exact absurd (by rw [e']; simp) (origin_no_newline h)
        · exact absurd (by rw [e]; simp) (origin_no_newline h')
        · rw [e] at e'
          have := List.append_inj_left' e' rfl
          subst this
          exact origin_unique h' h
      obtain ⟨rfl, rfl, rfl⟩ := this
      rfl

theorem splitOn_head (c : Nat) (s : Str) : (splitOn c s).headD [] = s.takeWhile (· != c) ∧ ((splitOn c s).length > 1 ↔ c ∈ s) := by
  induction s with
  | nil => simp [splitOn]
  | cons x s ih =>
    have hne := (splitOn_parts c s).1
    unfold splitOn
    by_cases hx : x = c
    · rw [if_pos hx]
      subst hx
      refine ⟨by rw [List.takeWhile_cons_of_neg (by simp)]; rfl, ?_⟩
      have : (splitOn x s).length > 0 := List.length_pos_iff.2 hne
      rw [List.length_cons]
      exact ⟨fun _ => by simp, fun _ => by omega⟩
    · rw [if_neg hx, List.takeWhile_cons_of_pos (by simpa using hx)]
      cases hs : splitOn c s with
      | nil => exact absurd hs hne
      | cons p ps =>
        rw [hs] at ih
        refine ⟨congrArg (x :: ·) ih.1, ?_⟩
        rw [List.mem_cons, ← ih.2]
        simp only [List.length_cons]
        constructor
        · exact Or.inr
        · rintro (h | h)
          · exact absurd h.symm hx
          · exact h

/-- what comes before the first space -/
def firstWord (s : Str) : Str := s.takeWhile (· != 32)

open Classical in
/-- what is reported on an `Origin`: that there are several, and that the first isn't one -/
noncomputable def originReports (v : Str) : List Report :=
  if v = str "null" then []
  else sayIf (v.contains 32) { cls := .ORIGIN_MULTIPLE_VALUES } ++
    if ∃ a b p, Lined (IsOrigin a b p) (firstWord v) then [] else [{ cls := .BAD_ORIGIN_SYNTAX, vars := [(str "value", .str (firstWord v))] }]

/-- the number of a port: none if it is empty -/
def PortNumber : Option Str → Option Int → Prop
  | some q, some k => q ≠ [] ∧ IntText q k
  | some q, none => q = []
  | none, k => k = none

theorem origin_parse_notes (c : Ctx) (add : AddNote) (hd : Handler) (v : Str) (hf : hd.fid = .origin_) :
    amongClass [.ORIGIN_MULTIPLE_VALUES, .BAD_ORIGIN_SYNTAX] (hd.parse c add v).2.notes = (originReports v).map (Report.note add) := by
  unfold Handler.parse
  rw [hf]
  show amongClass _ (origin.parse add v).notes = _
  unfold origin.parse originReports
  by_cases h0 : v = str "null"
  · rw [if_pos h0, if_pos h0]; rfl
  · rw [if_neg h0, if_neg h0]
    have h1 : (decide ((splitOn 32 v).length > 1)) = v.contains 32 := by
      rw [Bool.eq_iff_iff, decide_eq_true_iff, (splitOn_head 32 v).2]; simp
    have h2 : (splitOn 32 v).headD [] = firstWord v := (splitOn_head 32 v).1
    dsimp only
    rw [h2, h1]
    have hw : ∀ w : W Val, (W.when (v.contains 32) (add.add .ORIGIN_MULTIPLE_VALUES) >>= fun _ => w).notes = (sayIf (v.contains 32) { cls := .ORIGIN_MULTIPLE_VALUES }).map (Report.note add) ++ w.notes := by
      intro w
      cases v.contains 32 <;> rfl
    rw [hw, amongClass_append, List.map_append]
    apply append_both
    · cases v.contains 32 <;> rfl
    · cases hs : serializedOrigin (firstWord v) with
      | none =>
        rw [if_neg (by rintro ⟨a, b, p, h⟩; exact origin_not_found hs a b p h)]
        rfl
      | some q =>
        obtain ⟨a, b, p⟩ := q
        rw [if_pos ⟨a, b, p, origin_found hs⟩]
        dsimp only
        split
        · rfl
        · split <;> rfl

theorem origin_text (c : Ctx) (v : Str) : parseText c .origin_ v =
    if v = str "null" then .ok .none
    else match serializedOrigin (firstWord v) with
      | some (a, b, p) => (match (p.bind fun x => if x.isEmpty then none else some x) with
        | none => .ok (.origin (lower a) (lower b) none)
        | some ps => match pyInt ps with
          | some n => .ok (.origin (lower a) (lower b) (some n))
          | none => .error .valueError)
      | none => .error .valueError := by
  show (origin.parse ⟨[], [], []⟩ v).res = _
  unfold origin.parse
  by_cases h0 : v = str "null"
  · rw [if_pos h0, if_pos h0]; rfl
  · rw [if_neg h0, if_neg h0]
    have h2 : (splitOn 32 v).headD [] = firstWord v := (splitOn_head 32 v).1
    dsimp only
    rw [h2, W.bind_ok when_res]
    cases hs : serializedOrigin (firstWord v) with
    | none => rfl
    | some q =>
      obtain ⟨a, b, p⟩ := q
      dsimp only
      cases hp : (p.bind fun x => if x.isEmpty then none else some x) with
      | none => rfl
      | some ps =>
        dsimp only
        cases pyInt ps <;> rfl

section
variable {env : Env} {related : Option Msg} {t : Bool} {ls : List Line} {m m' : Msg}

/-- **C92** in a request, `Origin` is reported exactly when it has several values, or when the first one isn't an origin -/
theorem C92_origin (P : Processed env related t ls m m') (hk : m.kind = .request) :
    Reported [.ORIGIN_MULTIPLE_VALUES, .BAD_ORIGIN_SYNTAX] m m' ((namesFor .origin_ ls).flatMap fun n => (originReports (textOf ls n)).map (fieldSubject n, ·)) := by
  have hX : Only [.ORIGIN_MULTIPLE_VALUES, .BAD_ORIGIN_SYNTAX] [.origin_] := by only_these
  have hV : FieldId.origin_.validIn m.kind = true := by rw [hk]; rfl
  refine (P.text_reports hX rfl hV originReports (fun _ => []) ?_ (fun _ _ r hr => absurd hr (by simp)) (fun add hd v hf => origin_parse_notes _ add hd v hf) ?_).congr ?_
  · intro v r hr
    unfold originReports at hr
    split at hr
    · exact absurd hr (by simp)
    · rcases List.mem_append.1 hr with hr | hr
      · obtain ⟨_, rfl⟩ := mem_sayIf.1 hr; exact ⟨by simp, by simp⟩
      · split at hr
        · exact absurd hr (by simp)
        · rw [List.mem_singleton] at hr; subst hr; exact ⟨by simp, by simp⟩
  · intro c add hd n _ _ _ _ _ hf _
    unfold Handler.evaluate
    rw [hf]
    rfl
  · apply flatMap_congr_mem
    intro n _
    simp

/-- **C92** the value of `Origin`: scheme and host of the first origin, in lower case, and its port -/
theorem C92_origin_value (P : Processed env related t ls m m') (hu : Unpadded ls) (hk : m.kind = .request) {n : Str} (hn : n ∈ namesFor .origin_ ls) :
    (∀ a b p k, Lined (IsOrigin a b p) (firstWord (textOf ls n)) → PortNumber p k → dget (m'.section t).parsed n = some (.origin (lower a) (lower b) k)) ∧
    ((¬ ∃ a b p, Lined (IsOrigin a b p) (firstWord (textOf ls n))) → dget (m'.section t).parsed n = some .none) := by
  have hv : FieldId.origin_.validIn m.kind = true := by rw [hk]; rfl
  rw [P.singleton hu rfl (by decide) hn hv, origin_text]
  refine ⟨?_, ?_⟩
  · intro a b p k hl hp
    have hnull : textOf ls n ≠ str "null" := by
      intro e
      rw [e] at hl
      have hm : ∀ s, Lined (IsOrigin a b p) s → 58 ∈ s := by
        rintro s (h | ⟨q, rfl, h⟩)
        · rw [h.1]; simp
        · rw [h.1]; simp
      exact absurd (hm _ hl) (by decide)
    rw [if_neg hnull, (origin_iff _ _ _ _).2 hl]
    dsimp only
    cases p with
    | none => cases hp; rfl
    | some q =>
      cases k with
      | none => cases hp; rfl
      | some k =>
        obtain ⟨h1, h2⟩ := hp
        have : (Option.some q).bind (fun x => if x.isEmpty then none else some x) = some q := by
          cases q with
          | nil => exact absurd rfl h1
          | cons => rfl
        rw [this]
        dsimp only
        rw [pyInt_iff.2 h2]; rfl
  · intro h
    split
    · rfl
    · cases hs : serializedOrigin (firstWord (textOf ls n)) with
      | none => rfl
      | some q => obtain ⟨a, b, p⟩ := q; exact absurd ⟨a, b, p, origin_found hs⟩ h

/-! ### Access-Control-Max-Age -/

theorem max_age_text (c : Ctx) (v : Str) :
    parseText c .access_control_max_age_ v = (match pyInt v with | some k => if k < 0 then .error .valueError else .ok (.int k) | none => .error .valueError) := by
  show (access_control_max_age.parse ⟨[], [], []⟩ v).res = _
  unfold access_control_max_age.parse
  cases pyInt v with
  | none => rfl
  | some k =>
    dsimp only
    by_cases hk : k < 0
    · rw [if_pos hk, if_pos hk]; rfl
    · rw [if_neg hk, if_neg hk]; rfl

open Classical in
/-- what is reported on an `Access-Control-Max-Age` -/
noncomputable def corsAgeReports (v : Str) : List Report :=
  if ∃ k, IntText v k ∧ 0 ≤ k then []
  else [{ cls := if ∃ k, IntText v k then .CORS_MAX_AGE_NEGATIVE else .CORS_MAX_AGE_INVALID, vars := [(str "ref_uri", FieldId.access_control_max_age_.ref)] }]

/-- **C92** `Access-Control-Max-Age` is reported exactly when it isn't an integer, or is a negative one; then it has no value, else its number is -/
theorem C92_max_age (P : Processed env related t ls m m') (hk : m.kind = .response) :
    Reported [.CORS_MAX_AGE_INVALID, .CORS_MAX_AGE_NEGATIVE] m m' ((namesFor .access_control_max_age_ ls).flatMap fun n => (corsAgeReports (textOf ls n)).map (fieldSubject n, ·)) := by
  have hX : Only [.CORS_MAX_AGE_INVALID, .CORS_MAX_AGE_NEGATIVE] [.access_control_max_age_] := by only_these
  have hV : FieldId.access_control_max_age_.validIn m.kind = true := by rw [hk]; rfl
  refine (P.text_reports hX rfl hV corsAgeReports (fun _ => []) ?_ (fun _ _ r hr => absurd hr (by simp)) ?_ ?_).congr ?_
  · intro v r hr
    unfold corsAgeReports at hr
    split at hr
    · exact absurd hr (by simp)
    · rw [List.mem_singleton] at hr; subst hr; exact ⟨by simp, by simp⟩
  · intro add hd v hf
    unfold Handler.parse
    rw [hf]
    show amongClass _ (access_control_max_age.parse add v).notes = _
    unfold access_control_max_age.parse corsAgeReports
    cases hi : pyInt v with
    | none =>
      have : ¬ ∃ k, IntText v k := pyInt_none.1 hi
      rw [if_neg (fun ⟨k, h, _⟩ => this ⟨k, h⟩), if_neg this]; rfl
    | some k =>
      have hk := pyInt_iff.1 hi
      dsimp only
      by_cases h0 : k < 0
      · rw [if_pos h0, if_neg (fun ⟨k', h, h'⟩ => by rw [IntText.unique hk h] at h0; omega), if_pos ⟨k, hk⟩]; rfl
      · rw [if_neg h0, if_pos ⟨k, hk, by omega⟩]; rfl
  · intro c add hd n _ _ _ _ _ hf _
    unfold Handler.evaluate
    rw [hf]
    rfl
  · apply flatMap_congr_mem
    intro n _
    simp

theorem C92_max_age_value (P : Processed env related t ls m m') (hu : Unpadded ls) (hk : m.kind = .response) {n : Str} (hn : n ∈ namesFor .access_control_max_age_ ls) :
    (∀ k, IntText (textOf ls n) k → 0 ≤ k → dget (m'.section t).parsed n = some (.int k)) ∧
    ((¬ ∃ k, IntText (textOf ls n) k ∧ 0 ≤ k) → dget (m'.section t).parsed n = some .none) := by
  have hv : FieldId.access_control_max_age_.validIn m.kind = true := by rw [hk]; rfl
  rw [P.singleton hu rfl (by decide) hn hv, max_age_text]
  refine ⟨fun k h h0 => ?_, fun h => ?_⟩
  · rw [pyInt_iff.2 h]
    dsimp only
    rw [if_neg (by omega)]; rfl
  · cases hi : pyInt (textOf ls n) with
    | none => rfl
    | some k =>
      dsimp only
      by_cases h0 : k < 0
      · rw [if_pos h0]; rfl
      · exact absurd ⟨k, pyInt_iff.1 hi, by omega⟩ h

/-! ### Referer -/

/-- the parts of a URL, if it can be taken apart -/
def urlOf (env : Env) (s : Str) : Option UrlParts := match env.urlsplit s with | .ok u => some u | .error _ => none

/-- what is reported on a `Referer` in a request for `uri`: nothing unless the referring resource is a secure one; else that the target isn't, and that it has another origin -/
def refererReports (env : Env) (uri : Option Str) (r : Str) : List Report :=
  match uri with
  | none => []
  | some u =>
    if r = [] ∨ u = [] then []
    else match urlOf env r, urlOf env u with
      | some pr, some pu =>
        if [str "https", str "wss"].contains (lower pr.scheme) then
          sayIf ([str "http", str "ws"].contains (lower pu.scheme)) { cls := .REFERER_SECURE_TO_INSECURE } ++
          sayIf (pr.scheme != pu.scheme || pr.netloc != pu.netloc) { cls := .REFERER_SECURE_TO_DIFFERENT_ORIGIN }
        else []
      | _, _ => []

theorem referer_tells {c : Ctx} (add : AddNote) {hd : Handler} {r : Str} (hv : hd.value = .str r) (hq : c.isRequest = true) :
    Tells [.REFERER_SECURE_TO_INSECURE, .REFERER_SECURE_TO_DIFFERENT_ORIGIN] add (referer.evaluate c add hd) (refererReports c.env c.msg.uri r) (fun _ => True) := by
  unfold referer.evaluate refererReports urlOf
  rw [hv, hq]
  cases c.msg.uri with
  | none => exact Tells.pure trivial
  | some u =>
    dsimp only
    by_cases h0 : r = [] ∨ u = []
    · rw [if_pos h0, if_pos (by simpa using h0)]; exact Tells.pure trivial
    · rw [if_neg h0, if_neg (by simpa using h0)]
      cases h1 : c.env.urlsplit r with
      | error e => cases e <;> first | exact Tells.pure trivial | exact Tells.throw
      | ok pr =>
        cases h2 : c.env.urlsplit u with
        | error e => cases e <;> first | exact Tells.pure trivial | exact Tells.throw
        | ok pu =>
          dsimp only
          by_cases hs : [str "https", str "wss"].contains (lower pr.scheme) = true
          · rw [if_pos hs, if_pos hs]
            exact ((Heard.when rfl).bind (Heard.when rfl)).tells.mono fun _ _ => trivial
          · rw [if_neg hs, if_neg hs]; exact Tells.pure trivial

/-- **C93** `Referer`, in full -/
theorem C93_referer (P : Processed env related t ls m m') (hk : m.kind = .request) :
    Reported [.REFERER_SECURE_TO_INSECURE, .REFERER_SECURE_TO_DIFFERENT_ORIGIN] m m' ((namesFor .referer_ ls).flatMap fun n =>
      (refererReports env m.uri (textOf ls n)).map (fieldSubject n, ·)) := by
  have hX : EvalAmong [.REFERER_SECURE_TO_INSECURE, .REFERER_SECURE_TO_DIFFERENT_ORIGIN] [.referer_] := by eval_among
  refine P.seen_tells hX (by rw [hk]; rfl) (fun n => some (textOf ls n)) Val.str (fun a => by simp)
    (fun n hn => by rw [singleton_value rfl n (mem_namesFor.1 hn).1]; rfl) (fun _ => refererReports env m.uri) ?_ ?_
  · intro _ a r hr
    unfold refererReports at hr
    repeat' split at hr
    all_goals first
      | exact absurd hr List.not_mem_nil
      | skip
    rcases List.mem_append.1 hr with hr | hr <;> (obtain ⟨_, rfl⟩ := mem_sayIf.1 hr; exact ⟨⟨by simp, by simp⟩, rfl⟩)
  · intro c add hd n a hdur _ hf hval
    unfold Handler.evaluate
    rw [hf]
    have := referer_tells (c := c) add hval (by unfold Ctx.isRequest; rw [hdur.kind, hk]; rfl)
    rw [hdur.env, show c.msg.uri = m.uri from (during_frame hdur).2.2.2] at this
    exact this

/-! ### Content-Length and Transfer-Encoding -/

/-- **C94** `Content-Length` is reported as given together with `Transfer-Encoding` exactly if that comes *before* it (and its own value could be read) -/
theorem C94_both_partial (P : Processed env related false ls m m') (hu : Unpadded ls) (hp : dget m.headers.parsed (str "transfer-encoding") = none) :
    Reported [.CL_AND_TE_PRESENT] m m' ((namesFor .content_length_ ls).flatMap fun n =>
      (onParsed (pyInt (textOf ls n)) fun _ => sayIf (decide (str "transfer-encoding" ∈ before n (namesOf ls))) { cls := .CL_AND_TE_PRESENT }).map (fieldSubject n, ·)) := by
  have hX : EvalAmong [.CL_AND_TE_PRESENT] [.content_length_] := by eval_among
  refine P.seen_reports hX (by cases m.kind <;> rfl) (fun n => pyInt (textOf ls n)) Val.int (fun a => by simp)
    (fun n hn => by rw [singleton_value rfl n (mem_namesFor.1 hn).1, (content_length_text _ _).1]; cases pyInt (textOf ls n) <;> rfl)
    (fun n _ => sayIf (decide (str "transfer-encoding" ∈ before n (namesOf ls))) { cls := .CL_AND_TE_PRESENT }) ?_ ?_
  · intro n a r hr
    obtain ⟨_, rfl⟩ := mem_sayIf.1 hr
    exact ⟨⟨by simp, by simp⟩, rfl⟩
  · intro c add hd n a hdur hs hf hval
    unfold Handler.evaluate
    rw [hf]
    refine Told.heard (w := content_length.evaluate c add) ?_ (fun r hr => by obtain ⟨_, rfl⟩ := mem_sayIf.1 hr; rfl)
    unfold content_length.evaluate
    have : dhas c.msg.headers.parsed (str "transfer-encoding") = decide (str "transfer-encoding" ∈ before n (namesOf ls)) := by
      have h := hs.parsed hu (str "transfer-encoding")
      change dget c.msg.headers.parsed (str "transfer-encoding") = if _ then _ else dget m.headers.parsed (str "transfer-encoding") at h
      rw [Bool.eq_iff_iff, dhas_isSome, h, hp]
      by_cases hb : str "transfer-encoding" ∈ before n (namesOf ls)
      · rw [if_pos hb]; simp [hb]
      · rw [if_neg hb]; simp [hb]
    rw [this]
    exact Told.when

end

end HL.Props
