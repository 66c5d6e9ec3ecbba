import Verif.Props.CacheControlThm

/-!
# Strict-Transport-Security (C58)
-/

namespace HL.Props
open HL.F

/-! ### notes with their sub-notes -/

section
variable {env : Env} {related : Option Msg} {t : Bool} {ls : List Line} {m m' : Msg}

theorem ofClass_isField {X : NoteId} (ho : X.origin = .field) (ns : List Note) : ofClass X ns = ofClass X (ns.filter isField) := by
  unfold ofClass
  rw [List.filter_filter]
  apply List.filter_congr
  intro n _
  by_cases h : n.cls = X
  · have h2 : isField n = true := by unfold isField; rw [h, ho]; rfl
    rw [h2, Bool.and_true]
  · have : (n.cls == X) = false := by simpa using h
    rw [this]; rfl

theorem ofClass_tag_nil {X : NoteId} {ns : List Note} {ts : List (NoteId × Str)} (h : ns.map tag = ts) (hn : (ts.filter (·.1 == X)) = []) :
    ofClass X ns = [] := by
  subst h
  rw [List.filter_map, List.map_eq_nil_iff] at hn
  exact hn

/-- notes of a class only the `evaluate` of one field class adds, in full -/
theorem eval_full {X f} (hX : EvalOnly X f) (hm : Linting env m) (hnew : (m.section t).handlers = [])
    (h : processSection env related t ls m = (m', .ok ())) {added : List Note} (e : m'.notes = m.notes ++ added) :
    ∃ ctx : Str → Ctx, (∀ n ∈ namesOf ls, During env related t m (ctx n) ∧ (ctx n).msg.notes <+: m'.notes) ∧
      ofClass X added = if f.validIn m.kind then (namesFor f ls).flatMap fun n =>
        ofClass X (evalNotes (ctx n) (evalSetup m t (ctx n) related ls n).1 (evalSetup m t (ctx n) related ls n).2) else [] := by
  obtain ⟨added', lines, fin, ctx, e', hd, ha, hl, hf, _⟩ := section_full hm hnew h
  have : added' = added := List.append_cancel_left (e'.symm.trans e)
  subst this
  refine ⟨ctx, hd, ?_⟩
  rw [ofClass_isField hX.origin, ha]
  have h1 : ofClass X lines = [] := by
    apply ofClass_tag_nil hl
    rw [List.filter_flatMap, flatMap_congr_mem (g := fun _ => [])]
    · simp
    · intro p _
      have := countOf_lineField (c := ⟨env, m, related⟩) (l := p.2) (X := X) (hX.parse _)
      rw [List.filter_map]
      exact congrArg _ this
  have h0 : ∀ a b : List Note, ofClass X (a ++ b) = ofClass X a ++ ofClass X b := fun a b => List.filter_append ..
  rw [h0, h1, List.nil_append]
  have h2 : ofClass X ((namesOf ls).flatMap fin) = (namesOf ls).flatMap fun n => ofClass X (fin n) := List.filter_flatMap ..
  rw [h2]
  unfold namesFor
  rw [flatMap_filter_if]
  have h3 : ∀ n ∈ namesOf ls, ofClass X (fin n) = if f.validIn m.kind then (if (decide (classOf n = f)) then
        ofClass X (evalNotes (ctx n) (evalSetup m t (ctx n) related ls n).1 (evalSetup m t (ctx n) related ls n).2) else []) else [] := by
    intro n hn
    have hfn := hf n hn
    by_cases hf' : classOf n = f
    · rw [okName_class hf' hX.known] at hfn
      by_cases hv : f.validIn m.kind = true
      · rw [if_pos hv] at hfn
        rw [if_pos hv, decide_eq_true hf', if_pos rfl]
        obtain ⟨pre, e1, e2⟩ := hfn
        rw [e1, h0]
        rw [ofClass_tag_nil e2, List.nil_append]
        have := finishParse_own (c := ⟨env, m, related⟩) (f := classOf n) (subj := fieldSubject n) (ps := sent m.kind n ls) (hX.parse _)
        rwa [List.map_eq_nil_iff] at this
      · rw [if_neg hv] at hfn
        rw [if_neg hv, hfn]; rfl
    · by_cases hok : okName m.kind n = true
      · rw [if_pos hok] at hfn
        obtain ⟨pre, e1, e2⟩ := hfn
        have hpre : ofClass X pre = [] := by
          apply ofClass_tag_nil e2
          have := finishParse_own (c := ⟨env, m, related⟩) (f := classOf n) (subj := fieldSubject n) (ps := sent m.kind n ls) (hX.parse _)
          rwa [List.map_eq_nil_iff] at this
        have hev := evalNotes_own (ctx n) (evalSetup m t (ctx n) related ls n).1 (evalSetup m t (ctx n) related ls n).2
          (by rw [evalSetup_fid hn]; exact evalSetup_aux hn) (X := X) (by rw [evalSetup_fid hn]; exact hX.evaluate _ hf')
        rw [e1, h0, hpre, hev]
        simp [hf']
      · rw [if_neg hok] at hfn
        rw [hfn]; simp [hf']; rfl
  rw [flatMap_congr_mem h3]
  split
  · rfl
  · simp

/-- a class that is only ever used for sub-notes is not among the notes a section adds -/
theorem kid_only {X : NoteId} (ho : X.origin = .field) (hp : ∀ g, (parseOwn g).contains X = false) (hv : ∀ g, (evalOwn g).contains X = false)
    (P : Processed env related t ls m m') : ofClass X m'.notes = ofClass X m.notes := by
  obtain ⟨added, _, _, _, e, _⟩ := section_full P.linting P.new P.ok
  obtain ⟨ctx, _, ha⟩ := eval_full (X := X) (f := .strict_transport_security_) ⟨ho, hp, fun g _ => hv g, by decide⟩ P.linting P.new P.ok e
  have h0 : ofClass X added = [] := by
    rw [ha]
    split
    · rw [flatMap_congr_mem (g := fun _ => [])]
      · simp
      · intro n hn
        have hn := (mem_namesFor.1 hn).1
        exact evalNotes_own _ _ _ (by rw [evalSetup_fid hn]; exact evalSetup_aux hn) (hv _)
    · rfl
  rw [e]
  show List.filter _ (m.notes ++ added) = _
  rw [List.filter_append]
  exact (congrArg (_ ++ ·) h0).trans (List.append_nil _)

end

/-! ### specification -/

/-- the directives: separated by `;`, without surrounding white space; an empty last one does not count -/
def hstsDirectives (v : Str) : List Str :=
  let ds := (splitOn 59 v).map strip
  if ds.getLast? = some [] then ds.dropLast else ds

/-- the name of a directive: up to `=`, in lower case, without surrounding white space -/
def hstsName (d : Str) : Str := lower (strip (d.takeWhile (· != 61)))
/-- its value, if there is a `=` -/
def hstsArg (d : Str) : Option Str := if 61 ∈ d then some (strip ((d.dropWhile (· != 61)).drop 1)) else none

/-- the number given by the first `max-age` -/
def hstsMaxAge (v : Str) : Option Int := ((hstsDirectives v).find? (hstsName · == str "max-age")).bind fun d => (hstsArg d).bind pyInt
/-- is there a directive of that name? -/
def hstsHas (name : Str) (v : Str) : Bool := (hstsDirectives v).any (hstsName · == name)

/-- what is wrong with a directive, given the directives before it -/
def hstsProblems (before : List Str) (d : Str) : List (NoteId × Dict Val) :=
  if before.any (hstsName · == hstsName d) then [(.HSTS_DUPLICATE_DIRECTIVE, [(str "directive", .str (hstsName d))])]
  else if hstsName d = str "max-age" then
    if ((hstsArg d).bind pyInt).isSome then [] else [(.HSTS_BAD_MAX_AGE, [(str "max_age", .str ((hstsArg d).getD (str "None")))])]
  else if hstsName d = str "includesubdomains" ∧ (hstsArg d).isSome then [(.HSTS_VALUE_NOT_ALLOWED, [(str "directive", .str (str "includeSubDomains"))])]
  else if hstsName d = str "preload" ∧ (hstsArg d).isSome then [(.HSTS_VALUE_NOT_ALLOWED, [(str "directive", .str (str "preload"))])]
  else []

/-- what is wrong with the directives, in order -/
def hstsAllProblems (v : Str) : List (NoteId × Dict Val) :=
  (hstsDirectives v).zipIdx.flatMap fun p => hstsProblems ((hstsDirectives v).take p.2) p.1

/-- the remarks on the policy -/
def hstsRemarks (insecure : Bool) (v : Str) : List NoteId :=
  [if !hstsHas (str "preload") v then .HSTS_NO_PRELOAD
   else if hstsHas (str "includesubdomains") v && (hstsMaxAge v).any (fun k => decide (1536000 ≤ k)) then .HSTS_PRELOAD
   else .HSTS_PRELOAD_NOT_SUITABLE] ++
  (if !hstsHas (str "max-age") v then [.HSTS_NO_MAX_AGE]
   else match hstsMaxAge v with
     | none => []
     | some k => if k = 0 then [.HSTS_MAX_AGE_ZERO] else if k < 1536000 then [.HSTS_SHORT_MAX_AGE] else []) ++
  [if hstsHas (str "includesubdomains") v then .HSTS_SUBDOMAINS else .HSTS_NO_SUBDOMAINS] ++
  (if insecure then [.HSTS_OVER_HTTP] else [])

/-- is the response one that came over plain HTTP and isn't a permanent redirect? -/
def overPlainHttp (m : Msg) : Bool := (str "http:").isPrefixOf m.baseUri && m.statusCode != some 301

/-- is the policy one a browser will follow? -/
def hstsGood (insecure : Bool) (v : Str) : Bool := (hstsMaxAge v).isSome && !insecure && (hstsAllProblems v).isEmpty

/-! ### reading the field -/

theorem zipIdx_flatMap_snoc {α β} (f : List α → α → List β) (pre : List α) (d : α) :
    (pre ++ [d]).zipIdx.flatMap (fun p => f ((pre ++ [d]).take p.2) p.1) = pre.zipIdx.flatMap (fun p => f (pre.take p.2) p.1) ++ f pre d := by
  rw [List.zipIdx_append, List.flatMap_append]
  congr 1
  · apply flatMap_congr_mem
    intro p hp
    have := List.mem_zipIdx hp
    have h2 : p.2 ≤ pre.length := by omega
    rw [List.take_append_of_le_length h2]
  · simp [List.zipIdx]

def hstsRead (ds : List Str) : Hsts :=
  { maxAge := (ds.find? (hstsName · == str "max-age")).bind fun d => (hstsArg d).bind pyInt
    subdomains := ds.any (hstsName · == str "includesubdomains")
    preload := ds.any (hstsName · == str "preload") }

def hstsKids (ds : List Str) : List (NoteId × Dict Val) := ds.zipIdx.flatMap fun p => hstsProblems (ds.take p.2) p.1

theorem hsts_loop_cons (x seen kids d ds) : hsts.loop x seen kids (d :: ds) =
    if seen.contains (hstsName d) then
      hsts.loop x seen (kids ++ [(.HSTS_DUPLICATE_DIRECTIVE, [(str "directive", .str (hstsName d))])]) ds
    else hsts.loop (hsts.directive x (hstsName d) (hstsArg d)).1 (seen ++ [hstsName d]) (kids ++ (hsts.directive x (hstsName d) (hstsArg d)).2) ds := by
  have e := split1_eq 61 d
  conv => lhs; unfold hsts.loop
  unfold hstsName hstsArg
  by_cases h : 61 ∈ d
  · rw [if_pos h] at e ⊢
    rw [e]
  · rw [if_neg h] at e ⊢
    rw [e, takeWhile_none h]

theorem any_congr_snoc {ds : List Str} {d : Str} {nm : Str} : (ds ++ [d]).any (hstsName · == nm) = (ds.any (hstsName · == nm) || (hstsName d == nm)) := by
  rw [List.any_append]; simp

theorem find_snoc {ds : List Str} {d : Str} {nm : Str} : (ds ++ [d]).find? (hstsName · == nm) =
    (ds.find? (hstsName · == nm)).or (if hstsName d == nm then some d else none) := by
  rw [List.find?_append, List.find?_singleton]

theorem hsts_loop_spec (ds : List Str) : ∀ (pre seen : List Str) (k : List (NoteId × Dict Val)), (∀ n, seen.contains n = pre.any (hstsName · == n)) →
    hsts.loop (hstsRead pre) seen (k ++ hstsKids pre) ds = (hstsRead (pre ++ ds), k ++ hstsKids (pre ++ ds)) := by
  induction ds with
  | nil => intro pre seen k hs; rw [List.append_nil]; rfl
  | cons d ds ih =>
    intro pre seen k hs
    rw [hsts_loop_cons, hs]
    have hk : hstsKids (pre ++ [d]) = hstsKids pre ++ hstsProblems pre d := zipIdx_flatMap_snoc hstsProblems pre d
    have e : pre ++ d :: ds = (pre ++ [d]) ++ ds := by simp
    by_cases hd : pre.any (hstsName · == hstsName d) = true
    · rw [if_pos hd, e]
      have hr : hstsRead (pre ++ [d]) = hstsRead pre := by
        unfold hstsRead
        have hf : ∀ nm, hstsName d = nm → pre.any (hstsName · == nm) = true := by intro nm h; subst h; exact hd
        rw [find_snoc, any_congr_snoc, any_congr_snoc]
        congr 1
        · cases hfm : pre.find? (hstsName · == str "max-age") with
          | some x => rfl
          | none =>
            have : hstsName d ≠ str "max-age" := by
              intro h
              have := hf _ h
              rw [List.any_eq_true] at this
              obtain ⟨x, hx, hx2⟩ := this
              exact absurd hx2 (by simpa using List.find?_eq_none.1 hfm x hx)
            have : (hstsName d == str "max-age") = false := by simpa using this
            rw [this]; rfl
        · cases hp : (hstsName d == str "includesubdomains") with
          | false => rw [Bool.or_false]
          | true => rw [hf _ (by simpa using hp)]; rfl
        · cases hp : (hstsName d == str "preload") with
          | false => rw [Bool.or_false]
          | true => rw [hf _ (by simpa using hp)]; rfl
      have hpr : hstsProblems pre d = [(.HSTS_DUPLICATE_DIRECTIVE, [(str "directive", .str (hstsName d))])] := by
        unfold hstsProblems; rw [if_pos hd]
      rw [← hpr, List.append_assoc, ← hk, ← hr]
      apply ih
      intro n
      rw [hs, any_congr_snoc]
      cases hp : (hstsName d == n) with
      | false => rw [Bool.or_false]
      | true =>
        have : hstsName d = n := by simpa using hp
        subst this; rw [hd]; rfl
    · rw [if_neg hd, e]
      have hnf : ∀ nm, hstsName d = nm → pre.find? (hstsName · == nm) = none := by
        intro nm h
        subst h
        rw [List.find?_eq_none]
        intro x hx hx2
        exact hd (List.any_eq_true.2 ⟨x, hx, hx2⟩)
      have hstep : hsts.directive (hstsRead pre) (hstsName d) (hstsArg d) = (hstsRead (pre ++ [d]), hstsProblems pre d) := by
        unfold hsts.directive hstsProblems
        rw [if_neg hd]
        unfold hstsRead
        rw [find_snoc, any_congr_snoc, any_congr_snoc]
        by_cases h1 : hstsName d = str "max-age"
        · have h2 : (hstsName d == str "includesubdomains") = false := by rw [h1]; decide
          have h3 : (hstsName d == str "preload") = false := by rw [h1]; decide
          rw [if_pos h1, if_pos h1, h2, h3, Bool.or_false, Bool.or_false, hnf _ h1, h1]
          cases hq : (hstsArg d).bind pyInt <;> simp [hq]
        · have h1' : (hstsName d == str "max-age") = false := by simpa using h1
          rw [if_neg h1, if_neg h1, h1']
          rw [show (if false = true then some d else none) = (Option.none : Option Str) from rfl, Option.or_none]
          by_cases h2 : hstsName d = str "includesubdomains"
          · have h3 : (hstsName d == str "preload") = false := by rw [h2]; decide
            rw [if_pos h2, h3]
            cases hstsArg d <;> simp [h2]
          · have h2' : (hstsName d == str "includesubdomains") = false := by simpa using h2
            rw [if_neg h2, h2']
            by_cases h3 : hstsName d = str "preload"
            · rw [if_pos h3]
              cases hstsArg d <;> simp [h2, h3]
            · have h3' : (hstsName d == str "preload") = false := by simpa using h3
              rw [if_neg h3, h3']
              simp [h2, h3]
      rw [hstep]
      dsimp only
      rw [List.append_assoc, ← hk]
      apply ih
      intro n
      rw [any_congr_snoc, ← hs n]
      simp only [List.contains_append]
      congr 1
      rw [List.contains_cons]
      simp only [List.contains_nil, Bool.or_false]
      exact Bool.beq_comm ..

/-- the value that is recorded -/
def hstsValue (v : Str) : Hsts := { maxAge := hstsMaxAge v, subdomains := hstsHas (str "includesubdomains") v, preload := hstsHas (str "preload") v }

/-- the sub-notes on the text: one for a `;` at the end, then the problems of the directives -/
def hstsTextKids (v : Str) : List (NoteId × Dict Val) :=
  (if ((splitOn 59 v).map strip).getLast? = some [] then [(.HSTS_TRAILING_SEMICOLON, [])] else []) ++ hstsAllProblems v

theorem hsts_parse_eq (aux : Aux) (hk : aux.kids = []) (v : Str) :
    hsts.parse aux v = ({ aux with kids := hstsTextKids v }, pure (hstsValue v).toVal) := by
  have hl := hsts_loop_spec (hstsDirectives v) [] [] (if ((splitOn 59 v).map strip).getLast? = some [] then [(.HSTS_TRAILING_SEMICOLON, [])] else []) (fun _ => rfl)
  rw [show hstsKids [] = [] from rfl, List.append_nil, List.nil_append] at hl
  unfold hsts.parse
  dsimp only
  rw [hk, List.nil_append]
  have e : (if ((splitOn 59 v).map strip).getLast? = some [] then ((splitOn 59 v).map strip).dropLast else (splitOn 59 v).map strip) = hstsDirectives v := rfl
  have e2 : ({} : Hsts) = hstsRead [] := rfl
  rw [e, e2, hl]
  rfl

theorem hsts_roundtrip (x : Hsts) : Hsts.ofVal x.toVal = x := by
  obtain ⟨a, s, p⟩ := x
  cases a <;> cases s <;> cases p <;> rfl

theorem hsts_truthy (x : Hsts) : x.toVal.truthy = true := rfl

theorem foldl_addChild (ks : List (NoteId × Dict Val)) : ∀ n : Note, ks.foldl (fun n k => n.addChild k.1 k.2) n =
    { n with subnotes := n.subnotes ++ ks.map fun k => ⟨k.1, n.subject, dupdate n.vars k.2⟩ } := by
  induction ks with
  | nil => intro n; simp
  | cons k ks ih =>
    intro n
    rw [List.foldl_cons, ih]
    unfold Note.addChild
    simp

theorem hstsProblems_cls {before d} : ∀ k ∈ hstsProblems before d, hstsInvalidating.contains k.1 = true := by
  intro k hk
  unfold hstsProblems at hk
  split at hk
  · rw [List.mem_singleton] at hk; subst hk; rfl
  · split at hk
    · split at hk
      · exact absurd hk (by simp)
      · rw [List.mem_singleton] at hk; subst hk; rfl
    · split at hk
      · rw [List.mem_singleton] at hk; subst hk; rfl
      · split at hk
        · rw [List.mem_singleton] at hk; subst hk; rfl
        · exact absurd hk (by simp)

theorem hstsTextKids_any (v : Str) : (hstsTextKids v).any (fun k => hstsInvalidating.contains k.1) = !(hstsAllProblems v).isEmpty := by
  unfold hstsTextKids
  rw [List.any_append]
  have h1 : (if ((splitOn 59 v).map strip).getLast? = some [] then [(NoteId.HSTS_TRAILING_SEMICOLON, ([] : Dict Val))] else []).any (fun k => hstsInvalidating.contains k.1) = false := by
    split <;> rfl
  rw [h1, Bool.false_or]
  have h2 : ∀ k ∈ hstsAllProblems v, hstsInvalidating.contains k.1 = true := by
    intro k hk
    unfold hstsAllProblems at hk
    obtain ⟨p, _, hk⟩ := List.mem_flatMap.1 hk
    exact hstsProblems_cls k hk
  cases hk : hstsAllProblems v with
  | nil => rfl
  | cons k ks =>
    rw [List.any_cons, h2 k (by rw [hk]; simp)]
    rfl

theorem hstsProblems_bad {before d} (h : hstsName d ≠ str "max-age") : (hstsProblems before d).any (fun k => k.1 == .HSTS_BAD_MAX_AGE) = false := by
  unfold hstsProblems
  rw [if_neg h]
  (repeat' split) <;> rfl

theorem hstsTextKids_bad (v : Str) (hm : hstsMaxAge v = none) : (hstsTextKids v).any (fun k => k.1 == .HSTS_BAD_MAX_AGE) = hstsHas (str "max-age") v := by
  unfold hstsTextKids
  rw [List.any_append]
  have h1 : (if ((splitOn 59 v).map strip).getLast? = some [] then [(NoteId.HSTS_TRAILING_SEMICOLON, ([] : Dict Val))] else []).any (fun k => k.1 == .HSTS_BAD_MAX_AGE) = false := by
    split <;> rfl
  rw [h1, Bool.false_or]
  unfold hstsMaxAge at hm
  unfold hstsHas hstsAllProblems
  generalize hstsDirectives v = ds at *
  rw [List.any_flatMap]
  cases hf : ds.find? (hstsName · == str "max-age") with
  | none =>
    rw [List.find?_eq_none] at hf
    have h2 : ds.any (hstsName · == str "max-age") = false := by rw [List.any_eq_false]; exact hf
    rw [h2, List.any_eq_false]
    intro p hp
    have hp := (List.mem_zipIdx hp).2.2
    have : hstsName p.1 ≠ str "max-age" := by
      have := hf p.1 (by rw [hp]; exact List.getElem_mem _)
      simpa using this
    rw [hstsProblems_bad this]
    simp
  | some d =>
    rw [hf] at hm
    obtain ⟨hd, as, bs, rfl, has⟩ := List.find?_eq_some_iff_append.1 hf
    have h2 : (as ++ d :: bs).any (hstsName · == str "max-age") = true := by rw [List.any_append, List.any_cons, hd]; simp
    rw [h2, List.any_eq_true]
    refine ⟨(d, as.length), ?_, ?_⟩
    · rw [List.mem_iff_getElem]
      refine ⟨as.length, by simp, ?_⟩
      simp
    · dsimp only
      rw [show (as ++ d :: bs).take as.length = as from List.take_left ..]
      have hd' : hstsName d = str "max-age" := by simpa using hd
      unfold hstsProblems
      have h3 : as.any (hstsName · == hstsName d) = false := by
        rw [List.any_eq_false, hd']
        intro x hx
        simpa using has x hx
      rw [h3, if_neg (by simp), if_pos hd']
      have : (hstsArg d).bind pyInt = none := hm
      rw [this]
      rfl

/-! ### the notes -/

section
variable {env : Env} {related : Option Msg} {t : Bool} {ls : List Line} {m m' : Msg}

theorem hsts_remarks (c : Ctx) (v : Str) : hsts.notesToAdd c (hstsValue v) (hstsTextKids v) = hstsRemarks (hsts.overHttp c) v := by
  unfold hsts.notesToAdd hstsRemarks hstsValue
  dsimp only
  congr 1
  congr 1
  congr 1
  · cases hstsHas (str "preload") v with
    | false => rfl
    | true =>
      simp only [if_true, Bool.not_true]
      cases hstsMaxAge v with
      | none => rfl
      | some k => rfl
  · cases hm : hstsMaxAge v with
    | none =>
      dsimp only
      rw [hstsTextKids_bad v hm]
      cases hstsHas (str "max-age") v <;> rfl
    | some k =>
      have : hstsHas (str "max-age") v = true := by
        unfold hstsMaxAge at hm
        unfold hstsHas
        cases hf : (hstsDirectives v).find? (hstsName · == str "max-age") with
        | none => rw [hf] at hm; exact absurd hm (by simp)
        | some d => exact List.any_eq_true.2 ⟨d, List.mem_of_find?_eq_some hf, List.find?_some (p := (hstsName · == str "max-age")) hf⟩
      rw [this]
      rfl

theorem during_overHttp {c : Ctx} (hd : During env related t m c) (hk : m.kind = .response) : hsts.overHttp c = overPlainHttp m := by
  have h1 : c.isRequest = false := by
    unfold Ctx.isRequest; rw [hd.kind, hk]; rfl
  unfold hsts.overHttp overPlainHttp
  rw [h1]
  obtain ⟨ns, s, e⟩ := hd.ext
  rw [e]
  cases t <;> simp [startsWith, Msg.addNotes, Msg.setSection]

/-- what `evaluate` finds -/
theorem hsts_setup {c : Ctx} {n : Str} (hn : n ∈ namesFor .strict_transport_security_ ls) :
    (evalSetup m t c related ls n).2.aux.kids = hstsTextKids (textOf ls n) ∧
    (evalSetup m t c related ls n).2.value = (hstsValue (textOf ls n)).toVal ∧
    (evalSetup m t c related ls n).2.fid = .strict_transport_security_ := by
  obtain ⟨hn, hc⟩ := mem_namesFor.1 hn
  have hc' : classOf (spelling ls n) = .strict_transport_security_ := by rw [classOf_spelling hn, hc]
  have hk : (classOf (spelling ls n)).info.kind = .singleton := by rw [hc']; rfl
  have hf : (mkHandler (classOf (spelling ls n)) (spelling ls n)).fid = .strict_transport_security_ := by rw [mkHandler_fid, hc']
  have haux : (mkHandler (classOf (spelling ls n)) (spelling ls n)).aux = {} := by unfold mkHandler; dsimp only; split <;> rfl
  unfold evalSetup evalHandler
  dsimp only
  rw [hk]
  dsimp only
  have ht : textOf ls n = strip (((sent m.kind n ls).map (·.2)).headD []) := by rw [sent_snd]; rfl
  rw [ht]
  cases hs : sent m.kind n ls with
  | nil => exact absurd hs (sent_ne_nil hn)
  | cons p ps =>
    dsimp only
    rw [fed_singleton hk]
    generalize hh : ({ mkHandler (classOf (spelling ls n)) (spelling ls n) with raw := (p :: ps).map fun p => (p.2, 0) } : Handler) = h
    have hfid : h.fid = .strict_transport_security_ := by rw [← hh]; exact hf
    have hkids : h.aux.kids = [] := by rw [← hh]; show (mkHandler (classOf (spelling ls n)) (spelling ls n)).aux.kids = _; rw [haux]
    refine ⟨?_, ?_, hfid⟩
    · unfold Handler.parse
      rw [hfid]
      show (hsts.parse h.aux (strip p.2)).1.kids = _
      rw [hsts_parse_eq _ hkids]
      rfl
    · rw [hc']
      unfold lineValue
      rw [show FieldId.strict_transport_security_.info.kind = .singleton from rfl]
      show (parseText c .strict_transport_security_ (strip p.2)).toOption.getD .none = _
      have : parseText c .strict_transport_security_ (strip p.2) = (hsts.parse {} (strip p.2)).2.res := rfl
      rw [this, hsts_parse_eq _ rfl]
      rfl

/-- the classes of sub-note that make a policy invalid -/
def hstsFatal : List NoteId := [.HSTS_DUPLICATE_DIRECTIVE, .HSTS_BAD_MAX_AGE, .HSTS_VALUE_NOT_ALLOWED]

theorem any_ofClass (Xs : List NoteId) (ns ns' : List Note) (h : ∀ X ∈ Xs, ofClass X ns = ofClass X ns') :
    ns.any (fun n => Xs.contains n.cls) = ns'.any (fun n => Xs.contains n.cls) := by
  have key : ∀ a b : List Note, (∀ X ∈ Xs, ofClass X a = ofClass X b) → a.any (fun n => Xs.contains n.cls) = true → b.any (fun n => Xs.contains n.cls) = true := by
    intro a b hab ha
    obtain ⟨x, hx, hc⟩ := List.any_eq_true.1 ha
    have hX : x.cls ∈ Xs := by simpa using hc
    have : x ∈ ofClass x.cls a := List.mem_filter.2 ⟨hx, by simp⟩
    rw [hab _ hX] at this
    exact List.any_eq_true.2 ⟨x, (List.mem_filter.1 this).1, hc⟩
  rw [Bool.eq_iff_iff]
  exact ⟨key _ _ h, key _ _ fun X hX => (h X hX).symm⟩

theorem hsts_kid_only (P : Processed env related t ls m m') : ∀ X ∈ hstsFatal, ofClass X m'.notes = ofClass X m.notes := by
  intro X hX
  simp only [hstsFatal, List.mem_cons, List.not_mem_nil, or_false] at hX
  rcases hX with rfl | rfl | rfl
  all_goals exact kid_only rfl (fun g => by cases g <;> decide) (fun g => by cases g <;> decide) P

theorem prefix_any {c : Ctx} (P : Processed env related t ls m m') (hd : During env related t m c) (hp : c.msg.notes <+: m'.notes) :
    c.msg.notes.any (fun n => hstsInvalidating.contains n.cls) = m.notes.any (fun n => hstsFatal.contains n.cls) := by
  have h1 := any_ofClass hstsFatal m'.notes m.notes (hsts_kid_only P)
  obtain ⟨ns, s, e⟩ := hd.ext
  have hpre : m.notes <+: c.msg.notes := by
    rw [e]; cases t <;> exact List.prefix_append ..
  rw [Bool.eq_iff_iff]
  have mono : ∀ a b : List Note, a <+: b → a.any (fun n => hstsFatal.contains n.cls) = true → b.any (fun n => hstsFatal.contains n.cls) = true := by
    intro a b hab ha
    obtain ⟨x, hx, hc⟩ := List.any_eq_true.1 ha
    exact List.any_eq_true.2 ⟨x, hab.subset hx, hc⟩
  exact ⟨fun h => by rw [← h1]; exact mono _ _ hp h, mono _ _ hpre⟩

/-- is the policy of a field called valid? -/
def hstsVerdict (m : Msg) (ls : List Line) (n : Str) : Bool :=
  hstsGood (overPlainHttp m) (textOf ls n) && !m.notes.any (fun x => hstsFatal.contains x.cls)

/-- the sub-notes of the verdict on a field, with their variables -/
def hstsSubNotes (m : Msg) (ls : List Line) (n : Str) : List (NoteId × Dict Val) :=
  hstsTextKids (textOf ls n) ++ (hstsRemarks (overPlainHttp m) (textOf ls n)).map (·, [])

/-- a note on a field, with sub-notes -/
structure NoteWith (x : Note) (n : Str) (kids : List (NoteId × Dict Val)) : Prop where
  subject : x.subject = fieldSubject n
  kids : x.subnotes = kids.map fun k => ⟨k.1, fieldSubject n, dupdate x.vars k.2⟩

/-- **C58** in a response, each `Strict-Transport-Security` field gets one verdict: valid exactly when the first `max-age` gives a
number, no directive is repeated, none of the two flags has a value and the response didn't come over plain HTTP (a 301 may);
its sub-notes are those for the text (`;` at the end, repeated, bad) and the remarks on the policy -/
theorem C58_verdict (P : Processed env related t ls m m') (hk : m.kind = .response) :
    ∃ (added : List Note) (valid invalid : Str → Note), m'.notes = m.notes ++ added ∧
      ofClass .HSTS_VALID added = ((namesFor .strict_transport_security_ ls).filter (hstsVerdict m ls)).map valid ∧
      ofClass .HSTS_INVALID added = ((namesFor .strict_transport_security_ ls).filter fun n => !hstsVerdict m ls n).map invalid ∧
      ∀ n ∈ namesFor .strict_transport_security_ ls, NoteWith (valid n) n (hstsSubNotes m ls n) ∧ NoteWith (invalid n) n (hstsSubNotes m ls n) := by
  obtain ⟨added, _, _, _, e, _⟩ := section_full P.linting P.new P.ok
  have hv : FieldId.strict_transport_security_.validIn m.kind = true := by rw [hk]; rfl
  obtain ⟨c1, hd1, h1⟩ := eval_full (X := .HSTS_VALID) (f := .strict_transport_security_) (by own_only) P.linting P.new P.ok e
  obtain ⟨c2, hd2, h2⟩ := eval_full (X := .HSTS_INVALID) (f := .strict_transport_security_) (by own_only) P.linting P.new P.ok e
  rw [if_pos hv] at h1 h2
  let mk (c : Str → Ctx) (X : NoteId) (n : Str) : Note :=
    let x := (evalSetup m t (c n) related ls n).1.mk1 X
    { x with subject := fieldSubject n, subnotes := (hstsSubNotes m ls n).map fun k => ⟨k.1, fieldSubject n, dupdate x.vars k.2⟩ }
  have main : ∀ (c : Str → Ctx), (∀ n ∈ namesOf ls, During env related t m (c n) ∧ (c n).msg.notes <+: m'.notes) →
      ∀ n ∈ namesFor .strict_transport_security_ ls,
        evalNotes (c n) (evalSetup m t (c n) related ls n).1 (evalSetup m t (c n) related ls n).2 =
          [mk c (if hstsVerdict m ls n then .HSTS_VALID else .HSTS_INVALID) n] := by
    intro c hd n hn
    obtain ⟨a1, a2, a3⟩ := hsts_setup (c := c n) (m := m) (t := t) (related := related) hn
    have hn' := (mem_namesFor.1 hn).1
    obtain ⟨d1, d2⟩ := hd n hn'
    have hsub := evalSetup_subject (t := t) (m := m) (related := related) (c := c n) hn'
    unfold evalNotes
    rw [if_neg (by rw [a2]; unfold Hsts.toVal Val.ofDict; simp)]
    unfold Handler.evaluate
    rw [a3]
    show (hsts.evaluate (c n) (evalSetup m t (c n) related ls n).1 (evalSetup m t (c n) related ls n).2).notes = _
    unfold hsts.evaluate
    rw [a2, hsts_truthy, hsts_roundtrip, a1]
    dsimp only
    rw [hsts_remarks, during_overHttp d1 hk]
    have hval : hsts.isValid (c n) (hstsValue (textOf ls n)) (hstsTextKids (textOf ls n)) = hstsVerdict m ls n := by
      unfold hsts.isValid hstsVerdict hstsGood
      rw [prefix_any P d1 d2, hstsTextKids_any, during_overHttp d1 hk, Bool.not_not]
      rfl
    rw [hval]
    simp only [Bool.not_true, Bool.false_eq_true, if_false]
    show [List.foldl (fun n k => n.addChild k.1 k.2) ((evalSetup m t (c n) related ls n).1.mk1 _ [] none) (hstsSubNotes m ls n)] = _
    rw [foldl_addChild]
    have hs2 : ((evalSetup m t (c n) related ls n).1.mk1 (if hstsVerdict m ls n then .HSTS_VALID else .HSTS_INVALID) [] none).subject = fieldSubject n := hsub
    rw [hs2]
    rfl
  have pick : ∀ (c : Str → Ctx) (X : NoteId) (p : Str → Bool) (ns : List Str), (∀ n ∈ ns,
      ofClass X (evalNotes (c n) (evalSetup m t (c n) related ls n).1 (evalSetup m t (c n) related ls n).2) = if p n then [mk c X n] else []) →
      (ns.flatMap fun n => ofClass X (evalNotes (c n) (evalSetup m t (c n) related ls n).1 (evalSetup m t (c n) related ls n).2)) = (ns.filter p).map (mk c X) := by
    intro c X p ns h
    rw [flatMap_congr_mem h]
    exact flatMap_ite_map ..
  refine ⟨added, mk c1 .HSTS_VALID, mk c2 .HSTS_INVALID, e, ?_, ?_, ?_⟩
  · rw [h1]
    apply pick
    intro n hn
    rw [main c1 hd1 n hn]
    cases hstsVerdict m ls n <;> rfl
  · rw [h2]
    apply pick
    intro n hn
    rw [main c2 hd2 n hn]
    cases hstsVerdict m ls n <;> rfl
  · intro n _
    exact ⟨⟨rfl, rfl⟩, ⟨rfl, rfl⟩⟩

/-- **C58** (what is recorded) -/
theorem C58_value (P : Processed env related t ls m m') (hu : Unpadded ls) (hk : m.kind = .response) {n : Str}
    (hn : n ∈ namesFor .strict_transport_security_ ls) :
    dget (m'.section t).parsed n = some (Val.ofDict [(str "max-age", match hstsMaxAge (textOf ls n) with | some k => .int k | none => .none),
      (str "includesubdomains", .bool (hstsHas (str "includesubdomains") (textOf ls n))),
      (str "preload", .bool (hstsHas (str "preload") (textOf ls n)))]) := by
  rw [P.recorded hu (f := .strict_transport_security_) (by decide) (by rw [hk]; rfl) (fun v => rfl) hn]
  congr 1
  have := (hsts_setup (c := ⟨env, m, related⟩) (m := m) (t := t) (related := related) hn).2.1
  rw [evalSetup_value P.linting P.ok (mem_namesFor.1 hn).1 (by rw [okName_class (mem_namesFor.1 hn).2 (by decide), hk]; rfl) ⟨rfl, rfl, Ext.refl t m⟩,
    (mem_namesFor.1 hn).2] at this
  exact this

/-- the directives are read whatever case their names are in -/
example : hstsMaxAge (str "MAX-AGE = 31536000; IncludeSubDomains ;preload") = some 31536000 ∧
    hstsHas (str "includesubdomains") (str "MAX-AGE = 31536000; IncludeSubDomains ;preload") = true := by decide +kernel

/-- non-vacuity: a valid policy, an invalid one with every problem -/
example : (oneField (str "Strict-Transport-Security") (str "max-age=31536000; includeSubDomains;preload;")).1.notes.map
      (fun x => (x.cls, x.subnotes.map (·.cls))) =
    [(.HSTS_VALID, [.HSTS_TRAILING_SEMICOLON, .HSTS_PRELOAD, .HSTS_SUBDOMAINS])] ∧
  (oneField (str "Strict-Transport-Security") (str "max-age=x; preload=1; max-age=5; includesubdomains=2")).1.notes.map
      (fun x => (x.cls, x.subnotes.map (·.cls))) =
    [(.HSTS_INVALID, [.HSTS_BAD_MAX_AGE, .HSTS_VALUE_NOT_ALLOWED, .HSTS_DUPLICATE_DIRECTIVE, .HSTS_VALUE_NOT_ALLOWED, .HSTS_PRELOAD_NOT_SUITABLE, .HSTS_SUBDOMAINS])] := by
  decide +kernel

end

end HL.Props
