import Verif.Props.PolicyThm

/-!
# Content-Security-Policy (C77)
-/

namespace HL.Props
open HL.F

/-! ### words -/

/-- the words of a text: split at white space, without empty pieces -/
def wordsOf (s : Str) : List Str := (splitOn 32 (s.map fun c => if isSpace c then 32 else c)).filter (· != [])

theorem isSpace_32 : isSpace 32 = true := by decide

/-- the state of the loop: the words so far, and whether the next character would join the first one -/
theorem words_loop (s : Str) :
    s.foldr (fun c (acc : List Str × Bool) => if isSpace c then (acc.1, false) else match acc with | (w :: ws, true) => ((c :: w) :: ws, true) | (ws, _) => ([c] :: ws, true)) ([], false) =
      (wordsOf s, match s with | [] => false | c :: _ => !isSpace c) ∧
    (∀ p ps, splitOn 32 (s.map fun c => if isSpace c then 32 else c) = p :: ps → p = s.takeWhile fun c => !isSpace c) := by
  induction s with
  | nil =>
    refine ⟨rfl, ?_⟩
    intro p ps h
    have : splitOn 32 ([] : Str) = [[]] := rfl
    rw [List.map_nil, this] at h
    cases h; rfl
  | cons c s ih =>
    obtain ⟨ih1, ih2⟩ := ih
    rw [List.foldr_cons, ih1]
    unfold wordsOf at *
    rw [List.map_cons]
    by_cases hc : isSpace c = true
    · rw [if_pos hc, if_pos hc, splitOn, if_pos rfl]
      refine ⟨?_, ?_⟩
      · rw [List.filter_cons]; simp [hc]
      · intro p ps h
        cases h
        rw [List.takeWhile_cons_of_neg (by simp [hc])]
    · have hc' : isSpace c = false := by simpa using hc
      have h32 : c ≠ 32 := by intro e; subst e; exact hc isSpace_32
      rw [if_neg hc, if_neg hc, splitOn, if_neg h32]
      cases hs : splitOn 32 (s.map fun c => if isSpace c then 32 else c) with
      | nil => exact absurd hs (by intro h; cases s <;> simp [splitOn] at h; split at h; simp at h; split at h <;> simp at h)
      | cons p ps =>
        have hp := ih2 p ps hs
        refine ⟨?_, ?_⟩
        · dsimp only
          cases s with
          | nil =>
            have hp0 : p = [] := hp
            subst hp0
            simp [hc']
          | cons d s =>
            by_cases hd : isSpace d = true
            · have hp0 : p = [] := by rw [hp, List.takeWhile_cons_of_neg (by simp [hd])]
              subst hp0
              simp [hc', hd]
            · have hd' : isSpace d = false := by simpa using hd
              have hp0 : p ≠ [] := by rw [hp, List.takeWhile_cons_of_pos (by simp [hd'])]; simp
              rw [List.filter_cons, if_pos (by simpa using hp0), List.filter_cons]
              simp [hc', hd']
        · intro q qs h
          cases h
          rw [List.takeWhile_cons_of_pos (by simp [hc']), hp]

theorem words_eq (s : Str) : words s = wordsOf s := congrArg Prod.fst (words_loop s).1

theorem mem_splitOn_sub {c : Nat} {s w : Str} (h : w ∈ splitOn c s) : ∃ a b, s = a ++ w ++ b := by
  induction s generalizing w with
  | nil =>
    have : w = [] := by simpa [splitOn] using h
    exact ⟨[], [], by rw [this]; rfl⟩
  | cons x s ih =>
    unfold splitOn at h
    split at h
    · rcases List.mem_cons.1 h with rfl | h
      · exact ⟨[], x :: s, by simp⟩
      · obtain ⟨a, b, e⟩ := ih h
        exact ⟨x :: a, b, by rw [e]; simp⟩
    · split at h
      · rename_i hs
        have : w = [x] := by simpa using h
        exact ⟨[], s, by rw [this]; rfl⟩
      · rename_i p ps hs
        rcases List.mem_cons.1 h with rfl | h
        · have hpre : ∀ (s p : Str) (ps), splitOn c s = p :: ps → ∃ b, s = p ++ b := by
            intro s
            induction s with
            | nil => intro p ps h; have : splitOn c [] = [[]] := rfl; rw [this] at h; cases h; exact ⟨[], rfl⟩
            | cons y s ih =>
              intro p ps h
              unfold splitOn at h
              split at h
              · cases h; exact ⟨y :: s, rfl⟩
              · split at h
                · cases h; exact ⟨s, rfl⟩
                · rename_i q qs hq
                  cases h
                  obtain ⟨b, e⟩ := ih _ _ hq
                  exact ⟨b, by rw [e]; rfl⟩
          obtain ⟨b, e⟩ := hpre _ _ _ hs
          exact ⟨[], b, by rw [e]; rfl⟩
        · obtain ⟨a, b, e⟩ := ih (by rw [hs]; exact List.mem_cons_of_mem _ h)
          exact ⟨x :: a, b, by rw [e]; simp⟩

/-- a word without white space occurs in the text -/
theorem word_occurs {s w : Str} (hw : ∀ c ∈ w, c ≠ 32) (h : w ∈ wordsOf s) : OccursIn w s := by
  obtain ⟨a, b, e⟩ := mem_splitOn_sub (List.mem_filter.1 h).1
  have key : ∀ (s a w b : Str), (∀ c ∈ w, c ≠ 32) → (s.map fun c => if isSpace c then 32 else c) = a ++ w ++ b → ∃ a' b', s = a' ++ w ++ b' := by
    intro s a w b hw e
    refine ⟨s.take a.length, s.drop (a.length + w.length), ?_⟩
    have h1 : (s.drop a.length).take w.length = w := by
      have := congrArg (fun l => (l.drop a.length).take w.length) e
      simp only [List.append_assoc, List.drop_left, List.take_left, ← List.map_drop, ← List.map_take] at this
      generalize (s.drop a.length).take w.length = x at this
      clear e
      induction w generalizing x with
      | nil => simpa using this
      | cons c w ih =>
        cases x with
        | nil => simp at this
        | cons d x =>
          rw [List.map_cons] at this
          injection this with h1 h2
          have : d = c := by
            by_cases hd : isSpace d = true
            · rw [if_pos hd] at h1; exact absurd h1.symm (hw c (by simp))
            · rw [if_neg hd] at h1; exact h1
          rw [this, ih (fun y hy => hw y (by simp [hy])) x h2]
    rw [List.append_assoc]
    conv => lhs; rw [← List.take_append_drop a.length s, ← List.take_append_drop w.length (s.drop a.length), h1, List.drop_drop]
  exact key s a w b hw e

/-! ### directives -/

/-- the directives of a policy, in order: the name in lower case, and the value -/
def cspDirectives (policy : Str) : List (Str × Str) :=
  (((splitOn 59 policy).map strip).filter (· != [])).map fun d =>
    (lower (d.takeWhile fun c => !isSpace c), lstrip (d.dropWhile fun c => !isSpace c))

/-- has one of these the same name? -/
def named (n : Str) (ds : List (Str × Str)) : Bool := ds.any fun d => d.1 == n

/-- those directives with the name of none before: these are in force -/
def inForce (ds : List (Str × Str)) : List (Str × Str) := ds.zipIdx.flatMap fun d => if named d.1.1 (ds.take d.2) then [] else [d.1]

/-- the names of the others, which are ignored -/
def repeated (ds : List (Str × Str)) : List Str := ds.zipIdx.flatMap fun d => if named d.1.1 (ds.take d.2) then [d.1.1] else []

theorem zipIdx_prefix {α β} (f : α → List α → List β) (pre ds : List α) :
    ((ds.zipIdx pre.length).flatMap fun d => f d.1 ((pre ++ ds).take d.2)) = match ds with
      | [] => []
      | d :: rest => f d pre ++ ((rest.zipIdx (pre ++ [d]).length).flatMap fun e => f e.1 (((pre ++ [d]) ++ rest).take e.2)) := by
  cases ds with
  | nil => rfl
  | cons d rest =>
    rw [List.zipIdx_cons, List.flatMap_cons]
    dsimp only
    rw [List.take_left, List.length_append, List.append_assoc]
    rfl

theorem directives_loop (pre : List (Str × Str)) (xs : List Str) : ∀ (d : Dict Val) (dups : List Str), (∀ n, dhas d n = named n pre) →
    let ds := ((xs.map strip).filter (· != [])).map fun d => (lower (d.takeWhile fun c => !isSpace c), lstrip (d.dropWhile fun c => !isSpace c))
    csp.directives d dups xs =
      (d ++ ((ds.zipIdx pre.length).flatMap fun d => if named d.1.1 ((pre ++ ds).take d.2) then [] else [d.1]).map (fun e => (e.1, .str e.2)),
       dups ++ (ds.zipIdx pre.length).flatMap fun d => if named d.1.1 ((pre ++ ds).take d.2) then [d.1.1] else []) := by
  induction xs generalizing pre with
  | nil => intro d dups _; simp [csp.directives]
  | cons x xs ih =>
    intro d dups hd
    unfold csp.directives
    dsimp only
    rw [List.map_cons, List.filter_cons]
    by_cases hx : strip x = []
    · rw [hx, if_pos (c := ([] : Str).isEmpty = true) rfl, if_neg (c := (([] : Str) != []) = true) (by simp)]
      exact ih pre d dups hd
    · have hx' : (strip x).isEmpty = false := by cases h : strip x with | nil => exact absurd h hx | cons _ _ => rfl
      rw [hx', if_neg (c := false = true) (by simp), if_pos (c := (strip x != []) = true) (by simpa using hx), List.map_cons]
      unfold splitWord
      dsimp only
      generalize hn : lower ((strip x).takeWhile fun c => !isSpace c) = n
      generalize hv : lstrip ((strip x).dropWhile fun c => !isSpace c) = v
      rw [zipIdx_prefix (fun (e : Str × Str) l => if named e.1 l then [] else [e]), zipIdx_prefix (fun (e : Str × Str) l => if named e.1 l then [e.1] else [])]
      dsimp only
      rw [hd n]
      by_cases hp : named n pre = true
      · rw [if_pos hp, hp, if_pos rfl, if_pos rfl]
        have := ih (pre ++ [(n, v)]) d (dups ++ [n]) (by
          intro k
          rw [hd k]
          unfold named at *
          rw [List.any_append]
          by_cases hk : n = k
          · subst hk; rw [hp]; rfl
          · simp [hk])
        dsimp only at this
        rw [this]
        simp
      · have hp' : named n pre = false := by simpa using hp
        rw [if_neg hp, hp', if_neg (by simp), if_neg (by simp)]
        have := ih (pre ++ [(n, v)]) (d ++ [(n, .str v)]) dups (by
          intro k
          have : dhas (d ++ [(n, Val.str v)]) k = (dhas d k || n == k) := by
            unfold dhas
            rw [List.any_append]; simp
          rw [this, hd k]
          unfold named
          rw [List.any_append]
          simp)
        dsimp only at this
        rw [this]
        simp

theorem directives_eq (p : Str) : csp.directives [] [] (splitOn 59 p) = ((inForce (cspDirectives p)).map (fun e => (e.1, .str e.2)), repeated (cspDirectives p)) := by
  have := directives_loop [] (splitOn 59 p) [] [] (fun n => rfl)
  dsimp only at this
  rw [this]
  rfl

/-! ### what is reported -/

/-- a list of names, in Markdown -/
def mdNames (l : List Str) : Val := .md (join [10] (l.map fun i => str "* `" ++ (i.filter (· != 96)) ++ str "`"))

/-- a sub-note that lists directives, if there are any -/
def listing (X : NoteId) (text : Str) (l : List Str) : List (NoteId × Dict Val) :=
  if l = [] then [] else [(X, [(str "directives_list", mdNames l), (str "report_only_text", .str text)])]

/-- the sub-notes on the policies of a field: `ds` are the directives in force -/
def cspKids (text : Str) (policies : List Str) : List (NoteId × Dict Val) :=
  let ds := policies.flatMap fun p => inForce (cspDirectives p)
  let which (p : Str × Str → Bool) : List Str := (ds.filter p).map (·.1)
  (policies.flatMap fun p => listing .CSP_DUPLICATE_DIRECTIVE text (repeated (cspDirectives p))) ++
  (if ∃ d ∈ ds, d.1 = str "report-uri" then [(.CSP_DEPRECATED_REPORT_URI, [(str "report_only_text", .str text)])] else []) ++
  listing .CSP_WIDE_OPEN text (which fun d => [str "script-src", str "style-src", str "object-src"].contains d.1 && (wordsOf d.2).contains (str "*")) ++
  listing .CSP_UNSAFE_INLINE text (which fun d => isSub (str "'unsafe-inline'") d.2) ++
  listing .CSP_UNSAFE_EVAL text (which fun d => isSub (str "'unsafe-eval'") d.2) ++
  listing .CSP_HTTP_URI text (which fun d => (wordsOf d.2).contains (str "http:"))

/-- what is reported on the policies of a field -/
def cspReports (onlyReport : Bool) (policies : List Str) : List Report :=
  let s : Str := if onlyReport then str " for reporting only" else []
  let text : Str := if onlyReport then str "\n\nBrowsers will only report violations of this policy, not enforce it." else []
  sayIf (policies != [])
    { cls := .CONTENT_SECURITY_POLICY, vars := [(str "report_only", .str s), (str "report_only_text", .str text)], kids := cspKids text policies }

/-- the classes of note on a `Content-Security-Policy` -/
def cspClasses : List NoteId :=
  [.CONTENT_SECURITY_POLICY, .CSP_DUPLICATE_DIRECTIVE, .CSP_DEPRECATED_REPORT_URI, .CSP_WIDE_OPEN, .CSP_UNSAFE_INLINE, .CSP_UNSAFE_EVAL, .CSP_HTTP_URI, .CSP_REPORT_TO_MISSING]

/-- the texts of the model -/
def cspRo (b : Bool) : ReportOnly := if b then cspReportOnly else {}

theorem csp_parse_eq (ro : ReportOnly) (aux : Aux) (p : Str) :
    csp.parse ro aux p = ({ aux with kids := aux.kids ++ listing .CSP_DUPLICATE_DIRECTIVE ro.text (repeated (cspDirectives p)) },
      pure (Val.ofDict ((inForce (cspDirectives p)).map fun e => (e.1, .str e.2)))) := by
  unfold csp.parse
  rw [directives_eq]
  dsimp only
  unfold listing
  cases h : repeated (cspDirectives p) with
  | nil => simp
  | cons a b => rfl

theorem csp_all_eq (ps : List Str) :
    csp.all (.list (ps.map fun p => Val.ofDict ((inForce (cspDirectives p)).map fun e => (e.1, .str e.2)))) = ps.flatMap fun p => inForce (cspDirectives p) := by
  unfold csp.all
  dsimp only
  rw [List.flatMap_map]
  apply flatMap_congr_mem
  intro p _
  rw [Val.entries_ofDict, List.map_map]
  conv => rhs; rw [← List.map_id (inForce (cspDirectives p))]
  apply List.map_congr_left
  intro e _
  rfl

theorem csp_children_eq (ro : ReportOnly) (ps : List Str) :
    (ps.flatMap fun p => listing .CSP_DUPLICATE_DIRECTIVE ro.text (repeated (cspDirectives p))) ++ csp.children ro (ps.flatMap fun p => inForce (cspDirectives p)) = cspKids ro.text ps := by
  unfold csp.children cspKids
  dsimp only
  generalize (ps.flatMap fun p => inForce (cspDirectives p)) = ds
  simp only [List.append_assoc, words_eq]
  apply append_both rfl
  have hl : ∀ (X : NoteId) (l : List Str), (if l.isEmpty = true then [] else [(X, [(str "directives_list", csp.makeList l), (str "report_only_text", Val.str ro.text)])]) = listing X ro.text l := by
    intro X l
    unfold listing
    cases l <;> rfl
  have hh : (ds.filter fun d => (isSub (str "http:") d.2 || isSub (str "http://") d.2) && (wordsOf d.2).contains (str "http:")) = ds.filter fun d => (wordsOf d.2).contains (str "http:") := by
    apply List.filter_congr
    intro d _
    by_cases hw : (wordsOf d.2).contains (str "http:") = true
    · rw [hw]
      have : isSub (str "http:") d.2 = true := isSub_iff.2 (word_occurs (by decide) (by simpa using hw))
      rw [this]; rfl
    · have : (wordsOf d.2).contains (str "http:") = false := by simpa using hw
      rw [this, Bool.and_false]
  apply append_both
  · by_cases h : ∃ d ∈ ds, d.1 = str "report-uri"
    · rw [if_pos h, if_pos (by obtain ⟨d, h1, h2⟩ := h; rw [List.any_eq_true]; exact ⟨d, h1, by rw [h2]; rfl⟩)]
    · rw [if_neg h, if_neg (by intro hh; rw [List.any_eq_true] at hh; obtain ⟨d, h1, h2⟩ := hh; exact h ⟨d, h1, by simpa using h2⟩)]
  · refine append_both (hl _ _) (append_both (hl _ _) (append_both (hl _ _) ?_))
    rw [← hh]
    exact hl _ _

theorem csp_told (add : AddNote) (b : Bool) (hd : Handler) (ps : List Str)
    (hv : hd.value = .list (ps.map fun p => Val.ofDict ((inForce (cspDirectives p)).map fun e => (e.1, .str e.2))))
    (ha : hd.aux.kids = ps.flatMap fun p => listing .CSP_DUPLICATE_DIRECTIVE (cspRo b).text (repeated (cspDirectives p))) :
    Told add (csp.evaluate add (cspRo b) hd) (cspReports b ps) () := by
  unfold csp.evaluate
  rw [ha, hv, csp_all_eq, csp_children_eq]
  cases ps with
  | nil => exact .pure
  | cons p ps =>
    rw [if_neg (by simp [Val.truthy])]
    cases b <;> exact Told.addWith

section
variable {env : Env} {related : Option Msg} {t : Bool} {ls : List Line} {m m' : Msg}

/-- **C77** a response's `Content-Security-Policy` (or the report-only variant), in full: if it has any policies at all, there is one note on the
field, with a sub-note for each policy that repeats a directive (naming those), one if `report-uri` is used, and one for each
unsafe practice that is in force, naming the directives that have it -/
theorem C77_csp (P : Processed env related t ls m m') (hk : m.kind = .response) :
    Reported cspClasses m m' ((namesAmong [.content_security_policy_, .content_security_policy_report_only_] ls).flatMap fun n =>
      (cspReports (decide (classOf n = .content_security_policy_report_only_)) (elementsOf ls n)).map (fieldSubject n, ·)) := by
  have hkl : ∀ text ps, ∀ k ∈ cspKids text ps, (k.2.map (·.1)).Nodup := by
    have hl : ∀ X text l, ∀ k ∈ listing X text l, (k.2.map (·.1)).Nodup := by
      intro X text l k hk
      unfold listing at hk
      split at hk
      · exact absurd hk (by simp)
      · rw [List.mem_singleton] at hk
        subst hk
        show ([str "directives_list", str "report_only_text"] : List Str).Nodup
        decide
    intro text ps k hk
    unfold cspKids at hk
    dsimp only at hk
    simp only [List.mem_append, List.mem_flatMap] at hk
    rcases hk with ((((⟨p, _, hk⟩ | hk) | hk) | hk) | hk) | hk
    · exact hl _ _ _ k hk
    · split at hk
      · rw [List.mem_singleton] at hk; subst hk; simp
      · exact absurd hk (by simp)
    all_goals exact hl _ _ _ k hk
  have hcl : ∀ b ps, ∀ r ∈ cspReports b ps, r.Clean ∧ cspClasses.contains r.cls = true := by
    intro b ps r hr
    obtain ⟨_, rfl⟩ := mem_sayIf.1 hr
    exact ⟨⟨show ([str "report_only", str "report_only_text"] : List Str).Nodup by decide, hkl _ _⟩, rfl⟩
  have hparse : ∀ (b : Bool) (c : Ctx) (add : AddNote) (hd : Handler) v,
      hd.fid = (if b then .content_security_policy_report_only_ else .content_security_policy_) → hd.parse c add v = csp.parse (cspRo b) hd.aux v := by
    intro b c add hd v hf; unfold Handler.parse; rw [hf]; cases b <;> rfl
  have hpt : ∀ (b : Bool) x, parseText ⟨env, m, related⟩ (if b then .content_security_policy_report_only_ else .content_security_policy_) x =
      .ok (Val.ofDict ((inForce (cspDirectives x)).map fun e => (e.1, .str e.2))) := by
    intro b x
    have h1 : parseText ⟨env, m, related⟩ (if b then .content_security_policy_report_only_ else .content_security_policy_) x = (csp.parse (cspRo b) {} x).2.res := by cases b <;> rfl
    rw [h1, csp_parse_eq]
    rfl
  refine P.full_among (fs := [.content_security_policy_, .content_security_policy_report_only_]) (by eval_among) (by rw [hk]; decide) ?_ _ (fun n => hcl _ _) ?_
  · intro n hn h0
    obtain ⟨_, hc⟩ := mem_namesAmong.1 hn
    simp only [List.mem_cons, List.not_mem_nil, or_false] at hc
    rcases hc with hc | hc <;> rw [hc] at h0 <;> unfold valueOf lineValue at h0 <;> exact nomatch h0
  · intro c add hd n hn hdur _ hse hf hv
    obtain ⟨hn0, hc⟩ := mem_namesAmong.1 hn
    obtain ⟨b, hb, hb'⟩ : ∃ b : Bool, classOf n = (if b then .content_security_policy_report_only_ else .content_security_policy_) ∧
        decide (classOf n = .content_security_policy_report_only_) = b := by
      simp only [List.mem_cons, List.not_mem_nil, or_false] at hc
      rcases hc with hc | hc
      · exact ⟨false, hc, by rw [hc]; decide⟩
      · exact ⟨true, hc, by rw [hc]; decide⟩
    rw [hb']
    have hkind : (classOf n).info.kind = .list := by rw [hb]; cases b <;> rfl
    have hev : (hd.evaluate c add).2 = csp.evaluate add (cspRo b) hd := by
      unfold Handler.evaluate; rw [hf, hb]; cases b <;> rfl
    rw [hev]
    refine (csp_told add b hd (elementsOf ls n) ?_ ?_).notes
    · rw [hv, valueOf_list hkind (fun x => Val.ofDict ((inForce (cspDirectives x)).map fun e => (e.1, .str e.2))) (by rw [hb]; exact hpt b)]
      unfold elementsOf
      rw [List.map_map]
      rfl
    · have := list_aux (t := t) (m := m) (env := env) (related := related) (c := c) hn0 rfl hkind hdur.env
        (fun aux p => { aux with kids := aux.kids ++ listing .CSP_DUPLICATE_DIRECTIVE (cspRo b).text (repeated (cspDirectives p)) })
        (fun x => ⟨_, by rw [hb]; exact hpt b x⟩) (fun add h v hf => by rw [hparse b _ _ _ _ (hf.trans hb), csp_parse_eq])
      have e : hd = (evalSetup m t c related ls n).2 := congrArg Prod.snd hse
      rw [e, this]
      have key : ∀ (es : List Str) (aux : Aux), (es.foldl (fun (aux : Aux) p => { aux with kids := aux.kids ++ listing .CSP_DUPLICATE_DIRECTIVE (cspRo b).text (repeated (cspDirectives p)) }) aux).kids =
          aux.kids ++ es.flatMap fun p => listing .CSP_DUPLICATE_DIRECTIVE (cspRo b).text (repeated (cspDirectives p)) := by
        intro es
        induction es with
        | nil => intro aux; simp
        | cons x xs ih =>
          intro aux
          rw [List.foldl_cons, ih, List.flatMap_cons, List.append_assoc]
      rw [key]
      rfl

end

end HL.Props
