import Verif.Props.CacheControlThm
import Verif.Props.HopEx

/-!
# Fields that can be removed (C107)
-/

namespace HL.Props
open HL.F Syntax

/-- the fields that tell only about the server's implementation -/
def revealingNames : List Str := [str "x-aspnet-version", str "x-aspnetmvc-version", str "x-powered-by", str "x-generator", str "x-drupal-cache",
  str "x-varnish", str "x-mod-pagespeed", str "x-pingback", str "x-runtime", str "x-rack-cache", str "x-content-encoded-by", str "x-backend-server"]

/-- can a field with this name be removed from a message of this kind? (`TCN` is only known in responses.) -/
def Removable (kind : MsgKind) (name : Str) : Prop := lower name ∈ revealingNames ∨ (lower name = str "tcn" ∧ kind = .response)

instance : Decidable (Removable k n) := by unfold Removable; infer_instance

theorem class_tcn (name : Str) : classOf name = .tcn_ ↔ lower name = str "tcn" := by
  constructor
  · intro h
    unfold classOf findHandlerClass at h
    cases hm : findModule name with
    | some f =>
      rw [hm] at h
      cases h
      unfold findModule at hm
      dsimp only at hm
      split at hm
      · cases hm
      · have h1 : unalias (nameToken name) = str "tcn" := by
          have hk : ∀ p ∈ parserModules, p.2 = .tcn_ → p.1 = str "tcn" := by decide +kernel
          exact hk _ (dget_mem hm) rfl
        have h2 : nameToken name = str "tcn" := by
          unfold unalias at h1
          cases ha : dget fieldAliases (nameToken name) with
          | none => rw [ha] at h1; exact h1
          | some v =>
            rw [ha] at h1
            have hk : ∀ p ∈ fieldAliases, p.2 ≠ str "tcn" := by decide +kernel
            exact absurd h1 (hk _ (dget_mem ha))
        rw [nameToken_eq] at h2
        have : (lower name).map (fun c => if c = 45 then 95 else c) = str "tcn" := h2
        match hl : lower name, this with
        | [], e => cases e
        | [a], e => simp at e
        | [a, b], e => simp at e
        | a :: b :: c :: d :: r, e => simp at e
        | [a, b, c], e =>
          have he : [if a = 45 then 95 else a, if b = 45 then 95 else b, if c = 45 then 95 else c] = [116, 99, 110] := e
          simp only [List.cons.injEq, and_true] at he
          obtain ⟨e1, e2, e3⟩ := he
          have : ∀ x y : Nat, (if x = 45 then 95 else x) = y → y ≠ 95 → x = y := by
            intro x y h hy; split at h
            · exact absurd h.symm hy
            · exact h
          rw [this _ _ e1 (by decide), this _ _ e2 (by decide), this _ _ e3 (by decide)]
    | none =>
      rw [hm] at h
      dsimp only at h
      split at h
      · cases h
      · split at h <;> cases h
  · intro h
    rw [classOf_lower (b := str "tcn") (by rw [h]; decide +kernel)]
    decide +kernel

theorem class_unnecessary (name : Str) : classOf name = .unnecessaryField ↔ lower name ∈ revealingNames := by
  constructor
  · intro h
    unfold classOf findHandlerClass at h
    cases hm : findModule name with
    | some f =>
      rw [hm] at h
      cases h
      unfold findModule at hm
      dsimp only at hm
      split at hm
      · cases hm
      · have hk : ∀ p ∈ parserModules, p.2 ≠ .unnecessaryField := by decide +kernel
        exact absurd rfl (hk _ (dget_mem hm))
    | none =>
      rw [hm] at h
      dsimp only at h
      split at h
      · cases h
      · split at h
        · rename_i hc
          exact List.contains_iff_mem.mp hc
        · cases h
  · intro h
    have hk : ∀ n ∈ revealingNames, lower n = n ∧ classOf n = .unnecessaryField := by decide +kernel
    rw [classOf_lower (hk _ h).1.symm]
    exact (hk _ h).2

/-- **C107**: each element of each line of a field that can be removed is reported, where it is, and nothing else is. -/
theorem C107_unnecessary {env : Env} {related : Option Msg} {t : Bool} {ls : List Line} {m m' : Msg} (hm : Linting env m)
    (hnew : (m.section t).handlers = []) (h : processSection env related t ls m = (m', .ok ())) :
    AddedAbout .UNNECESSARY_HEADER m m' (((numbered m.kind 0 ls).filter fun p => Removable m.kind (decodeName p.2.1)).flatMap fun p =>
      (lineElements p.2.2).map fun _ => offsetSubject p.1) := by
  have hp : ∀ g, g ≠ .tcn_ → g ≠ .unnecessaryField → (parseOwn g).contains .UNNECESSARY_HEADER = false := by
    intro g; cases g <;> first | (intro _ _; rfl) | (intro a b; exact absurd rfl a) | (intro a b; exact absurd rfl b)
  have he : ∀ g, (evalOwn g).contains .UNNECESSARY_HEADER = false := by intro g; cases g <;> rfl
  obtain ⟨added, ctx, e, hd, ht⟩ := section_ofClass .UNNECESSARY_HEADER rfl hm hnew h
  refine ⟨added, e, ?_⟩
  rw [ht]
  have h1 : ((namesOf ls).flatMap fun n => if okName m.kind n then
        (((finishParse ⟨env, m, related⟩ (classOf n) (fieldSubject n) (sent m.kind n ls)).filter (·.1 == .UNNECESSARY_HEADER)).map (·.2)) ++
        (ofClass .UNNECESSARY_HEADER (evalNotes (ctx n) (evalSetup m t (ctx n) related ls n).1 (evalSetup m t (ctx n) related ls n).2)).map (·.subject) else []) = [] := by
    rw [flatMap_congr_mem (g := fun _ => []) (fun n hn => ?_)]
    · simp
    · rw [evalNotes_own _ _ _ (by rw [evalSetup_fid hn]; exact evalSetup_aux hn) (he _), List.map_nil, List.append_nil]
      by_cases hf : classOf n = .tcn_
      · unfold finishParse; rw [hf]; split <;> rfl
      · by_cases hg : classOf n = .unnecessaryField
        · unfold finishParse; rw [hg]; split <;> rfl
        · rw [finishParse_own (hp _ hf hg)]; split <;> rfl
  rw [h1, List.append_nil, flatMap_filter_if]
  refine flatMap_congr_mem fun p _ => ?_
  have one : ∀ f, (f = .tcn_ ∨ f = .unnecessaryField) → ∀ vs : List Str,
      (countOf .UNNECESSARY_HEADER (vs.flatMap fun v => parseNotes ⟨env, m, related⟩ f (strip v))).map (fun _ => offsetSubject p.1) =
        (vs.map strip).map fun _ => offsetSubject p.1 := by
    intro f hf vs
    have hn : ∀ v, parseNotes ⟨env, m, related⟩ f v = [.UNNECESSARY_HEADER] := by
      intro v; rcases hf with rfl | rfl <;> rfl
    induction vs with
    | nil => rfl
    | cons v vs ih =>
      rw [List.flatMap_cons, List.map_cons, List.map_cons, ← ih, hn]
      rfl
  by_cases hf : classOf (decodeName p.2.1) = .tcn_
  · have hl := (class_tcn _).mp hf
    have ha : accepted m.kind p.2 = FieldId.validIn .tcn_ m.kind := okName_class hf (by decide)
    unfold lineField
    rw [ha]
    cases hk : m.kind with
    | request =>
      have : ¬ Removable .request (decodeName p.2.1) := by
        unfold Removable; rw [hl]
        rintro (h | h)
        · exact absurd h (by decide +kernel)
        · cases h.2
      rw [decide_eq_false this]; rfl
    | response =>
      rw [decide_eq_true (p := Removable .response (decodeName p.2.1)) (Or.inr ⟨hl, rfl⟩), if_pos rfl]
      show (countOf _ (elementField _ _ _)).map _ = _
      rw [hf]
      exact one _ (Or.inl rfl) _
  · by_cases hg : classOf (decodeName p.2.1) = .unnecessaryField
    · have hl := (class_unnecessary _).mp hg
      have ha : accepted m.kind p.2 = true := by
        have : accepted m.kind p.2 = FieldId.validIn .unnecessaryField m.kind := okName_class hg (by decide)
        rw [this]; cases m.kind <;> rfl
      rw [decide_eq_true (p := Removable m.kind (decodeName p.2.1)) (Or.inl hl), if_pos rfl]
      unfold lineField
      rw [ha]
      show (countOf _ (elementField _ _ _)).map _ = _
      rw [hg]
      exact one _ (Or.inr rfl) _
    · rw [countOf_lineField (hp _ hf hg)]
      have : ¬ Removable m.kind (decodeName p.2.1) := by
        rintro (h | h)
        · exact hg ((class_unnecessary _).mpr h)
        · exact hf ((class_tcn _).mpr h.1)
      rw [decide_eq_false this]; rfl

example : outcome toyEnv [(str "Via", str "1.1 a"), (str "X-Powered-By", str "PHP, ASP"), (str "tcn", str "list"), (str "x-runtime", str "1")] =
    (true, [(.UNNECESSARY_HEADER, str "offset-1", []), (.UNNECESSARY_HEADER, str "offset-1", []), (.UNNECESSARY_HEADER, str "offset-2", []),
      (.UNNECESSARY_HEADER, str "offset-3", []), (.VIA_PRESENT, str "field-via", [])]) := by decide +kernel

example : requestOutcome toyEnv [(str "tcn", str "list"), (str "X-Runtime", str "1")] =
    (true, [(.RESPONSE_HDR_IN_REQUEST, str "offset-0"), (.UNNECESSARY_HEADER, str "offset-0")]) := by decide +kernel

end HL.Props
