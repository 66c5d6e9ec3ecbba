import Verif.Descriptions
import Verif.Props.Lookup
import Verif.Props.Grammar
import Verif.Props.Handlers

/-!
# Descriptions of fields (C110)
-/

namespace HL.Props

theorem strip_lower_of {name key : Str} (h : lower name = key) (hk : strip key = key) : lower (strip name) = key := by
  rw [← strip_lower, h, hk]

/-- the entry of a name in the table of deprecated fields -/
theorem deprecated_entry {name : Str} (h : (deprecatedTable.any fun p => p.1 == lower name) = true) :
    ∃ p, p ∈ deprecatedTable ∧ p.1 = lower name ∧ deprecatedTable.find? (fun p => p.1 == lower (strip name)) = some p := by
  obtain ⟨q, hq, e⟩ := List.any_eq_true.mp h
  rw [beq_iff_eq] at e
  have hs : deprecatedTable.all (fun p => strip p.1 == p.1) = true := by decide +kernel
  have h1 : strip q.1 = q.1 := beq_iff_eq.mp (List.all_eq_true.mp hs q hq)
  rw [e] at h1
  rw [← strip_lower, h1]
  cases hf : deprecatedTable.find? (fun p => p.1 == lower name) with
  | none => exact absurd (beq_iff_eq.mpr e) (by simpa using List.find?_eq_none.mp hf q hq)
  | some p => 
    have hp := List.find?_some hf
    exact ⟨p, List.mem_of_find?_eq_some hf, beq_iff_eq.mp hp, rfl⟩

theorem unnecessary_entry {name : Str} (h : unnecessaryNames.contains (lower name) = true) :
    ∃ d, (lower name, d) ∈ unnecessaryDescriptions ∧ d ≠ [] ∧ dget unnecessaryDescriptions (lower (strip name)) = some d := by
  have hm := List.contains_iff_mem.mp h
  have hs : unnecessaryNames.all (fun k => strip k == k && unnecessaryDescriptions.any fun p => p.1 == k && !p.2.isEmpty && dget unnecessaryDescriptions k == some p.2) = true := by
    decide +kernel
  have := List.all_eq_true.mp hs _ hm
  rw [Bool.and_eq_true, beq_iff_eq] at this
  obtain ⟨h1, h2⟩ := this
  obtain ⟨p, hp, h3⟩ := List.any_eq_true.mp h2
  rw [Bool.and_eq_true, Bool.and_eq_true, beq_iff_eq, beq_iff_eq] at h3
  obtain ⟨⟨h3, h4⟩, h5⟩ := h3
  refine ⟨p.2, by rw [← h3]; exact hp, ?_, ?_⟩
  · intro e; rw [e] at h4; cases h4
  · rw [← strip_lower, h1]; exact h5

theorem class_described {f : FieldId} (h1 : f ≠ .deprecatedField) (h2 : f ≠ .unnecessaryField) : f.description.isEmpty = false := by
  cases f <;> first | exact absurd rfl h1 | exact absurd rfl h2 | rfl

/-- **C110** (which description): the description of a name that a field class is found for is that class's own; of a deprecated field's
name (for which there is no class) it names the field, in its usual spelling, and its reference; of a name of a field that can be removed it is the
one listed; of any other name there is none.  In each case it is translated, and nothing is raised. -/
theorem C110_description (translate : Str → Str) (name : Str) :
    (∃ f, findHandlerClass name = some f ∧ f ≠ .deprecatedField ∧ f ≠ .unnecessaryField ∧ f.description ≠ [] ∧
        getFieldDescription translate name = .ok (some (translate f.description))) ∨
    (findHandlerClass name = some .deprecatedField ∧ ∃ p ∈ deprecatedTable, p.1 = lower name ∧
        getFieldDescription translate name = .ok (some (translate (str "The " ++ p.2.1 ++
          str " field is deprecated; it is not actively used by HTTP software.\nIt is safe to remove it from this message. For more information, see [here](" ++
          p.2.2.2 ++ str ").")))) ∨
    (findHandlerClass name = some .unnecessaryField ∧ ∃ d, (lower name, d) ∈ unnecessaryDescriptions ∧ d ≠ [] ∧
        getFieldDescription translate name = .ok (some (translate d))) ∨
    (findHandlerClass name = none ∧ getFieldDescription translate name = .ok none) := by
  unfold getFieldDescription
  cases h : findHandlerClass name with
  | none => exact .inr (.inr (.inr ⟨rfl, rfl⟩))
  | some f =>
    by_cases h1 : f = .deprecatedField
    · subst h1
      refine .inr (.inl ⟨rfl, ?_⟩)
      have hd : (deprecatedTable.any fun p => p.1 == lower name) = true := by
        unfold findHandlerClass at h
        split at h
        · rename_i g hg
          cases h
          unfold findModule at hg
          dsimp only at hg
          split at hg
          · cases hg
          · have ht : parserModules.all (fun p => p.2 != FieldId.deprecatedField) = true := by decide +kernel
            have := List.all_eq_true.mp ht _ (dget_mem hg)
            cases this
        · split at h
          · assumption
          · split at h <;> cases h
      obtain ⟨p, hp, e, hf⟩ := deprecated_entry hd
      refine ⟨p, hp, e, ?_⟩
      obtain ⟨k, canon, cat, ref⟩ := p
      dsimp only
      have : handlerDescription .deprecatedField name = .ok (deprecatedDescription canon ref) := by
        unfold handlerDescription
        dsimp only
        rw [hf]
      rw [this]
      rfl
    · by_cases h2 : f = .unnecessaryField
      · subst h2
        refine .inr (.inr (.inl ⟨rfl, ?_⟩))
        have hd : unnecessaryNames.contains (lower name) = true := by
          unfold findHandlerClass at h
          split at h
          · rename_i g hg
            cases h
            unfold findModule at hg
            dsimp only at hg
            split at hg
            · cases hg
            · have ht : parserModules.all (fun p => p.2 != FieldId.unnecessaryField) = true := by decide +kernel
              have := List.all_eq_true.mp ht _ (dget_mem hg)
              cases this
          · split at h
            · cases h
            · split at h
              · assumption
              · cases h
        obtain ⟨d, hm, hn, he⟩ := unnecessary_entry hd
        refine ⟨d, hm, hn, ?_⟩
        dsimp only
        have : handlerDescription .unnecessaryField name = .ok d := by
          unfold handlerDescription
          dsimp only
          rw [he]; rfl
        rw [this]
        show Except.ok (if d.isEmpty = true then none else some (translate d)) = _
        rw [if_neg]
        intro e
        exact hn (List.isEmpty_iff.mp e)
      · have hc := class_described h1 h2
        refine .inl ⟨f, rfl, h1, h2, (fun e => by rw [e] at hc; cases hc), ?_⟩
        have : handlerDescription f name = .ok f.description := by
          unfold handlerDescription
          split
          · exact absurd rfl h1
          · exact absurd rfl h2
          · rfl
        dsimp only
        rw [this]
        dsimp only
        rw [hc]; rfl

/-- **C110** (none): there is no description exactly when there is no class for the name -/
theorem C110_none (translate : Str → Str) (name : Str) : getFieldDescription translate name = .ok none ↔ findHandlerClass name = none := by
  rcases C110_description translate name with ⟨f, h, _, _, _, e⟩ | ⟨h, p, _, _, e⟩ | ⟨h, d, _, _, e⟩ | ⟨h, e⟩
  · rw [h, e]; constructor <;> intro h <;> cases h
  · rw [h, e]; constructor <;> intro h <;> cases h
  · rw [h, e]; constructor <;> intro h <;> cases h
  · exact ⟨fun _ => h, fun _ => e⟩

/-- **C110** (any case): the case of the name does not matter -/
theorem C110_any_case (translate : Str → Str) (a b : Str) (h : lower a = lower b) : getFieldDescription translate a = getFieldDescription translate b := by
  have hs : lower (strip a) = lower (strip b) := by rw [← strip_lower, h, strip_lower]
  unfold getFieldDescription handlerDescription
  rw [C23_case_insensitive a b h, hs]

/-- a field, an unregistered spelling of it, a deprecated one, one that can be removed, and an unknown one -/
example : getFieldDescription id (str "AGE") = getFieldDescription id (str "Age") ∧
    getFieldDescription id (str "x-xss-protection") = .ok (some (str "The X-XSS-Protection field is deprecated; it is not actively used by HTTP software.\nIt is safe to remove it from this message. For more information, see [here](https://developer.mozilla.org/en-US/docs/Web/HTTP/Reference/Headers/X-XSS-Protection).")) ∧
    getFieldDescription id (str "X-Varnish") = .ok (some (str "x-varnish reveals Varnish caching information.")) ∧
    getFieldDescription id (str "X-Frobnicate") = .ok none :=
  ⟨C110_any_case id _ _ (by decide), by kernel_rfl, by kernel_rfl, (C110_none _ _).mpr (by decide +kernel)⟩

end HL.Props
