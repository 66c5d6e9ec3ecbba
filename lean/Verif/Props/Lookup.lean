import Verif.Props.Finder
import Verif.Props.Toy

/-!
# C23: handler lookup

`find_handler_class(name)` (field/finder.py:46-62) on every field name.
-/

namespace HL.Props

/-- the name, in lower case, with `_` for `-`: what a parser module is called (finder.py:85-95) -/
def moduleNameOf (name : Str) : Str := (lower name).map fun c => if c = 45 then 95 else c

/-- **C23**, first sentence: the class depends only on the name's lower case. -/
theorem C23_case_insensitive (a b : Str) (h : lower a = lower b) : findHandlerClass a = findHandlerClass b := by
  rw [← findHandlerClass_lower a, ← findHandlerClass_lower b, h]

/-- two different spellings of one name -/
example : lower (str "ETag") = lower (str "eTAG") ∧ str "ETag" ≠ str "eTAG" := by decide

/-- **C23**: every registered class that declares a canonical name is found under that name in any letter case. -/
theorem C23_canonical (m : Str) (f : FieldId) (hf : (m, f) ∈ parserModules) (cn : Str) (hc : f.info.canonicalName = some cn)
    (name : Str) (hn : lower name = lower cn) : findHandlerClass name = some f := by
  rw [C23_case_insensitive name cn hn]
  have : parserModules.all (fun p => match p.2.info.canonicalName with | none => true | some c => findHandlerClass c == some p.2) = true := by
    decide +kernel
  have h := (List.all_eq_true.1 this) _ hf
  rw [hc] at h
  exact beq_iff_eq.1 h

example : ((str "etag"), FieldId.etag_) ∈ parserModules ∧ FieldId.etag_.info.canonicalName = some (str "ETag") := by decide +kernel

/-- **C23**, last sentence: a name with no module, no alias, no deprecation and no unnecessary entry has no class. -/
theorem C23_unknown (name : Str) (h1 : ∀ p ∈ parserModules, p.1 ≠ moduleNameOf name) (h2 : ∀ p ∈ fieldAliases, p.1 ≠ moduleNameOf name)
    (h3 : ∀ p ∈ deprecatedTable, p.1 ≠ lower name) (h4 : lower name ∉ unnecessaryNames) : findHandlerClass name = none := by
  have hm : findModule name = none := by
    unfold findModule
    dsimp only
    split
    · rfl
    · unfold unalias
      rw [nameToken_eq]
      have ha : dget fieldAliases (moduleNameOf name) = none := by
        rw [dget_eq_none]
        intro h
        obtain ⟨p, hp, e⟩ := List.mem_map.1 h
        exact h2 p hp e
      have hb : dget parserModules (moduleNameOf name) = none := by
        rw [dget_eq_none]
        intro h
        obtain ⟨p, hp, e⟩ := List.mem_map.1 h
        exact h1 p hp e
      unfold moduleNameOf at ha hb
      rw [ha]
      exact hb
  unfold findHandlerClass
  rw [hm]
  have hd : (deprecatedTable.any fun p => p.1 == lower name) = false := by
    rw [List.any_eq_false]
    intro p hp h
    exact h3 p hp (beq_iff_eq.1 h)
  have hu : unnecessaryNames.contains (lower name) = false := by
    rw [← Bool.not_eq_true, List.contains_iff_mem]
    exact h4
  simp only [hd, hu, Bool.false_eq_true, if_false]

example : findHandlerClass (str "X-Frobnicate") = none := by decide +kernel

/-- a name that has a module but no canonical class problem: the converse, a module, deprecation or
unnecessary entry always yields a class -/
theorem C23_known (name : Str) (h0 : (moduleNameOf name).head? ≠ some 95)
    (h : (moduleNameOf name) ∈ parserModules.map (·.1) ∨ lower name ∈ deprecatedTable.map (·.1) ∨ lower name ∈ unnecessaryNames)
    (hal : ∀ p ∈ fieldAliases, p.1 ≠ moduleNameOf name) : findHandlerClass name ≠ none := by
  unfold findHandlerClass findModule unalias
  simp only [nameToken_eq]
  change (match (if (moduleNameOf name).head? = some 95 then none else dget parserModules ((dget fieldAliases (moduleNameOf name)).getD (moduleNameOf name))) with | some f => some f | none => _) ≠ none
  have ha : dget fieldAliases (moduleNameOf name) = none := by
    rw [dget_eq_none]
    intro h
    obtain ⟨p, hp, e⟩ := List.mem_map.1 h
    exact hal p hp e
  rw [ha, if_neg h0]
  dsimp only [Option.getD]
  cases hd : dget parserModules (moduleNameOf name) with
  | some f => intro e; exact nomatch e
  | none =>
    rw [dget_eq_none] at hd
    rcases h with h | h | h
    · exact absurd h hd
    · have : (deprecatedTable.any fun p => p.1 == lower name) = true := by
        rw [List.any_eq_true]
        obtain ⟨p, hp, e⟩ := List.mem_map.1 h
        exact ⟨p, hp, beq_iff_eq.2 e⟩
      simp only [this, if_true]
      intro e; exact nomatch e
    · have : unnecessaryNames.contains (lower name) = true := by rw [List.contains_iff_mem]; exact h
      simp only [this, if_true]
      split <;> (intro e; exact nomatch e)

example : (moduleNameOf (str "X-Pad")) ∈ parserModules.map (·.1) := by decide +kernel

/-- **C23**, second sentence, for the aliases that contain no hyphen and do not start with an underscore: every name
whose lower case is the alias resolves to the class of the alias's target. -/
theorem C23_aliases_partial (a t : Str) (f : FieldId) (ha : (a, t) ∈ fieldAliases) (hh : 45 ∉ a) (hu : a.head? ≠ some 95)
    (hf : dget parserModules t = some f) (name : Str) (hn : lower name = a) : findHandlerClass name = some f := by
  have key : fieldAliases.all (fun p => p.1.contains 45 || p.1.head? == some 95 ||
      (match dget parserModules p.2 with | none => true | some f => findHandlerClass p.1 == some f)) = true := by decide +kernel
  have h := (List.all_eq_true.1 key) _ ha
  have h45 : a.contains 45 = false := by
    rw [← Bool.not_eq_true, List.contains_iff_mem]; exact hh
  have hu' : (a.head? == some 95) = false := by
    rw [← Bool.not_eq_true, beq_iff_eq]; exact hu
  simp only [h45, hu', hf, Bool.false_or] at h
  have hla : lower a = a := by rw [← hn, lower_lower]
  rw [C23_case_insensitive name a (by rw [hn, hla])]
  exact beq_iff_eq.1 h

/-- the aliases this covers, and that they do have a class -/
example : (fieldAliases.filter fun p => !(p.1.contains 45 || p.1.head? == some 95)).map (fun p => (dget parserModules p.2).isSome) ≠ [] ∧
    (fieldAliases.filter fun p => !(p.1.contains 45 || p.1.head? == some 95)).all (fun p => (dget parserModules p.2).isSome) = true := by
  decide +kernel

/-- The full statement is false of the code: aliases with a hyphen (the lookup has replaced hyphens by underscores) and
`_onnection` (names that start with an underscore have no module) are never found. -/
theorem C23_aliases_violated : ¬ ∀ p ∈ fieldAliases, ∀ name, lower name = p.1 → ∃ f, findHandlerClass name = some f := by
  intro h
  have hm : (str "_onnection") ∈ fieldAliases.map (·.1) := by decide +kernel
  obtain ⟨p, hp, e⟩ := List.mem_map.1 hm
  obtain ⟨f, hf⟩ := h p hp (str "_onnection") (by rw [e]; decide)
  have : findHandlerClass (str "_onnection") = none := by decide +kernel
  rw [this] at hf
  exact nomatch hf

end HL.Props
