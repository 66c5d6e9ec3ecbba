import Verif.Props.Basic
import Verif.Section

/-!
# C23: finding the handler class of a field name
-/

namespace HL.Props

theorem lowerC_lowerC (c : Nat) : lowerC (lowerC c) = lowerC c := by
  unfold lowerC
  by_cases h : ((65 ≤ c && c ≤ 90) || (192 ≤ c && c ≤ 222 && c != 215)) = true
  · rw [if_pos h]
    simp only [Bool.or_eq_true, Bool.and_eq_true, decide_eq_true_eq, bne_iff_ne, ne_eq] at h
    rw [if_neg]
    simp only [Bool.or_eq_true, Bool.and_eq_true, decide_eq_true_eq, bne_iff_ne, ne_eq]
    omega
  · rw [if_neg h, if_neg h]

theorem lower_lower (s : Str) : lower (lower s) = lower s := by
  simp [lower, lowerC_lowerC]

/-- replacing hyphens commutes with lower-casing -/
theorem lowerC_dash (c : Nat) : lowerC (if c = 45 then 95 else c) = if lowerC c = 45 then 95 else lowerC c := by
  by_cases h : c = 45
  · subst h; rfl
  · rw [if_neg h, if_neg]
    unfold lowerC
    split
    · rename_i h2
      simp only [Bool.or_eq_true, Bool.and_eq_true, decide_eq_true_eq, bne_iff_ne, ne_eq] at h2
      omega
    · exact h

theorem nameToken_eq (s : Str) : nameToken s = (lower s).map fun c => if c = 45 then 95 else c := by
  unfold nameToken lower
  simp only [List.map_map]
  congr 1
  funext c
  exact lowerC_dash c

theorem findHandlerClass_lower (s : Str) : findHandlerClass (lower s) = findHandlerClass s := by
  unfold findHandlerClass findModule
  simp only [nameToken_eq, lower_lower]

/-! ### names with surrounding white space -/

theorem isSpace_lowerC (c : Nat) : isSpace c = true → lowerC c = c := by
  unfold isSpace lowerC
  intro h
  rw [if_neg]
  simp only [Bool.or_eq_true, Bool.and_eq_true, decide_eq_true_eq, beq_iff_eq, bne_iff_ne, ne_eq] at *
  omega

/-- does any character of the string count as white space? -/
def hasSpace (s : Str) : Bool := s.any isSpace

theorem dropWhile_eq_self {α} {p : α → Bool} {l : List α} (h : ∀ x ∈ l, p x = false) : l.dropWhile p = l := by
  cases l with
  | nil => rfl
  | cons a l => rw [List.dropWhile_cons_of_neg]; rw [h a (List.mem_cons_self ..)]; simp

theorem strip_of_no_space {s : Str} (h : hasSpace s = false) : strip s = s := by
  have h' : ∀ x ∈ s, isSpace x = false := by
    unfold hasSpace at h
    rw [List.any_eq_false] at h
    intro x hx
    simpa using h x hx
  unfold strip lstrip rstrip
  rw [dropWhile_eq_self h', dropWhile_eq_self (by simpa using h'), List.reverse_reverse]

theorem hasSpace_token {s : Str} (h : hasSpace s = true) : hasSpace (nameToken s) = true := by
  unfold hasSpace at *
  rw [List.any_eq_true] at *
  obtain ⟨x, hx, hs⟩ := h
  refine ⟨x, ?_, hs⟩
  rw [nameToken_eq]
  simp only [lower, List.mem_map]
  refine ⟨_, ⟨x, hx, rfl⟩, ?_⟩
  rw [isSpace_lowerC x hs, if_neg]
  rintro rfl
  exact absurd hs (by decide)

theorem hasSpace_lower {s : Str} (h : hasSpace s = true) : hasSpace (lower s) = true := by
  unfold hasSpace at *
  rw [List.any_eq_true] at *
  obtain ⟨x, hx, hs⟩ := h
  exact ⟨x, by simp only [lower, List.mem_map]; exact ⟨x, hx, isSpace_lowerC x hs⟩, hs⟩

theorem dget_none_of {β} {d : Dict β} {k : Str} (hd : d.all (fun p => !hasSpace p.1) = true) (hk : hasSpace k = true) :
    dget d k = none := by
  rw [dget_eq_none]
  intro h
  obtain ⟨p, hp, rfl⟩ := List.mem_map.1 h
  have := (List.all_eq_true.1 hd) p hp
  rw [hk] at this
  exact nomatch this

theorem any_false_of {α} {d : List α} {f : α → Str} {k : Str} (hd : d.all (fun p => !hasSpace (f p)) = true) (hk : hasSpace k = true) :
    d.any (fun p => f p == k) = false := by
  rw [List.any_eq_false]
  intro p hp h
  have := (List.all_eq_true.1 hd) p hp
  rw [beq_iff_eq.1 h, hk] at this
  exact nomatch this

/-- a name containing white space has no handler class -/
theorem findHandlerClass_space {s : Str} (h : hasSpace s = true) : findHandlerClass s = none := by
  have h1 : findModule s = none := by
    unfold findModule
    dsimp only
    split
    · rfl
    · unfold unalias
      rw [dget_none_of (by decide +kernel) (hasSpace_token h)]
      exact dget_none_of (by decide +kernel) (hasSpace_token h)
  unfold findHandlerClass
  rw [h1]
  dsimp only
  have h3 : (deprecatedTable.any fun p => p.1 == lower s) = false :=
    any_false_of (d := deprecatedTable) (f := fun p => p.1) (by decide +kernel) (hasSpace_lower h)
  rw [h3]
  have h2 : unnecessaryNames.contains (lower s) = false := by
    have := any_false_of (d := unnecessaryNames) (f := id) (k := lower s) (by decide +kernel) (hasSpace_lower h)
    rw [← Bool.not_eq_true, List.contains_iff_mem]
    intro hm
    rw [List.any_eq_false] at this
    exact this _ hm (by simp)
  rw [h2]
  rfl

end HL.Props
