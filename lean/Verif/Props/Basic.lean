import Verif.Message

/-!
# Lemmas about dictionaries and notes used by the proofs
-/

namespace HL.Props

instance {ε α} [DecidableEq ε] [DecidableEq α] : DecidableEq (Except ε α)
  | .ok a, .ok b => if h : a = b then isTrue (by rw [h]) else isFalse (by simpa using h)
  | .error a, .error b => if h : a = b then isTrue (by rw [h]) else isFalse (by simpa using h)
  | .ok _, .error _ => isFalse (by simp)
  | .error _, .ok _ => isFalse (by simp)

/-- no key occurs twice: what a Python dict guarantees -/
def UniqueKeys {β} (d : Dict β) : Prop := (d.map (·.1)).Nodup

theorem UniqueKeys.dset {β} {d : Dict β} (h : UniqueKeys d) (k : Str) (v : β) : UniqueKeys (dset d k v) := by
  unfold UniqueKeys at *
  rw [keys_dset]
  by_cases hk : dhas d k = true
  · simpa [hk] using h
  · simp only [hk, Bool.false_eq_true, if_false]
    have : k ∉ d.map (·.1) := fun hm => hk ((dhas_iff_mem_keys d k).2 hm)
    rw [List.nodup_append]
    refine ⟨h, by simp, ?_⟩
    intro a ha b hb hab
    simp at hb
    exact this (hb ▸ hab ▸ ha)

theorem UniqueKeys.dupdate {β} {d : Dict β} (h : UniqueKeys d) (e : Dict β) : UniqueKeys (dupdate d e) := by
  induction e generalizing d with
  | nil => exact h
  | cons p e ih => exact ih (h.dset p.1 p.2)

theorem UniqueKeys.nil {β} : UniqueKeys ([] : Dict β) := by simp [UniqueKeys]

theorem dget_eq_none {β} {d : Dict β} {k : Str} : dget d k = none ↔ k ∉ d.map (·.1) := by
  rw [← dhas_iff_mem_keys, ← dget_isSome]
  cases dget d k <;> simp

theorem dget_reverse {β} {d : Dict β} (h : UniqueKeys d) (k : Str) : dget d.reverse k = dget d k := by
  induction d with
  | nil => rfl
  | cons p d ih =>
    have hc : p.1 ∉ d.map (·.1) ∧ UniqueKeys d := by simpa [UniqueKeys] using h
    rw [List.reverse_cons, dget_append, ih hc.2, dget_cons, dget_cons]
    by_cases hk : p.1 = k
    · have : dget d k = none := dget_eq_none.2 (hk ▸ hc.1)
      simp [hk, this]
    · simp [hk]

/-- the variables of a note added through an `add_note` bound without variables -/
theorem dget_mk1_nobase {a : AddNote} (h : a.base = []) (cls vrs cat) (k : Str) :
    dget (a.mk1 cls vrs cat).vars k = (dget vrs.reverse k).or (dget a.defaults k) := by
  show dget (HL.dupdate a.defaults (HL.dupdate a.base vrs)) k = _
  rw [h, dget_dupdate, dget_reverse (UniqueKeys.nil.dupdate _), dget_dupdate]
  simp

/-! ### joining and splitting -/

theorem splitOn_of_not_mem {c : Nat} {s : Str} (h : c ∉ s) : splitOn c s = [s] := by
  induction s with
  | nil => rfl
  | cons x s ih =>
    simp only [List.mem_cons, not_or] at h
    unfold splitOn
    rw [if_neg (Ne.symm h.1), ih h.2]

theorem splitOn_append_sep {c : Nat} {s : Str} (h : c ∉ s) (r : Str) : splitOn c (s ++ c :: r) = s :: splitOn c r := by
  induction s with
  | nil => simp [splitOn]
  | cons x s ih =>
    simp only [List.mem_cons, not_or] at h
    rw [List.cons_append, splitOn, if_neg (Ne.symm h.1), ih h.2]

theorem splitOn_join {c : Nat} {xs : List Str} (hne : xs ≠ []) (h : ∀ x ∈ xs, c ∉ x) : splitOn c (join [c] xs) = xs := by
  induction xs with
  | nil => exact absurd rfl hne
  | cons x xs ih =>
    cases xs with
    | nil => exact splitOn_of_not_mem (h x (List.mem_cons_self ..))
    | cons y r =>
      show splitOn c (x ++ [c] ++ join [c] (y :: r)) = _
      rw [List.append_assoc, List.singleton_append, splitOn_append_sep (h x (List.mem_cons_self ..)),
        ih (by simp) fun z hz => h z (List.mem_cons_of_mem _ hz)]

theorem count_join (c : Nat) (sep : Str) (hs : c ∉ sep) (xs : List Str) :
    (join sep xs).count c = (xs.map (·.count c)).sum := by
  induction xs with
  | nil => rfl
  | cons x xs ih =>
    cases xs with
    | nil => simp [join]
    | cons y r =>
      show (x ++ sep ++ join sep (y :: r)).count c = _
      rw [List.count_append, List.count_append, ih, List.count_eq_zero.2 hs]
      simp

/-- the notes of a class -/
def ofClass (c : NoteId) (ns : List Note) : List Note := ns.filter fun n => n.cls == c

end HL.Props
