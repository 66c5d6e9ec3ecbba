import Verif.Props.OrderAll
import Verif.Props.OrderAllEx

/-!
# C125–C127, where nothing raises

C125–C127 compare two sections that have been processed.  Under the contract of the libraries, and for lines that no field's code
raises on, both are: what is left is a statement on the lines alone.
-/

namespace HL.Props
open HL.F

section
variable {env : Env} {related : Option Msg} {t : Bool} {ls ls₁ ls₂ : List Line} {m : Msg}

/-! ### specification -/

/-- the linter can be given this section: it has not been given it before, and the other one, if it was given, didn't raise -/
structure Awaits (env : Env) (related : Option Msg) (t : Bool) (m : Msg) : Prop where
  contract : Contract env
  linting : Linting env m
  related : ∀ r, related = some r → TypedHeaders env r ∧ (m.kind = .response → r.kind = .request)
  new : Untouched (m.section t)
  other : Settled env m.kind (m.section !t)

/-! ### proof -/

theorem Awaits.processed (A : Awaits env related t m) (hl : CalmLines ls) : ∃ m', Processed env related t ls m m' := by
  obtain ⟨m', h, _⟩ := section_returns A.contract related t ls m rfl A.related A.new A.other hl
  exact ⟨m', A.linting, A.new.2.1, h⟩

theorem CalmLines.unpadded (hl : CalmLines ls) : Unpadded ls := fun l h => (hl l h).1

/-- **C125**: two sections of calm lines can both be given, and if they have the same lines that matter to a field, its value
and the notes about it are the same -/
theorem C125_returns (A : Awaits env related t m) (h₁ : CalmLines ls₁) (h₂ : CalmLines ls₂) :
    ∃ m₁ m₂, Processed env related t ls₁ m m₁ ∧ Processed env related t ls₂ m m₂ ∧ ∀ n, Distinct n → ls₁.filter (matters n) = ls₂.filter (matters n) →
      dget (m₁.section t).parsed n = dget (m₂.section t).parsed n ∧ saidOf n m m₁ = saidOf n m m₂ := by
  obtain ⟨m₁, P₁⟩ := A.processed h₁
  obtain ⟨m₂, P₂⟩ := A.processed h₂
  exact ⟨m₁, m₂, P₁, P₂, fun n hn h => C125_alone P₁ P₂ h₁.unpadded h₂.unpadded n hn h⟩

/-- lines can be left out of a section that can be given, and what is said of fields they don't matter to stays as it is -/
theorem C125_returns_dropped (A : Awaits env related t m) (hl : CalmLines ls) (keep : Line → Bool) :
    ∃ m₁ m₂, Processed env related t ls m m₁ ∧ Processed env related t (ls.filter keep) m m₂ ∧ ∀ n, Distinct n → (∀ l, matters n l = true → keep l = true) →
      dget (m₁.section t).parsed n = dget (m₂.section t).parsed n ∧ saidOf n m m₁ = saidOf n m m₂ := by
  obtain ⟨m₁, P₁⟩ := A.processed hl
  obtain ⟨m₂, P₂⟩ := A.processed (ls := ls.filter keep) fun l h => hl l (List.mem_filter.1 h).1
  exact ⟨m₁, m₂, P₁, P₂, fun n hn hk => C125_dropped P₁ hl.unpadded n hn keep hk P₂⟩

/-- **C126** likewise: the notes on lines of fields the sections have in common are the same but for the numbers of the lines -/
theorem C126_returns (A : Awaits env related t m) (h₁ : CalmLines ls₁) (h₂ : CalmLines ls₂) :
    ∃ m₁ m₂, Processed env related t ls₁ m m₁ ∧ Processed env related t ls₂ m m₂ ∧
      ∀ n, ls₁.filter (ofField n) = ls₂.filter (ofField n) → (saidOfLines n m m₁).map unplaced = (saidOfLines n m m₂).map unplaced := by
  obtain ⟨m₁, P₁⟩ := A.processed h₁
  obtain ⟨m₂, P₂⟩ := A.processed h₂
  exact ⟨m₁, m₂, P₁, P₂, fun n h => C126_same P₁ P₂ h₁.unpadded h₂.unpadded n h⟩

/-- **C127**: if a section of calm lines can be given, so can every other order of its lines; if the orders agree on the lines that
matter to each field, all values are the same, and so are the notes but for their order and the numbers of lines -/
theorem C127_returns (A : Awaits env related t m) (h₁ : CalmLines ls₁) (hp : ls₁.Perm ls₂) :
    ∃ m₁ m₂, Processed env related t ls₁ m m₁ ∧ Processed env related t ls₂ m m₂ ∧ ((∀ n, ls₁.filter (matters n) = ls₂.filter (matters n)) →
      (∀ n, dget (m₁.section t).parsed n = dget (m₂.section t).parsed n) ∧ ((addedTo m m₁).map unnumbered).Perm ((addedTo m m₂).map unnumbered)) := by
  obtain ⟨m₁, P₁⟩ := A.processed h₁
  obtain ⟨m₂, P₂⟩ := A.processed (ls := ls₂) fun l h => h₁ l (hp.mem_iff.2 h)
  exact ⟨m₁, m₂, P₁, P₂, fun h => C127_order P₁ P₂ h₁.unpadded h⟩
end

/-! ### examples -/

/-- a new linter awaits its headers, and its trailers -/
theorem fresh_awaits {env : Env} (hC : Contract env) (kind : MsgKind) (start : Option Rat) (noContent head : Bool) (t : Bool) :
    Awaits env none t (fresh env kind start noContent head) where
  contract := hC
  linting := ⟨_, ⟨kind, start, noContent, head, none, [], rfl⟩, .inl rfl⟩
  related := fun r h => nomatch h
  new := by cases t <;> exact ⟨rfl, rfl, rfl⟩
  other := by cases t <;> exact Untouched.settled ⟨rfl, rfl, rfl⟩

/-- the hypotheses are met by messy lines, some of which are moved -/
example : Awaits toyEnv none false (fresh toyEnv .response none false false) ∧ CalmLines linesOrdered ∧ linesOrdered.Perm linesMoved ∧
    (∀ n, linesOrdered.filter (matters n) = linesMoved.filter (matters n)) := by
  have h : ∀ n, linesOrdered.filter (matters n) = linesMoved.filter (matters n) :=
    apart_filter (x := (str "Vary", str "a b")) (y := (str "Set-Cookie", str "c=d; Max-Age=z")) (by unfold Apart; decide +kernel) [(str "ETag", str "x")] [(str "ETAG", str "\"y\"")]
  exact ⟨fresh_awaits toy_contract _ _ _ _ _, by decide +kernel, lines_perm h, h⟩

/-- … and two sections with other fields and other positions, but the same values of `ETag` in the same order; what is said of it is something -/
example : CalmLines linesAlone ∧ CalmLines (linesAlone.filter (matters (str "etag")) ++ [(str "Age", str "x")]) ∧ Distinct (str "etag") ∧
    linesAlone.filter (matters (str "etag")) = (linesAlone.filter (matters (str "etag")) ++ [(str "Age", str "x")]).filter (matters (str "etag")) ∧
    linesAlone.filter (ofField (str "etag")) = (linesAlone.filter (matters (str "etag")) ++ [(str "Age", str "x")]).filter (ofField (str "etag")) ∧
    judgedAs (str "etag") linesAlone = (some (.tuple [.bool false, .str (str "a\"b")]), [.SINGLE_HEADER_REPEAT, .BAD_SYNTAX]) :=
  ⟨by decide +kernel, by decide +kernel, by unfold Distinct; decide +kernel, by decide +kernel, by decide +kernel, by kernel_rfl⟩

end HL.Props
