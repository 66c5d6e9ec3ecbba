import Verif.Props.CheckTotal
import Verif.Props.MediaThm
import Verif.Props.NumberThm

/-!
# the charset parameter of a Content-Type, in terms of its text
-/

namespace HL.Props
open Syntax

/-- somewhere in the text there is a parameter `charset` (in any case) with this value: `charset=value`, followed by
white space and a semicolon or the end -/
def NamesCharset (text cs : Str) : Prop := ∃ a k v b, text = a ++ (k ++ [61] ++ v) ++ b ∧ lower k = str "charset" ∧ Means v cs ∧ ParamEnds b

theorem found_occur (look : Str → Bool) : ∀ (fuel : Nat) (s : Str), ∀ x ∈ findall false rfc9110.parameter look fuel s,
    ∃ a b, s = a ++ x ++ b ∧ look b = true := by
  intro fuel
  induction fuel with
  | zero => intro s x hx; exact absurd hx (by simp [findall])
  | succ n ih =>
    intro s x hx
    unfold findall at hx
    cases h : (rfc9110.parameter.run false s).find? look with
    | none =>
      rw [h] at hx
      cases s with
      | nil => exact absurd hx (by simp)
      | cons c r =>
        obtain ⟨a, b, e, hb⟩ := ih r x hx
        exact ⟨c :: a, b, by rw [e]; rfl, hb⟩
    | some t =>
      rw [h] at hx
      have hlook := List.find?_some h
      obtain ⟨p, e, hp⟩ := (mem_run_iff ..).1 (List.mem_of_find?_eq_some h)
      obtain ⟨k, v, rfl, hk, hv⟩ := (parameter_L _).1 hp
      have hl : t.length < s.length := by rw [e]; simp; omega
      dsimp only at hx
      rw [if_pos hl] at hx
      rcases List.mem_cons.1 hx with hx | hx
      · refine ⟨[], t, ?_, hlook⟩
        rw [hx, e]
        have : (k ++ [61] ++ v ++ t).length - t.length = (k ++ [61] ++ v).length := by simp; omega
        rw [this, List.take_left']
        · simp
        · rfl
      · obtain ⟨a, b, e', hb⟩ := ih t x hx
        exact ⟨k ++ [61] ++ v ++ a, b, by rw [e, e']; simp, hb⟩

theorem means_of {v : Str} (h : IsTok v ∨ IsQuoted v) : ∃ x, Means v x := by
  rcases h with h | ⟨b, rfl, h⟩
  · exact ⟨v, .inl ⟨h, rfl⟩⟩
  · obtain ⟨x, hx⟩ := body_means h
    exact ⟨x, .inr ⟨b, rfl, h, hx⟩⟩

/-- the value recorded for `charset` is written in the text -/
theorem charset_param {env : Env} {add : AddNote} {s : Str} {ns : NoStar} {d : Dict Val} (h : (parseParams env add s ns).res = .ok d) {cs : Str}
    (hc : dget d (str "charset") = some (.str cs)) : NamesCharset s cs := by
  have hall : ∀ xs : List Str, (∀ x ∈ xs, ∃ k v, x = k ++ [61] ++ v ∧ IsTok k ∧ (IsTok v ∨ IsQuoted v)) →
      ∃ ps : List (Str × Str), xs = ps.map (fun p => p.1 ++ [61] ++ p.2) ∧ ∀ p ∈ ps, IsTok p.1 ∧ (IsTok p.2 ∨ IsQuoted p.2) := by
    intro xs
    induction xs with
    | nil => intro _; exact ⟨[], rfl, by intro p hp; cases hp⟩
    | cons x xs ih =>
      intro h
      obtain ⟨ps, rfl, hps⟩ := ih fun y hy => h y (by simp [hy])
      obtain ⟨k, v, rfl, hk, hv⟩ := h x (by simp)
      refine ⟨(k, v) :: ps, rfl, ?_⟩
      intro p hp
      rcases List.mem_cons.1 hp with rfl | hp
      · exact ⟨hk, hv⟩
      · exact hps p hp
  obtain ⟨ps, e, hps⟩ := hall _ (pieces_are s (delimRE 59))
  unfold parseParams at h
  rw [e, (loop_does env add ns ps [] [] hps rfl).res] at h
  cases h
  have e2 : ∀ l : Dict Str, l.foldl (fun d p => dset d p.1 (Val.str p.2)) [] = (l.map fun p => (p.1, Val.str p.2)).foldl (fun d p => dset d p.1 p.2) [] := by
    intro l; rw [List.foldl_map]
  rw [e2, dget_last] at hc
  obtain ⟨q, hq, hq2⟩ := List.mem_filterMap.1 (List.mem_of_getLast? hc)
  split at hq2
  · rename_i hn
    obtain ⟨r, hr, rfl⟩ := List.mem_map.1 hq
    unfold valued at hr
    obtain ⟨p, hp, hpo⟩ := List.mem_filterMap.1 hr
    obtain ⟨x, hx, rfl⟩ := Option.map_eq_some_iff.1 hpo
    dsimp only at hn hq2
    cases hq2
    have hp' : p ∈ ps := by simpa using hp
    obtain ⟨hk, hv⟩ := hps p hp'
    have hlast : p.1.getLast? ≠ some 42 := by
      intro hl
      obtain ⟨y, hy⟩ := List.getLast?_eq_some_iff.1 hl
      rw [hy] at hn
      have := congrArg List.getLast? hn
      unfold lower at this
      rw [List.map_append] at this
      simp at this
      exact absurd this (by decide +kernel)
    have hval : unquoteString p.2 = cs := by
      unfold paramOutcome at hx
      dsimp only at hx
      rw [if_pos hlast] at hx
      exact Option.some.inj hx
    obtain ⟨z, hz⟩ := means_of hv
    have : Means p.2 cs := by rw [← hval, unquote_means hz]; exact hz
    have hmem : p.1 ++ [61] ++ p.2 ∈ splitString s rfc9110.parameter (delimRE 59) := by rw [e]; exact List.mem_map_of_mem hp'
    unfold splitString at hmem
    split at hmem
    · exact absurd hmem (by simp)
    · obtain ⟨y, hy, e3⟩ := List.mem_map.1 hmem
      obtain ⟨k', v', rfl, hk', hv'⟩ := found_are _ _ _ y hy
      rw [piece_strip hk' hv'] at e3
      obtain ⟨a, b, e4, hb⟩ := found_occur _ _ _ _ hy
      rw [e3] at e4
      exact ⟨a, p.1, p.2, b, e4, hn, this, (look_iff _).1 hb⟩
  · cases hq2

theorem NamesCharset.append {a s cs : Str} (h : NamesCharset s cs) : NamesCharset (a ++ s) cs := by
  obtain ⟨a', k, v, b, rfl, h⟩ := h
  exact ⟨a ++ a', k, v, b, by simp, h⟩

/-- the charset recorded from a Content-Type is one its text names -/
theorem contentType_charset {c : Ctx} {s t : Str} {ps : List Val} {cs : Str} (h : parseText c .content_type_ s = .ok (.tuple [.str t, .dict ps]))
    (hcs : (Val.dict ps).get (str "charset") = some (.str cs)) : NamesCharset s cs := by
  replace h : (F.content_type.parse c.env ⟨[], [], []⟩ s).res = .ok (.tuple [.str t, .dict ps]) := h
  obtain ⟨p, hp, h2⟩ := W.bind_res_ok h
  unfold parseMediaType at hp
  dsimp only at hp
  obtain ⟨_, _, h3⟩ := W.bind_res_ok hp
  obtain ⟨d, hd, h4⟩ := W.bind_res_ok h3
  cases h4
  obtain ⟨l, rfl⟩ := params_str hd
  have : ps = (l.map fun p => Val.tuple [.str p.1, .str p.2]) := by
    cases h2
    simp [List.map_map, Function.comp_def]
  have hd2 : dget (l.map fun p => (p.1, Val.str p.2)) (str "charset") = some (.str cs) := by
    rw [dget_map]
    have hg : (Val.dict ps).get (str "charset") = (dget l (str "charset")).map Val.str := by
      cases h2
      show (Val.ofDict _).get _ = _
      unfold Val.get
      rw [Val.entries_ofDict, dget_map]
    rw [← hg, hcs]
  have := charset_param hd hd2
  cases hs : split1 59 s with
  | none =>
    rw [hs] at this
    obtain ⟨a, k, v, b, e, _⟩ := this
    simp at e
  | some q =>
    rw [hs] at this
    obtain ⟨e, _⟩ := split1_some hs
    rw [e, show q.1 ++ 59 :: q.2 = (q.1 ++ [59]) ++ q.2 by simp]
    exact NamesCharset.append this

section
variable {env : Env} {related : Option Msg} {ls : List Line} {m m' : Msg}

/-- … and so for a message -/
theorem charset_named (P : Processed env related false ls m m') (hu : Unpadded ls) (hn : m.headers.parsed = []) {t cs : Str} (h : ContentType m' t (some cs)) :
    str "content-type" ∈ namesOf ls ∧ NamesCharset (textOf ls (str "content-type")) cs := by
  obtain ⟨ps, hd, hcs⟩ := h
  have hc : classOf (str "content-type") = .content_type_ := by decide +kernel
  by_cases hin : str "content-type" ∈ namesOf ls
  · refine ⟨hin, ?_⟩
    have := P.singleton hu (f := .content_type_) rfl (by decide) (mem_namesFor.2 ⟨hin, hc⟩) (by cases m.kind <;> rfl)
    rw [show (m'.section false).parsed = m'.headers.parsed from rfl, hd] at this
    cases hp : parseText ⟨env, m, related⟩ .content_type_ (textOf ls (str "content-type")) with
    | error e => rw [hp] at this; cases this
    | ok v =>
      rw [hp] at this
      cases this
      exact contentType_charset hp hcs
  · have := section_values P.linting P.new hu P.ok (str "content-type")
    rw [if_neg hin, show (m.section false).parsed = m.headers.parsed from rfl, hn, show (m'.section false).parsed = m'.headers.parsed from rfl, hd] at this
    cases this

end

end HL.Props
