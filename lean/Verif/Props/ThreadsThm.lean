import Verif.Props.Basic
import Verif.Threads

/-!
# C121: rendering on several threads
-/

namespace HL.Props
open Threads

/-! ### the specification: what a program obtains when it runs by itself -/

/-- `translate(message)` while the locale is `cur`. -/
def translated (L : Lib) (cur msg : Str) : Except Exn Str :=
  match L.load cur with
  | .ok c => .ok (L.gettext c msg)
  | .error e => .error e

/-- `note.summary` while the locale is `cur`. -/
def summaryOf (L : Lib) (cur text : Str) (fill : Str → Except Exn Str) : Except Exn Str :=
  match translated L cur text with
  | .ok s => fill s
  | .error e => .error e

/-- `note.detail` while the locale is `cur`, from a converter nobody has used. -/
def detailOf (L : Lib) (cur text : Str) (fill : Str → Except Exn Str) : Except Exn Str :=
  match summaryOf L cur text fill with
  | .ok s => (L.convert (L.reset L.fresh) s).1
  | .error e => .error e

/-- one text obtained, or an exception -/
def obtains : Except Exn Str → List Str × Except Exn Unit
  | .ok s => ([s], .ok ())
  | .error e => ([], .error e)

/-- The texts a program obtains, in order, and how it ends, when there is no other thread. -/
def alone (L : Lib) : Job → Str → List Str × Except Exn Unit
  | .translate m, cur => obtains (translated L cur m)
  | .show false text fill, cur => obtains (summaryOf L cur text fill)
  | .show true text fill, cur => obtains (detailOf L cur text fill)
  | .raise e, _ => ([], .error e)
  | .seq p q, cur => match alone L p cur with
    | (l, .error e) => (l, .error e)
    | (l, .ok ()) => (l ++ (alone L q cur).1, (alone L q cur).2)
  | .withLocale none body, _ => alone L body (str "en")
  | .withLocale (some name) body, _ => alone L body (if name = [] then str "en" else name)
  | .tryExcept body handler, cur => match alone L body cur with
    | (l, .ok ()) => (l, .ok ())
    | (l, .error _) => (l ++ (alone L handler cur).1, (alone L handler cur).2)

/-- What `Markdown.reset` promises: a converter that has been reset converts like one that was never used. -/
def Resets (L : Lib) : Prop := ∀ m s, (L.convert (L.reset m) s).1 = (L.convert (L.reset L.fresh) s).1

/-- the thread has ended, with this outcome -/
def ThreadEnded {L : Lib} (t : Thread L) (r : Except Exn Unit) : Prop :=
  t.stack = [] ∧ match r with
    | .ok () => t.ctl = .done
    | .error e => t.ctl = .throw e

/-- the process at its start: nothing loaded yet, one thread for each program, with the locale of its context -/
def begin (L : Lib) (ps : List (Job × Str)) : System L := ⟨[], ps.map fun p => start p.1 p.2⟩

/-- a bound on the number of steps a program takes -/
def effort : Job → Nat
  | .translate _ => 10
  | .show _ _ _ => 10
  | .raise _ => 1
  | .seq p q => effort p + effort q + 2
  | .withLocale _ b => effort b + 2
  | .tryExcept b h => effort b + effort h + 2

/-! ### the proof: what a thread still has to obtain -/

def useOf (L : Lib) (c : L.Catalogue) (m : Str) : Use → List Str × Except Exn Unit
  | .plain => obtains (.ok (L.gettext c m))
  | .show false fill => obtains (fill (L.gettext c m))
  | .show true fill => obtains (match fill (L.gettext c m) with
    | .ok s => (L.convert (L.reset L.fresh) s).1
    | .error e => .error e)

def useAt (L : Lib) (l m : Str) (u : Use) : List Str × Except Exn Unit :=
  match L.load l with
  | .ok c => useOf L c m u
  | .error e => ([], .error e)

def pending (L : Lib) : Ctl L → Str → List Str × Except Exn Unit
  | .run p, cur => alone L p cur
  | .looked l m u, _ => useAt L l m u
  | .missing l m u, _ => useAt L l m u
  | .present l m u, _ => useAt L l m u
  | .loaded _ m c u, _ => useOf L c m u
  | .found c m u, _ => useOf L c m u
  | .wantConverter s f, cur => useAt L cur s (.show true f)
  | .makeConverter s f, cur => useAt L cur s (.show true f)
  | .resetConverter s f, cur => useAt L cur s (.show true f)
  | .convertNow s, _ => obtains (L.convert (L.reset L.fresh) s).1
  | .done, _ => ([], .ok ())
  | .throw e, _ => ([], .error e)

def after (L : Lib) : List Frame → Str → Except Exn Unit → List Str × Except Exn Unit
  | [], _, r => ([], r)
  | .next q :: k, cur, .ok _ =>
    ((alone L q cur).1 ++ (after L k cur (alone L q cur).2).1, (after L k cur (alone L q cur).2).2)
  | .next _ :: k, cur, .error e => after L k cur (.error e)
  | .restore l :: k, _, r => after L k l r
  | .handler _ :: k, cur, .ok u => after L k cur (.ok u)
  | .handler h :: k, cur, .error _ =>
    ((alone L h cur).1 ++ (after L k cur (alone L h cur).2).1, (after L k cur (alone L h cur).2).2)

/-- what a thread will have obtained in all, and how it will end -/
def whole {L : Lib} (t : Thread L) : List Str × Except Exn Unit :=
  (t.out ++ ((pending L t.ctl t.locale).1 ++ (after L t.stack t.locale (pending L t.ctl t.locale).2).1),
    (after L t.stack t.locale (pending L t.ctl t.locale).2).2)

def base : List Frame → Str → Str
  | [], cur => cur
  | .restore l :: k, _ => base k l
  | _ :: k, cur => base k cur

def Use.html : Use → Bool
  | .show true _ => true
  | _ => false

def isReset {L : Lib} (md : Option L.Converter) : Prop := ∃ m, md = some (L.reset m)

def Loaded (L : Lib) (tab : Table L) : Prop := ∀ e ∈ tab, L.load e.1 = .ok e.2

def Poised {L : Lib} (t : Thread L) (tab : Table L) : Prop :=
  match t.ctl with
  | .looked _ _ u => Use.html u = true → isReset t.md
  | .missing _ _ u => Use.html u = true → isReset t.md
  | .loaded l _ c u => L.load l = .ok c ∧ (Use.html u = true → isReset t.md)
  | .present l _ u => (∃ c, tab.get? l = some c) ∧ (Use.html u = true → isReset t.md)
  | .found _ _ u => Use.html u = true → isReset t.md
  | .resetConverter _ _ => ∃ m, t.md = some m
  | .convertNow _ => isReset t.md
  | _ => True

theorem effective_eq (name : Option Str) (L : Lib) (b : Job) (cur : Str) :
    alone L (.withLocale name b) cur = alone L b (I18n.effective name) := by
  cases name with
  | none => rfl
  | some n => rw [alone]; cases n <;> rfl

theorem get?_cons {L : Lib} (tab : Table L) (l l' : Str) (c : L.Catalogue) :
    Table.get? ((l, c) :: tab) l' = if l = l' then some c else tab.get? l' := by
  unfold Table.get?
  rw [List.find?_cons]
  by_cases h : l = l'
  · subst h; simp
  · have : (l == l') = false := by simpa using h
    simp only [this, if_neg h]

theorem get?_mem {L : Lib} {tab : Table L} {l : Str} {c : L.Catalogue} (h : tab.get? l = some c) : (l, c) ∈ tab := by
  unfold Table.get? at h
  rw [Option.map_eq_some_iff] at h
  obtain ⟨⟨l', c'⟩, hf, rfl⟩ := h
  have h1 := List.find?_some hf
  have h2 := List.mem_of_find?_eq_some hf
  simp only [beq_iff_eq] at h1
  exact h1 ▸ h2

theorem alone_translate (L : Lib) (m cur : Str) : alone L (.translate m) cur = useAt L cur m .plain := by
  rw [alone, translated, useAt]; cases L.load cur <;> rfl

theorem alone_summary (L : Lib) (text cur : Str) (fill : Str → Except Exn Str) :
    alone L (.show false text fill) cur = useAt L cur text (.show false fill) := by
  rw [alone, summaryOf, translated, useAt]; cases L.load cur <;> rfl

theorem alone_detail (L : Lib) (text cur : Str) (fill : Str → Except Exn Str) :
    alone L (.show true text fill) cur = useAt L cur text (.show true fill) := by
  rw [alone, detailOf, summaryOf, translated, useAt]; cases L.load cur <;> rfl

/-- one step of a thread changes nothing of what it will obtain -/
theorem step_whole {L : Lib} (hR : Resets L) (t : Thread L) (tab : Table L) (hT : Loaded L tab) (hr : Poised t tab) :
    whole (step t tab).1 = whole t ∧ Poised (step t tab).1 (step t tab).2 ∧ Loaded L (step t tab).2 ∧
      base (step t tab).1.stack (step t tab).1.locale = base t.stack t.locale ∧
      (∀ l c, tab.get? l = some c → ∃ c', (step t tab).2.get? l = some c') := by
  obtain ⟨ctl, k, cur, md, out⟩ := t
  have mono : ∀ l c, tab.get? l = some c → ∃ c', tab.get? l = some c' := fun l c h => ⟨c, h⟩
  cases ctl with
  | run p =>
    cases p with
    | translate m =>
      refine ⟨?_, ?_, hT, rfl, mono⟩
      · simp only [step, whole, pending, alone_translate]
      · simp [step, Poised, Use.html]
    | «show» html text fill =>
      cases html with
      | false =>
        refine ⟨?_, ?_, hT, rfl, mono⟩
        · simp only [step, whole, pending, alone_summary]
        · simp [step, Poised, Use.html]
      | true =>
        refine ⟨?_, ?_, hT, rfl, mono⟩
        · simp only [step, whole, pending, alone_detail]
        · simp [step, Poised]
    | raise e => exact ⟨rfl, trivial, hT, rfl, mono⟩
    | seq p q =>
      refine ⟨?_, trivial, hT, rfl, mono⟩
      simp only [step, whole, pending, alone]
      rcases h : alone L p cur with ⟨l, r⟩
      cases r with
      | error e => simp only [after]
      | ok u => simp only [after, List.append_assoc]
    | withLocale name b =>
      refine ⟨?_, trivial, hT, rfl, mono⟩
      simp only [step, whole, pending, effective_eq, after]
    | tryExcept b h =>
      refine ⟨?_, trivial, hT, rfl, mono⟩
      simp only [step, whole, pending, alone]
      rcases h : alone L b cur with ⟨l, r⟩
      cases r with
      | error e => simp only [after, List.append_assoc]
      | ok u => simp only [after]
  | looked l m u =>
    simp only [step]
    cases h : Table.get? tab l with
    | none => exact ⟨rfl, hr, hT, rfl, mono⟩
    | some c => exact ⟨rfl, ⟨⟨c, h⟩, hr⟩, hT, rfl, mono⟩
  | missing l m u =>
    simp only [step]
    cases h : L.load l with
    | ok c =>
      refine ⟨?_, ⟨h, hr⟩, hT, rfl, mono⟩
      simp only [whole, pending, useAt, h]
    | error e =>
      refine ⟨?_, trivial, hT, rfl, mono⟩
      simp only [whole, pending, useAt, h]
  | loaded l m c u =>
    obtain ⟨hl, hu⟩ := hr
    refine ⟨?_, ⟨⟨c, ?_⟩, hu⟩, ?_, rfl, ?_⟩
    · simp only [step, whole, pending, useAt, hl]
    · show Table.get? ((l, c) :: tab) l = some c
      rw [get?_cons, if_pos rfl]
    · intro e h
      rcases List.mem_cons.mp h with h | h
      · subst h
        exact hl
      · exact hT e h
    · intro l' c' h
      rw [step, get?_cons]
      split
      · exact ⟨c, rfl⟩
      · exact ⟨c', h⟩
  | present l m u =>
    obtain ⟨⟨c, hc⟩, hu⟩ := hr
    have hl : L.load l = .ok c := hT (l, c) (get?_mem hc)
    have hs : step ⟨.present l m u, k, cur, md, out⟩ tab = (⟨.found c m u, k, cur, md, out⟩, tab) := by
      simp only [step, hc]
    rw [hs]
    refine ⟨?_, hu, hT, rfl, mono⟩
    simp only [whole, pending, useAt, hl]
  | found c m u =>
    cases u with
    | plain =>
      refine ⟨?_, trivial, hT, rfl, mono⟩
      simp only [step, whole, pending, useOf, obtains, List.append_assoc, List.nil_append]
    | «show» html fill =>
      simp only [step]
      cases html with
      | false =>
        cases h : fill (L.gettext c m) with
        | error e =>
          refine ⟨?_, trivial, hT, rfl, mono⟩
          simp only [whole, pending, useOf, obtains, h]
        | ok s =>
          refine ⟨?_, trivial, hT, rfl, mono⟩
          simp [whole, pending, useOf, obtains, h]
      | true =>
        cases h : fill (L.gettext c m) with
        | error e =>
          refine ⟨?_, trivial, hT, rfl, mono⟩
          simp only [whole, pending, useOf, obtains, h]
        | ok s =>
          refine ⟨?_, hr rfl, hT, rfl, mono⟩
          simp [whole, pending, useOf, h]
  | wantConverter s f =>
    simp only [step]
    cases md with
    | none => exact ⟨rfl, trivial, hT, rfl, mono⟩
    | some m => exact ⟨rfl, ⟨m, rfl⟩, hT, rfl, mono⟩
  | makeConverter s f => exact ⟨rfl, ⟨_, rfl⟩, hT, rfl, mono⟩
  | resetConverter s f =>
    obtain ⟨m, hm⟩ := hr
    simp only at hm
    subst hm
    exact ⟨rfl, fun _ => ⟨m, rfl⟩, hT, rfl, mono⟩
  | convertNow s =>
    obtain ⟨m, hm⟩ := hr
    simp only at hm
    subst hm
    have := hR m s
    simp only [step]
    cases h : (L.convert (L.reset m) s).1 with
    | error e =>
      refine ⟨?_, trivial, hT, rfl, mono⟩
      simp [whole, pending, obtains, ← this, h]
    | ok x =>
      refine ⟨?_, trivial, hT, rfl, mono⟩
      simp [whole, pending, obtains, ← this, h]
  | done =>
    cases k with
    | nil => exact ⟨rfl, trivial, hT, rfl, mono⟩
    | cons f k => cases f <;> exact ⟨by simp [step, whole, pending, after], trivial, hT, rfl, mono⟩
  | throw e =>
    cases k with
    | nil => exact ⟨rfl, trivial, hT, rfl, mono⟩
    | cons f k => cases f <;> exact ⟨by simp [step, whole, pending, after], trivial, hT, rfl, mono⟩

theorem Poised.mono {L : Lib} {t : Thread L} {tab tab' : Table L} (h : Poised t tab)
    (hm : ∀ l c, tab.get? l = some c → ∃ c', tab'.get? l = some c') : Poised t tab' := by
  obtain ⟨ctl, k, cur, md, out⟩ := t
  cases ctl <;> try exact h
  obtain ⟨⟨c, hc⟩, hu⟩ := h
  exact ⟨hm _ c hc, hu⟩

/-- what holds of the process at any time -/
def Holds {L : Lib} (s : System L) (ps : List (Job × Str)) : Prop :=
  Loaded L s.table ∧ s.threads.length = ps.length ∧
    ∀ (i : Nat) (t : Thread L) (p : Job × Str), s.threads[i]? = some t → ps[i]? = some p →
      Poised t s.table ∧ whole t = alone L p.1 p.2 ∧ base t.stack t.locale = p.2

theorem begin_holds (L : Lib) (ps : List (Job × Str)) : Holds (begin L ps) ps := by
  refine ⟨fun e h => (nomatch h), by simp [begin], fun i t p ht hp => ?_⟩
  · simp only [begin, List.getElem?_map, hp, Option.map_some, Option.some.injEq] at ht
    subst ht
    refine ⟨trivial, ?_, rfl⟩
    simp [whole, start, pending, after]

theorem tick_holds {L : Lib} (hR : Resets L) {s : System L} {ps : List (Job × Str)} (h : Holds s ps) (j : Nat) :
    Holds (s.tick j) ps := by
  obtain ⟨hT, hlen, hall⟩ := h
  unfold System.tick
  cases hj : s.threads[j]? with
  | none => exact ⟨hT, hlen, hall⟩
  | some tj =>
    have hjlt : j < s.threads.length := by
      rcases Nat.lt_or_ge j s.threads.length with h | h
      · exact h
      · rw [List.getElem?_eq_none h] at hj; cases hj
    obtain ⟨pj, hpj⟩ : ∃ pj, ps[j]? = some pj := ⟨ps[j]'(hlen ▸ hjlt), List.getElem?_eq_getElem _⟩
    obtain ⟨r, w, b⟩ := hall j tj pj hj hpj
    obtain ⟨w', r', T', b', m'⟩ := step_whole hR tj s.table hT r
    refine ⟨T', by simp [hlen], fun i t p ht hp => ?_⟩
    dsimp only at ht
    by_cases hij : j = i
    · subst hij
      rw [List.getElem?_set_self hjlt] at ht
      cases ht
      rw [hpj] at hp
      cases hp
      exact ⟨r', w'.trans w, b'.trans b⟩
    · rw [List.getElem?_set_ne hij] at ht
      obtain ⟨ri, wi, bi⟩ := hall i t p ht hp
      exact ⟨ri.mono m', wi, bi⟩

theorem runs_holds {L : Lib} (hR : Resets L) {s : System L} {ps : List (Job × Str)} (h : Holds s ps)
    (schedule : List Nat) : Holds (s.runs schedule) ps := by
  unfold System.runs
  induction schedule generalizing s with
  | nil => exact h
  | cons j l ih => exact ih (tick_holds hR h j)

theorem holds_get {L : Lib} {s : System L} {ps : List (Job × Str)} (h : Holds s ps) {i : Nat} {p : Job × Str}
    (hp : ps[i]? = some p) : ∃ t, s.threads[i]? = some t := by
  have hlt : i < ps.length := by
    rcases Nat.lt_or_ge i ps.length with h | h
    · exact h
    · rw [List.getElem?_eq_none h] at hp; cases hp
  exact ⟨s.threads[i]'(h.2.1 ▸ hlt), List.getElem?_eq_getElem _⟩

/-- **C121**: on any number of threads, under every schedule, at every moment, what a thread has obtained so far is
an initial part of what it would obtain by itself; and when it has ended, it has obtained exactly that, has ended the
same way (no exception of another thread's making), and its locale is again what it was. -/
theorem C121_threads (L : Lib) (hL : Resets L) (ps : List (Job × Str)) (schedule : List Nat) (i : Nat)
    (p : Job) (cur : Str) (hi : ps[i]? = some (p, cur)) :
    ∃ t, ((begin L ps).runs schedule).threads[i]? = some t ∧
      t.out <+: (alone L p cur).1 ∧
      ∀ r, ThreadEnded t r → t.out = (alone L p cur).1 ∧ r = (alone L p cur).2 ∧ t.locale = cur := by
  have H := runs_holds hL (begin_holds L ps) schedule
  obtain ⟨t, ht⟩ := holds_get H hi
  obtain ⟨-, w, b⟩ := H.2.2 i t (p, cur) ht hi
  refine ⟨t, ht, ⟨_, congrArg Prod.fst w⟩, fun r he => ?_⟩
  obtain ⟨ctl, k, loc, md, out⟩ := t
  obtain ⟨hk, hc⟩ := he
  simp only at hk
  subst hk
  dsimp only at w b
  rw [← w]
  cases r with
  | ok u =>
    cases u
    simp only at hc
    subst hc
    exact ⟨by simp [whole, pending, after], rfl, b⟩
  | error e =>
    simp only at hc
    subst hc
    exact ⟨by simp [whole, pending, after], rfl, b⟩

/-- **C121**: whatever the threads do and whichever of them load the same catalogue at the same time, a catalogue in
the shared table is the one of its locale. -/
theorem C121_table (L : Lib) (hL : Resets L) (ps : List (Job × Str)) (schedule : List Nat) (l : Str)
    (c : L.Catalogue) (h : (l, c) ∈ ((begin L ps).runs schedule).table) : L.load l = .ok c :=
  (runs_holds hL (begin_holds L ps) schedule).1 (l, c) h

/-! ### every thread ends -/

def ctlEffort {L : Lib} : Ctl L → Nat
  | .run p => effort p
  | .wantConverter _ _ => 9
  | .makeConverter _ _ => 8
  | .resetConverter _ _ => 7
  | .looked _ _ _ => 6
  | .missing _ _ _ => 5
  | .loaded _ _ _ _ => 4
  | .present _ _ _ => 3
  | .found _ _ _ => 2
  | .convertNow _ => 1
  | .done => 0
  | .throw _ => 0

def frameEffort : Frame → Nat
  | .next q => effort q + 1
  | .restore _ => 1
  | .handler h => effort h + 1

def threadEffort {L : Lib} (t : Thread L) : Nat := ctlEffort t.ctl + (t.stack.map frameEffort).sum

theorem effort_pos (p : Job) : 0 < effort p := by cases p <;> simp [effort]

theorem step_effort {L : Lib} (t : Thread L) (tab : Table L) :
    threadEffort (step t tab).1 < threadEffort t ∨ threadEffort t = 0 := by
  obtain ⟨ctl, k, cur, md, out⟩ := t
  cases ctl with
  | run p =>
    cases p with
    | «show» html text fill => cases html <;> simp [step, threadEffort, ctlEffort, effort]
    | _ => simp [step, threadEffort, ctlEffort, frameEffort, effort] <;> omega
  | looked l m u => left; simp only [step]; split <;> simp [threadEffort, ctlEffort]
  | missing l m u => left; simp only [step]; split <;> simp [threadEffort, ctlEffort]
  | present l m u => left; simp only [step]; split <;> simp [threadEffort, ctlEffort]
  | loaded l m c u => left; simp [step, threadEffort, ctlEffort]
  | found c m u =>
    left
    cases u with
    | plain => simp [step, threadEffort, ctlEffort]
    | «show» html fill =>
      simp only [step]
      split
      · simp [threadEffort, ctlEffort]
      · split <;> simp [threadEffort, ctlEffort]
  | wantConverter s f => left; simp only [step]; split <;> simp [threadEffort, ctlEffort]
  | makeConverter s f => left; simp [step, threadEffort, ctlEffort]
  | resetConverter s f => left; simp only [step]; split <;> simp [threadEffort, ctlEffort]
  | convertNow s =>
    left
    simp only [step]
    split
    · split <;> simp [threadEffort, ctlEffort]
    · simp [threadEffort, ctlEffort]
  | done =>
    cases k with
    | nil => right; rfl
    | cons f k => left; cases f <;> simp [step, threadEffort, ctlEffort, frameEffort] <;> omega
  | throw e =>
    cases k with
    | nil => right; rfl
    | cons f k => left; cases f <;> simp [step, threadEffort, ctlEffort, frameEffort] <;> omega

theorem ended_of_effort {L : Lib} (t : Thread L) (h : threadEffort t = 0) : ∃ r, ThreadEnded t r := by
  obtain ⟨ctl, k, cur, md, out⟩ := t
  have hk : k = [] := by
    cases k with
    | nil => rfl
    | cons f k => exfalso; cases f <;> simp [threadEffort, frameEffort] at h <;> omega
  subst hk
  cases ctl with
  | run p => have := effort_pos p; simp [threadEffort, ctlEffort] at h; omega
  | done => exact ⟨.ok (), rfl, rfl⟩
  | throw e => exact ⟨.error e, rfl, rfl⟩
  | _ => simp [threadEffort, ctlEffort] at h

theorem tick_effort {L : Lib} (s : System L) (j i : Nat) (t : Thread L) (h : s.threads[i]? = some t) :
    ∃ t', (s.tick j).threads[i]? = some t' ∧
      threadEffort t' ≤ threadEffort t - (if j = i then 1 else 0) := by
  unfold System.tick
  cases hj : s.threads[j]? with
  | none =>
    refine ⟨t, h, ?_⟩
    have : j ≠ i := fun e => by rw [e, h] at hj; cases hj
    rw [if_neg this]; exact Nat.le_refl _
  | some tj =>
    have hjlt : j < s.threads.length := by
      rcases Nat.lt_or_ge j s.threads.length with h | h
      · exact h
      · rw [List.getElem?_eq_none h] at hj; cases hj
    by_cases hij : j = i
    · subst hij
      rw [h] at hj
      cases hj
      refine ⟨_, List.getElem?_set_self hjlt, ?_⟩
      rw [if_pos rfl]
      rcases step_effort t s.table with h1 | h1
      · omega
      · have h2 := ended_of_effort t h1
        obtain ⟨r, hk, hc⟩ := h2
        have : (step t s.table).1 = t := by
          obtain ⟨ctl, k, cur, md, out⟩ := t
          simp only at hk; subst hk
          cases r <;> (simp only at hc; subst hc; rfl)
        rw [this]; omega
    · refine ⟨t, ?_, ?_⟩
      · dsimp only
        rw [List.getElem?_set_ne hij]
        exact h
      · rw [if_neg hij]; exact Nat.le_refl _

theorem runs_effort {L : Lib} (schedule : List Nat) (s : System L) (i : Nat) (t : Thread L) (h : s.threads[i]? = some t) :
    ∃ t', (s.runs schedule).threads[i]? = some t' ∧ threadEffort t' ≤ threadEffort t - schedule.count i := by
  unfold System.runs
  induction schedule generalizing s t with
  | nil => exact ⟨t, h, by simp⟩
  | cons j l ih =>
    obtain ⟨t1, h1, e1⟩ := tick_effort s j i t h
    obtain ⟨t2, h2, e2⟩ := ih (s.tick j) t1 h1
    refine ⟨t2, h2, ?_⟩
    rw [List.count_cons]
    by_cases hij : j = i
    · subst hij
      simp at e1 ⊢
      omega
    · have : (j == i) = false := by simpa using hij
      rw [this]
      rw [if_neg hij] at e1
      simp
      omega

/-- **C121**: no thread waits for another: once it has been given as many steps as `effort` of its program says,
however the other threads' steps fall in between, it has ended. -/
theorem C121_ends (L : Lib) (ps : List (Job × Str)) (schedule : List Nat) (i : Nat) (p : Job) (cur : Str)
    (hi : ps[i]? = some (p, cur)) (hs : effort p ≤ schedule.count i) :
    ∃ t r, ((begin L ps).runs schedule).threads[i]? = some t ∧ ThreadEnded t r := by
  obtain ⟨t, ht, he⟩ := runs_effort schedule (begin L ps) i (start p cur) (by simp [begin, hi])
  have h0 : threadEffort t = 0 := by
    have : threadEffort (start p cur : Thread L) = effort p := by simp [threadEffort, start, ctlEffort]
    omega
  obtain ⟨r, hr⟩ := ended_of_effort t h0
  exact ⟨t, r, ht, hr⟩

/-! ### a case -/

/-- A library: two catalogues ("fr" shouts), and a converter that numbers its conversions until it is reset. -/
def exLib : Lib where
  Catalogue := Bool
  load l := if l = str "??" then .error .valueError else .ok (l == str "fr")
  gettext c m := if c then m ++ str "!" else m
  Converter := Nat
  fresh := 7
  reset _ := 0
  convert n s := (.ok (s ++ List.replicate n 120), n + 1)

theorem exLib_resets : Resets exLib := fun _ _ => rfl

/-- one thread shows a note in French, and then one in the locale of its own context -/
def exFr : Job :=
  .seq (.withLocale (some (str "fr")) (.show true (str "a") .ok)) (.show true (str "b") .ok)

/-- the other recovers from a locale that cannot be loaded -/
def exEn : Job := .seq (.tryExcept (.withLocale (some (str "??")) (.translate (str "x"))) (.translate (str "y"))) (.show true (str "c") .ok)

example : alone exLib exFr (str "en") = ([str "a!", str "b"], .ok ()) ∧
    alone exLib exEn (str "fr") = ([str "y!", str "c!"], .ok ()) := by decide +kernel

/-- both load the same catalogue, step by step in turn; both end as if alone -/
example : (((begin exLib [(exFr, str "en"), (exEn, str "fr")]).runs
      ((List.replicate 40 [0, 1, 1, 0]).flatMap id)).threads.map (·.out)) = [[str "a!", str "b"], [str "y!", str "c!"]] := by
  decide +kernel

/-- in the middle both have found the table without the French catalogue, and both load it -/
example : ((begin exLib [(exFr, str "en"), (exFr, str "en")]).runs ((List.replicate 12 [0, 1]).flatMap id)).table.map (·.1) =
    [str "fr", str "fr"] := by
  decide +kernel

end HL.Props
