import Verif.Props.HopThm

/-!
# Fields with parameters, in full: Transfer-Encoding, Content-Disposition, Accept, Accept-Language (C80, C81, C82)
-/

namespace HL.Props
open HL.F Syntax

/-! ### reading off the notes of some classes -/

/-- code that returns `a`, and whose notes of the classes `Xs` are `l` -/
structure Heard {α} (Xs : List NoteId) (add : AddNote) (w : W α) (l : List Report) (a : α) : Prop where
  notes : amongClass Xs w.notes = l.map (Report.note add)
  res : w.res = .ok a

theorem Heard.silent {α} {Xs add} {w : W α} {a} (h : ∀ x ∈ w.notes, Xs.contains x.cls = false) (hr : w.res = .ok a) : Heard Xs add w [] a := by
  refine ⟨?_, hr⟩
  unfold amongClass
  rw [List.map_nil, List.filter_eq_nil_iff]
  intro x hx
  rw [h x hx]
  simp

theorem Told.heard {α} {Xs add} {w : W α} {l a} (h : Told add w l a) (hX : ∀ r ∈ l, Xs.contains r.cls = true) : Heard Xs add w l a := ⟨h.among hX, h.res⟩

theorem Heard.pure {α} {Xs add} {a : α} : Heard Xs add (pure a : W α) [] a := ⟨rfl, rfl⟩

theorem Heard.bind {α β} {Xs add} {x : W α} {f : α → W β} {l l' a b} (h : Heard Xs add x l a) (h' : Heard Xs add (f a) l' b) : Heard Xs add (x >>= f) (l ++ l') b := by
  refine ⟨?_, ?_⟩
  · rw [W.bind_ok h.res]
    show amongClass Xs (x.notes ++ (f a).notes) = _
    rw [amongClass_append, h.notes, h'.notes, List.map_append]
  · rw [W.bind_ok h.res, h'.res]

theorem Heard.of {α} {Xs add} {w : W α} {l l' a} (h : Heard Xs add w l a) (e : l = l') : Heard Xs add w l' a := e ▸ h

theorem Heard.when {Xs add} {b : Bool} {X vrs} (hX : Xs.contains X = true) : Heard Xs add (W.when b (add.add X vrs)) (sayIf b ⟨X, vrs, []⟩) () :=
  Told.when.heard fun r hr => by obtain ⟨_, rfl⟩ := mem_sayIf.1 hr; exact hX

theorem Heard.add {Xs : List NoteId} {add : AddNote} {X vrs} (hX : Xs.contains X = true) : Heard Xs add (add.add X vrs) [⟨X, vrs, []⟩] () :=
  Told.add.heard fun r hr => by rw [List.mem_singleton] at hr; subst hr; exact hX

/-! ### computations that may raise -/

/-- if `w` returns, then what it reports is `l`, and what it returns is `p` -/
def Tells {α} (Xs : List NoteId) (add : AddNote) (w : W α) (l : List Report) (p : α → Prop) : Prop :=
  ∀ a, w.res = .ok a → amongClass Xs w.notes = l.map (Report.note add) ∧ p a

theorem Heard.tells {α} {Xs add} {w : W α} {l a} (h : Heard Xs add w l a) : Tells Xs add w l (· = a) := by
  intro b hb
  rw [h.res] at hb
  injection hb with hb
  exact ⟨h.notes, hb.symm⟩

theorem Told.tells {α} {Xs add} {w : W α} {l a} (h : Told add w l a) (hX : ∀ r ∈ l, Xs.contains r.cls = true) : Tells Xs add w l (· = a) := (h.heard hX).tells

theorem Tells.mono {α} {Xs add} {w : W α} {l p q} (h : Tells Xs add w l p) (hpq : ∀ a, p a → q a) : Tells Xs add w l q :=
  fun a ha => ⟨(h a ha).1, hpq a (h a ha).2⟩

theorem Tells.of {α} {Xs add} {w : W α} {l l' p} (h : Tells Xs add w l p) (e : l = l') : Tells Xs add w l' p := e ▸ h

theorem Tells.bind {α β} {Xs add} {x : W α} {f : α → W β} {l l' p q} (h : Tells Xs add x l p) (h' : ∀ a, p a → Tells Xs add (f a) l' q) : Tells Xs add (x >>= f) (l ++ l') q := by
  intro b hb
  cases hx : x.res with
  | error e => rw [W.bind_err hx] at hb; exact nomatch hb
  | ok a =>
    rw [W.bind_ok hx] at hb ⊢
    obtain ⟨h1, h2⟩ := h a hx
    obtain ⟨h3, h4⟩ := h' a h2 b hb
    refine ⟨?_, h4⟩
    show amongClass Xs (x.notes ++ (f a).notes) = _
    rw [amongClass_append, h1, h3, List.map_append]

theorem Tells.lift {α} {Xs add} {r : Except Exn α} : Tells Xs add (W.lift r) [] (fun a => r = .ok a) := fun _ h => ⟨rfl, h⟩

theorem Tells.lifted {α} {Xs add} {r : Except Exn α} {p : α → Prop} (hp : ∀ a, r = .ok a → p a) : Tells Xs add (W.lift r) [] p := fun _ h => ⟨rfl, hp _ h⟩

theorem Tells.throw {α} {Xs add} {e : Exn} {l p} : Tells Xs add (W.throw e : W α) l p := fun _ h => nomatch h

theorem Tells.error {α} {Xs add} {e : Exn} {l p} : Tells Xs add (W.lift (.error e) : W α) l p := fun _ h => nomatch h

theorem Tells.pure {α} {Xs add} {a : α} {p} (h : p a) : Tells Xs add (Pure.pure a : W α) [] p := by
  intro b hb
  injection hb with hb
  subst hb
  exact ⟨rfl, h⟩

theorem Tells.forEach {α} {Xs add} {l : List α} {f : α → W Unit} {g : α → List Report} (h : ∀ x ∈ l, Tells Xs add (f x) (g x) (fun _ => True)) :
    Tells Xs add (W.forEach l f) (l.flatMap g) (fun _ => True) := by
  induction l with
  | nil => exact Tells.pure trivial
  | cons x l ih =>
    rw [List.flatMap_cons]
    exact (h x (by simp)).bind fun _ _ => ih fun y hy => h y (by simp [hy])

theorem Tells.forEach_map {α β} {Xs add} {l : List α} {h : α → β} {f : β → W Unit} {g : α → List Report} (hf : ∀ x ∈ l, Tells Xs add (f (h x)) (g x) (fun _ => True)) :
    Tells Xs add (W.forEach (l.map h) f) (l.flatMap g) (fun _ => True) := by
  induction l with
  | nil => exact Tells.pure trivial
  | cons x l ih =>
    rw [List.map_cons, List.flatMap_cons]
    exact (hf x (by simp)).bind fun _ _ => ih fun y hy => hf y (by simp [hy])

theorem Tells.silent {α β} {Xs add} {r : Except Exn α} {f : α → W β} {l q} (h' : ∀ a, r = .ok a → Tells Xs add (f a) l q) : Tells Xs add (W.lift r >>= f) l q :=
  (Tells.lift.bind h').of (List.nil_append _)

theorem Tells.when {Xs add} {b : Bool} {X vrs} (hX : Xs.contains X = true) : Tells Xs add (W.when b (add.add X vrs)) (sayIf b ⟨X, vrs, []⟩) (fun _ => True) :=
  (Heard.when hX).tells.mono fun _ _ => trivial

theorem Tells.add {Xs : List NoteId} {add : AddNote} {X vrs} (hX : Xs.contains X = true) : Tells Xs add (add.add X vrs) [⟨X, vrs, []⟩] (fun _ => True) :=
  (Heard.add hX).tells.mono fun _ _ => trivial

theorem Tells.mapM {α β} {Xs add} {f : α → W β} {g : α → List Report} {p : α → β → Prop} (l : List α) (hf : ∀ x ∈ l, Tells Xs add (f x) (g x) (p x)) :
    Tells Xs add (l.mapM f) (l.flatMap g) (fun bs => Each p l bs) := by
  induction l with
  | nil => rw [List.mapM_nil]; exact Tells.pure .nil
  | cons x l ih =>
    rw [List.mapM_cons, List.flatMap_cons]
    refine (hf x (by simp)).bind fun b hb => ?_
    refine ((ih fun y hy => hf y (by simp [hy])).bind (l' := []) fun bs hbs => ?_).of (List.append_nil _)
    exact Tells.pure (.cons hb hbs)

/-! ### parameters -/

/-- the parameters found in a text: names and values, as written -/
def piecesOf (s : Str) : List (Str × Str) := (splitString s rfc9110.parameter (delimRE 59)).filterMap (split1 61)

/-- the parameters of a text that have a value: lower-case name and value, in order -/
def paramsOf (env : Env) (ns : NoStar) (s : Str) : List (Str × Str) := valued env ns (piecesOf s)

/-- the value of a parameter: the last one given -/
def paramOf (env : Env) (ns : NoStar) (s n : Str) : Option Str := (((paramsOf env ns s).filter fun p => p.1 == n).getLast?).map (·.2)

theorem pieces_split (xs : List Str) (h : ∀ x ∈ xs, ∃ k v, x = k ++ [61] ++ v ∧ IsTok k ∧ (IsTok v ∨ IsQuoted v)) :
    xs = (xs.filterMap (split1 61)).map (fun p => p.1 ++ [61] ++ p.2) ∧ ∀ p ∈ xs.filterMap (split1 61), IsTok p.1 ∧ (IsTok p.2 ∨ IsQuoted p.2) := by
  induction xs with
  | nil => exact ⟨rfl, fun p hp => nomatch hp⟩
  | cons x xs ih =>
    obtain ⟨e, hp⟩ := ih fun y hy => h y (by simp [hy])
    obtain ⟨k, v, rfl, hk, hv⟩ := h x (by simp)
    rw [List.filterMap_cons, split1_tok hk]
    refine ⟨by rw [List.map_cons, ← e], ?_⟩
    intro p h
    rcases List.mem_cons.1 h with rfl | h
    · exact ⟨hk, hv⟩
    · exact hp p h

/-- well-formed parameters are found, as written -/
theorem pieces_written (ps : List Piece) (tr : Str) (h : GoodPieces ps tr) : piecesOf (paramsText ps tr) = ps.map (·.2) := by
  unfold piecesOf
  rw [split_params ps tr h]
  have : ∀ l : List Piece, (∀ p ∈ l, p ∈ ps) → (l.map fun p => p.2.1 ++ [61] ++ p.2.2).filterMap (split1 61) = l.map (·.2) := by
    intro l
    induction l with
    | nil => intro _; rfl
    | cons p l ih =>
      intro hl
      rw [List.map_cons, List.filterMap_cons, split1_tok (h.names p (hl p (by simp))), ih fun q hq => hl q (by simp [hq])]
      rfl
  exact this ps fun _ h => h

/-- an ordinary parameter has the last value given to its name, in any case -/
theorem param_written (env : Env) (ns : NoStar) (ps : List Piece) (tr : Str) (h : GoodPieces ps tr) (m : Piece → Str)
    (hm : ∀ p ∈ ps, Means p.2.2 (m p)) (hstar : ∀ p ∈ ps, p.2.1.getLast? ≠ some 42) (n : Str) :
    paramOf env ns (paramsText ps tr) n = ((ps.filter fun p => lower p.2.1 == n).getLast?).map m := by
  unfold paramOf paramsOf
  rw [pieces_written ps tr h]
  have ho : ∀ p ∈ ps, (paramOutcome env ns p.2.1 p.2.2).2 = some (m p) := by
    intro p hp
    unfold paramOutcome
    dsimp only
    rw [if_pos (hstar p hp), unquote_means (hm p hp)]
  have hr : ∀ l : List Piece, (∀ p ∈ l, p ∈ ps) → valued env ns (l.map (·.2)) = l.map fun p => (lower p.2.1, m p) := by
    intro l hl
    unfold valued
    induction l with
    | nil => rfl
    | cons p l ih =>
      rw [List.map_cons, List.filterMap_cons, ho p (hl p (by simp)), ih fun q hq => hl q (by simp [hq])]
      rfl
  rw [hr ps fun _ h => h, ← List.getLast?_map, ← List.getLast?_map, List.filter_map, List.map_map]
  rfl

/-- the classes of note about the parameters themselves -/
def paramClasses : List NoteId :=
  [.PARAM_REPEATS, .PARAM_SINGLE_QUOTED, .PARAM_STAR_BAD, .PARAM_STAR_QUOTED, .PARAM_STAR_NOCHARSET, .PARAM_STAR_CHARSET, .PARAM_STAR_ERROR]

theorem pieceNotes_classes (env ns before p) : ∀ X ∈ pieceNotes env ns before p, X ∈ paramClasses := by
  intro X hX
  unfold pieceNotes at hX
  rcases List.mem_append.1 hX with hX | hX
  · split at hX
    · rw [List.mem_singleton] at hX; subst hX; decide
    · exact absurd hX (by simp)
  · have hs : ∀ {c : Prop} [Decidable c] (Y : NoteId), Y ∈ paramClasses → X ∈ (if c then [Y] else []) → X ∈ paramClasses := by
      intro c _ Y hY h
      split at h
      · rw [List.mem_singleton] at h; subst h; exact hY
      · exact absurd h (by simp)
    have he : ∀ v Y, extendedValue env v = .error Y → Y ∈ paramClasses := by
      intro v Y h
      unfold extendedValue at h
      split at h
      · split at h
        · injection h with h; subst h; decide
        · split at h
          · exact nomatch h
          · injection h with h; subst h; decide
      · injection h with h; subst h; decide
    unfold paramOutcome at hX
    dsimp only at hX
    split at hX
    · exact hs _ (by decide) hX
    · split at hX
      · rcases List.mem_append.1 hX with hX | hX
        · exact hs _ (by decide) hX
        · rw [List.mem_singleton] at hX; subst hX; decide
      · split at hX
        · rcases List.mem_append.1 hX with hX | hX
          · exact hs _ (by decide) hX
          · exact hs _ (by decide) hX
        · rename_i Y hY
          rcases List.mem_append.1 hX with hX | hX
          · rcases List.mem_append.1 hX with hX | hX
            · exact hs _ (by decide) hX
            · exact hs _ (by decide) hX
          · rw [List.mem_singleton] at hX; subst hX; exact he _ _ hY

theorem filterMap_named (l : List (Str × Str)) (n : Str) :
    (l.map fun p => (p.1, Val.str p.2)).filterMap (fun p => if p.1 = n then some p.2 else none) = (l.filter fun p => p.1 == n).map fun p => Val.str p.2 := by
  induction l with
  | nil => rfl
  | cons p l ih =>
    rw [List.map_cons, List.filterMap_cons]
    by_cases hn : p.1 = n
    · rw [List.filter_cons_of_pos (by simp [hn]), List.map_cons, ← ih]
      simp [hn]
    · rw [List.filter_cons_of_neg (by simp [hn]), ← ih]
      simp [hn]

/-- **what `parse_params` gives for any text** -/
theorem params_heard (env : Env) (add : AddNote) (s : Str) (ns : NoStar) (Xs : List NoteId) (hX : ∀ X ∈ paramClasses, Xs.contains X = false) :
    ∃ d, Heard Xs add (parseParams env add s ns) [] d ∧ (∀ n, dget d n = (paramOf env ns s n).map Val.str) ∧ (d = [] ↔ paramsOf env ns s = []) := by
  obtain ⟨e, hps⟩ := pieces_split _ (pieces_are s (delimRE 59))
  have hl := loop_does env add ns _ [] [] hps rfl
  rw [← e, List.nil_append] at hl
  refine ⟨_, Heard.silent ?_ hl.res, ?_, ?_⟩
  · intro x hx
    have : (x.cls, x.subject) ∈ (parseParams env add s ns).notes.map tag := List.mem_map_of_mem (f := tag) hx
    unfold parseParams at this
    rw [hl.notes] at this
    obtain ⟨X, h1, h2⟩ := List.mem_map.1 this
    obtain ⟨p, _, hp⟩ := List.mem_flatMap.1 h1
    have := pieceNotes_classes env ns _ _ X hp
    injection h2 with h2 _
    rw [← h2]
    exact hX X this
  · intro n
    unfold paramOf paramsOf piecesOf
    generalize valued env ns _ = l
    have e : l.foldl (fun d p => dset d p.1 (Val.str p.2)) [] = (l.map fun p => (p.1, Val.str p.2)).foldl (fun d p => dset d p.1 p.2) [] := by
      rw [List.foldl_map]
    rw [e, dget_last, filterMap_named, ← List.getLast?_map, ← List.getLast?_map, List.map_map]
    rfl
  · unfold paramsOf piecesOf
    generalize valued env ns _ = l
    constructor
    · intro h
      cases l with
      | nil => rfl
      | cons p l =>
        have := (dhas_fold (p :: l) p.1).2 (by simp)
        rw [h] at this
        exact nomatch this
    · intro h; rw [h]; rfl

theorem Told.mapM {α β} {add : AddNote} {f : α → W β} {g : α → List Report} {h : α → β} (l : List α) (hf : ∀ x ∈ l, Told add (f x) (g x) (h x)) :
    Told add (l.mapM f) (l.flatMap g) (l.map h) := by
  induction l with
  | nil => rw [List.mapM_nil]; exact .pure
  | cons x l ih =>
    rw [List.mapM_cons, List.flatMap_cons]
    exact Told.bind (hf x (by simp)) (Told.of (Told.bind (ih fun y hy => hf y (by simp [hy])) .pure) (List.append_nil _))

/-! ### Content-Disposition -/

/-- what is reported on a `Content-Disposition` -/
def dispositionReports (env : Env) (v : Str) : List Report :=
  let disposition := lower (beforeC 59 v)
  let filename := paramOf env .none (afterC 59 v) (str "filename")
  let filenameStar := paramOf env .none (afterC 59 v) (str "filename*")
  sayIf (disposition != str "inline" && disposition != str "attachment") { cls := .DISPOSITION_UNKNOWN, vars := [(str "disposition", .str disposition)] } ++
  sayIf (disposition == str "attachment" && filename.isNone) { cls := .DISPOSITION_OMITS_FILENAME } ++
  sayIf (filename.any fun s => s.contains 37) { cls := .DISPOSITION_FILENAME_PERCENT } ++
  sayIf ((filename.any fun s => s.contains 47) || filenameStar.any fun s => isSub [92, 92] s) { cls := .DISPOSITION_FILENAME_PATH_CHAR }

/-- its classes of note -/
def dispositionClasses : List NoteId := [.DISPOSITION_UNKNOWN, .DISPOSITION_OMITS_FILENAME, .DISPOSITION_FILENAME_PERCENT, .DISPOSITION_FILENAME_PATH_CHAR]

theorem neither (v a b : Str) : (![a, b].contains v) = (v != a && v != b) := by
  by_cases h1 : v = a
  · subst h1; simp
  · by_cases h2 : v = b
    · subst h2; simp
    · simp [h1, h2, bne]

theorem disposition_heard (env : Env) (add : AddNote) (v : Str) : ∃ a, Heard dispositionClasses add (content_disposition.parse env add v) (dispositionReports env v) a := by
  obtain ⟨d, hd, hg, _⟩ := params_heard env add (afterC 59 v) .none dispositionClasses (by decide)
  have hh : ∀ n, dhas d n = (paramOf env .none (afterC 59 v) n).isSome := by
    intro n
    have := dget_isSome d n
    rw [hg] at this
    rw [Bool.eq_iff_iff, ← this, Option.isSome_map]
  have hq : ∀ n (q : Str → Bool), q [] = false → q (((dget d n).getD .none).asStr) = (paramOf env .none (afterC 59 v) n).any q := by
    intro n q h0
    rw [hg]
    cases paramOf env .none (afterC 59 v) n with
    | none => exact h0
    | some x => rfl
  unfold content_disposition.parse dispositionReports
  rw [splitSemi_eq]
  dsimp only
  refine ⟨.tuple [.str (lower (beforeC 59 v)), Val.ofDict d], Heard.of (hd.bind ?_) (List.nil_append _)⟩
  have : ∀ o : Option Str, (!o.isSome) = o.isNone := by intro o; cases o <;> rfl
  rw [neither, hh, hq _ (fun s => s.contains 37) rfl, hq _ (fun s => s.contains 47) rfl, hq _ (fun s => isSub [92, 92] s) rfl, this]
  refine Heard.of (Heard.bind (.when rfl) (Heard.bind (.when rfl) (Heard.bind (.when rfl) (Heard.bind (.when rfl) .pure)))) ?_
  simp only [List.append_nil, List.append_assoc]

section
variable {env : Env} {related : Option Msg} {t : Bool} {ls : List Line} {m m' : Msg}

/-- **C81** `Content-Disposition`, in full: what is reported about the disposition and the filename -/
theorem C81_disposition_partial (P : Processed env related t ls m m') :
    Reported dispositionClasses m m' ((namesFor .content_disposition_ ls).flatMap fun n => (dispositionReports env (textOf ls n)).map (fieldSubject n, ·)) := by
  have hcl : ∀ v, ∀ r ∈ dispositionReports env v, r.Clean := by
    intro v r hr
    unfold dispositionReports at hr
    simp only [List.mem_append, mem_sayIf] at hr
    rcases hr with ((⟨_, rfl⟩ | ⟨_, rfl⟩) | ⟨_, rfl⟩) | ⟨_, rfl⟩ <;> exact ⟨by simp, by simp⟩
  have := P.text_reports (Xs := dispositionClasses) (f := .content_disposition_) (by only_these) rfl (by cases m.kind <;> rfl)
    (dispositionReports env) (fun _ => []) hcl (fun _ _ _ h => absurd h (by simp)) ?_ ?_
  · refine this.congr (flatMap_congr' fun n _ => ?_)
    rw [ite_self, List.append_nil]
  · intro add hd v hf
    unfold Handler.parse
    rw [hf]
    exact (disposition_heard env add v).choose_spec.notes
  · intro c add hd n _ _ _ _ _ hf _
    unfold Handler.evaluate
    rw [hf]
    rfl

end

/-! ### Transfer-Encoding -/

/-- the transfer codings of a field: its elements without parameters, in lower case -/
def codingsOf (ls : List Line) (n : Str) : List Str := (elementsOf ls n).map fun e => lower (beforeC 59 e)

/-- what is reported on an element -/
def codingReports (env : Env) (e : Str) : List Report := sayIf (paramsOf env .all (afterC 59 e) != []) { cls := .TRANSFER_CODING_PARAM }

/-- `l` lists the codings other than `chunked` and `identity` that have not been asked for, each once -/
def ListsUnwanted (codings asked l : List Str) : Prop :=
  l.Nodup ∧ ∀ x, x ∈ l ↔ x ∈ codings ∧ x ≠ str "chunked" ∧ x ≠ str "identity" ∧ x ∉ asked

/-- what is reported on the whole, given the unwanted codings -/
def transferReports (codings unwanted : List Str) : List Report :=
  (unwanted.map fun x => { cls := .TRANSFER_CODING_UNWANTED, vars := [(str "coding", .str x)] }) ++
  sayIf (codings.contains (str "identity")) { cls := .TRANSFER_CODING_IDENTITY }

/-- its classes of note -/
def transferClasses : List NoteId := [.TRANSFER_CODING_PARAM, .TRANSFER_CODING_UNWANTED, .TRANSFER_CODING_IDENTITY]

/-- the codings that the client of a message asked for are `tes`: those the `TE` of the request lists, if the message is a response and
its request is known -/
def AskedFor (m : Msg) (related : Option Msg) (tes : List (Str × Val)) : Prop :=
  match m.kind, related with
  | .response, some q => q.kind = .request ∧ (dget q.headers.parsed (str "te")).getD (.list []) = .list (tes.map fun p => .tuple [.str p.1, p.2])
  | _, _ => tes = []

theorem transfer_heard (env : Env) (add : AddNote) (v : Str) :
    ∃ d, Heard transferClasses add (transfer_encoding.parse env add v) (codingReports env v) (.tuple [.str (lower (beforeC 59 v)), Val.ofDict d]) := by
  obtain ⟨d, hd, _, he⟩ := params_heard env add (afterC 59 v) .all transferClasses (by decide)
  unfold transfer_encoding.parse codingReports
  rw [splitSemi_eq]
  dsimp only
  refine ⟨d, Heard.of (hd.bind ?_) (List.nil_append _)⟩
  have : (!d.isEmpty) = (paramsOf env .all (afterC 59 v) != []) := by
    by_cases h : d = []
    · rw [he.1 h, h]; rfl
    · have h2 : paramsOf env .all (afterC 59 v) ≠ [] := fun e => h (he.2 e)
      cases d with
      | nil => exact absurd rfl h
      | cons a b => simpa using h2
  rw [this]
  exact Heard.of (Heard.bind (.when rfl) .pure) (List.append_nil _)

/-- the unwanted codings, in order of first occurrence -/
def unwantedOf (codings asked : List Str) : List Str :=
  (dedup (codings.filter fun x => !([str "chunked", str "identity"].contains x))).filter fun x => !(asked.contains x)

theorem unwanted_lists (codings asked : List Str) : ListsUnwanted codings asked (unwantedOf codings asked) := by
  refine ⟨(dedup_nodup _).filter _, fun x => ?_⟩
  unfold unwantedOf
  rw [List.mem_filter, mem_dedup, List.mem_filter, neither, Bool.and_eq_true, bne_iff_ne, bne_iff_ne, and_assoc, and_assoc]
  simp

theorem transfer_told {c : Ctx} (add : AddNote) (hd : Handler) (ps : List (Str × Val)) (tes : List (Str × Val))
    (hv : hd.value = .list (ps.map fun p => .tuple [.str p.1, p.2])) (ha : AskedFor c.msg c.related tes) :
    Told add (transfer_encoding.evaluate c add hd) (transferReports (ps.map (·.1)) (unwantedOf (ps.map (·.1)) (tes.map (·.1)))) () := by
  have hm : ∀ {f : Val → W Val} (l : List (Str × Val)), (∀ p : Str × Val, f (.tuple [.str p.1, p.2]) = W.lift (.ok (.str p.1))) →
      Told add ((l.map fun p => Val.tuple [.str p.1, p.2]).mapM f) [] (l.map fun p => .str p.1) := by
    intro f l hf
    have := Told.mapM (add := add) (f := f) (g := fun _ => []) (h := fun x => match x with | .tuple (.str s :: _) => Val.str s | _ => .none) (l.map fun p => Val.tuple [.str p.1, p.2]) (by
      intro x hx
      obtain ⟨p, _, rfl⟩ := List.mem_map.1 hx
      rw [hf]
      exact .lift rfl)
    rw [List.map_map] at this
    exact this.of (by simp)
  unfold transfer_encoding.evaluate
  have h1 : hd.value.iter = .ok (ps.map fun p => .tuple [.str p.1, p.2]) := by rw [hv]; rfl
  have h2 : Told add ((ps.map fun p => Val.tuple [.str p.1, p.2]).mapM fun i => do
      let v ← W.lift (i.idx 0)
      pure v.asStr) [] (ps.map (·.1)) := by
    have := Told.mapM (add := add) (f := fun i : Val => do
      let v ← W.lift (i.idx 0)
      pure v.asStr) (g := fun _ => []) (h := fun x => match x with | .tuple (.str s :: _) => s | _ => []) (ps.map fun p => Val.tuple [.str p.1, p.2]) (by
        intro x hx
        obtain ⟨p, _, rfl⟩ := List.mem_map.1 hx
        exact ⟨rfl, rfl⟩)
    rw [List.map_map] at this
    exact this.of (by simp)
  unfold unwantedOf
  generalize hun : dedup ((ps.map (·.1)).filter fun x => !([str "chunked", str "identity"].contains x)) = un0
  have hun2 :
      ∀ (tail : List Str → W Unit) l, Told add (tail (un0.filter fun x => !((tes.map (·.1)).contains x))) l () → Told add (if un0.isEmpty then (do let u ← pure []; tail u) else
        match c.isRequest, c.request with
        | false, some req =>
          if req.kind = .request then do
            let ts ← W.lift ((dget req.headers.parsed (str "te")).getD (.list [])).iter
            let tes ← ts.mapM fun t => W.lift (t.idx 0)
            let u ← pure (un0.filter fun x => !(tes.any (Val.pyEq (.str x))))
            tail u
          else do let u ← pure un0; tail u
        | _, _ => do let u ← pure un0; tail u) l () := by
    intro tail l h
    by_cases h0 : un0 = []
    · rw [h0] at h ⊢; exact h
    · have hne : un0.isEmpty = false := by cases un0 with | nil => exact absurd rfl h0 | cons _ _ => rfl
      rw [hne]
      have plain : tes = [] → Told add (tail un0) l () := by
        intro e
        rw [e, List.filter_eq_self.2 (by simp)] at h
        exact h
      unfold AskedFor at ha
      unfold Ctx.isRequest Ctx.request
      cases hk : c.msg.kind with
      | request =>
        rw [hk] at ha
        exact plain (by cases hr : c.related <;> rw [hr] at ha <;> exact ha)
      | response =>
        rw [hk] at ha
        cases hr : c.related with
        | none => rw [hr] at ha; exact plain ha
        | some q =>
          rw [hr] at ha
          obtain ⟨hq, hte⟩ := ha
          show Told add (if q.kind = .request then _ else _) _ _
          rw [if_pos hq, hte]
          refine Told.of (Told.bind (a := tes.map fun p => .tuple [.str p.1, p.2]) (l := []) (.lift rfl) (Told.of (Told.bind (hm tes fun p => rfl) ?_) (List.nil_append _))) (List.nil_append _)
          have : ∀ x, ((tes.map fun p => Val.str p.1).any (Val.pyEq (.str x))) = (tes.map (·.1)).contains x := by
            intro x
            rw [List.any_map, Bool.eq_iff_iff, List.any_eq_true, List.contains_iff_mem, List.mem_map]
            constructor
            · rintro ⟨p, h1, h2⟩
              have h2 : (x == p.1) = true := h2
              exact ⟨p, h1, (beq_iff_eq.1 h2).symm⟩
            · rintro ⟨p, h1, rfl⟩
              exact ⟨p, h1, show (p.1 == p.1) = true by simp⟩
          simp only [this]
          exact h
  refine Told.of (Told.bind (l := []) (.lift h1) (Told.of (Told.bind h2 ?_) (List.nil_append _))) (List.nil_append _)
  dsimp only
  rw [hun]
  refine hun2 _ _ ?_
  refine Told.bind (a := ()) ((Told.forEach (g := fun x => [⟨.TRANSFER_CODING_UNWANTED, [(str "coding", .str x)], []⟩]) fun _ _ => .add).of ?_) .when
  exact List.map_eq_flatMap.symm

section
variable {env : Env} {related : Option Msg} {t : Bool} {ls : List Line} {m m' : Msg}

theorem transferReports_clean (a b : List Str) : ∀ r ∈ transferReports a b, r.Clean ∧ transferClasses.contains r.cls = true := by
  intro r hr
  rcases List.mem_append.1 hr with hr | hr
  · obtain ⟨x, _, rfl⟩ := List.mem_map.1 hr; exact ⟨⟨by simp, by simp⟩, rfl⟩
  · obtain ⟨_, rfl⟩ := mem_sayIf.1 hr; exact ⟨⟨by simp, by simp⟩, rfl⟩

theorem codingReports_clean (env : Env) (v : Str) : ∀ r ∈ codingReports env v, r.Clean := by
  intro r hr
  obtain ⟨_, rfl⟩ := mem_sayIf.1 hr
  exact ⟨by simp, by simp⟩

theorem transfer_parse (env : Env) (c : Ctx) (he : c.env = env) (add : AddNote) (hd : Handler) (v : Str) (hf : hd.fid = .transfer_encoding_) :
    amongClass transferClasses (hd.parse c add v).2.notes = (codingReports env v).map (Report.note add) := by
  obtain ⟨d, hh⟩ := transfer_heard env add v
  unfold Handler.parse
  rw [hf]
  subst he
  exact hh.notes

theorem transfer_evaluate (P : Processed env related t ls m m') {tes : List (Str × Val)} (ha : AskedFor m related tes)
    (c : Ctx) (add : AddNote) (hd : Handler) (n : Str) (hdur : During env related t m c) (hf : hd.fid = .transfer_encoding_)
    (hv : hd.value = valueOf env related m .transfer_encoding_ ls n) :
    amongClass transferClasses (hd.evaluate c add).2.notes = (transferReports (codingsOf ls n) (unwantedOf (codingsOf ls n) (tes.map (·.1)))).map (Report.note add) := by
  obtain ⟨ds, hp⟩ : ∃ ds : Str → Val, ∀ x, parseText ⟨env, m, related⟩ .transfer_encoding_ x = .ok (.tuple [.str (lower (beforeC 59 x)), ds x]) :=
    ⟨fun x => Val.ofDict (transfer_heard env ⟨[], [], []⟩ x).choose, fun x => (transfer_heard env ⟨[], [], []⟩ x).choose_spec.res⟩
  have hval : hd.value = .list (((elementsOf ls n).map fun e => (lower (beforeC 59 e), ds e)).map fun p => .tuple [.str p.1, p.2]) := by
    rw [hv, valueOf_list rfl _ hp]
    unfold elementsOf
    rw [List.map_map, List.map_map]
    rfl
  have hask : AskedFor c.msg c.related tes := by
    unfold AskedFor at *
    rw [hdur.kind, hdur.related]
    exact ha
  have := transfer_told (c := c) add hd _ tes hval hask
  unfold Handler.evaluate
  rw [hf]
  have e : ((elementsOf ls n).map fun e => (lower (beforeC 59 e), ds e)).map (·.1) = codingsOf ls n := by
    unfold codingsOf; rw [List.map_map]; rfl
  rw [e] at this
  exact this.among fun r hr => (transferReports_clean _ _ r hr).2

/-- **C80** `Transfer-Encoding`, in full: each element with parameters is reported at its line; then, on the field, each coding
that is neither `chunked` nor `identity` and that the client did not ask for, once, and the use of `identity` -/
theorem C80_transfer_encoding (P : Processed env related t ls m m') {tes : List (Str × Val)} (ha : AskedFor m related tes) :
    ∃ un : Str → List Str, (∀ n, ListsUnwanted (codingsOf ls n) (tes.map (·.1)) (un n)) ∧
      Reported transferClasses m m' (((linesFor m.kind .transfer_encoding_ ls).flatMap fun p => (lineElements p.2.2).flatMap fun e => (codingReports env e).map (offsetSubject p.1, ·)) ++
        (namesFor .transfer_encoding_ ls).flatMap fun n => (transferReports (codingsOf ls n) (un n)).map (fieldSubject n, ·)) := by
  refine ⟨fun n => unwantedOf (codingsOf ls n) (tes.map (·.1)), fun n => unwanted_lists _ _, ?_⟩
  have hX : Only transferClasses [.transfer_encoding_] := by only_these
  have hV : FieldId.validIn .transfer_encoding_ m.kind = true := by cases m.kind <;> rfl
  have hP : ∀ (add : AddNote) (hd : Handler) v, hd.fid = .transfer_encoding_ → amongClass transferClasses (hd.parse ⟨env, m, related⟩ add v).2.notes = (codingReports env v).map (Report.note add) :=
    fun add hd v hf => transfer_parse env ⟨env, m, related⟩ rfl add hd v hf
  have := P.list_reports hX rfl hV (codingReports env)
    (fun n => transferReports (codingsOf ls n) (unwantedOf (codingsOf ls n) (tes.map (·.1)))) (codingReports_clean env) (fun n _ r hr => (transferReports_clean _ _ r hr).1)
    hP (fun c add hd n hn hdur _ _ hf hv => transfer_evaluate P ha c add hd n hdur hf hv)
  exact this

/-- the codings a linted request asks for are those its `TE` lists -/
theorem asked_recorded {envq : Env} {relq : Option Msg} {lq : List Line} {q0 q : Msg} (Pq : Processed envq relq false lq q0 q) (hq : q0.kind = .request)
    (hn : dget q0.headers.parsed (str "te") = none) (hu : Unpadded lq) (hm : m.kind = .response) :
    ∃ tes, AskedFor m (some q) tes ∧ tes.map (·.1) = codingsOf lq (str "te") := by
  obtain ⟨ds, hp⟩ : ∃ ds : Str → Val, ∀ x, parseText ⟨envq, q0, relq⟩ .te_ x = .ok (.tuple [.str (lower (beforeC 59 x)), ds x]) := by
    have : ∀ x, ∃ d, Heard [] ⟨[], [], []⟩ (codingParse envq ⟨[], [], []⟩ x) [] (.tuple [.str (lower (beforeC 59 x)), d]) := by
      intro x
      obtain ⟨d, hd, _⟩ := params_heard envq ⟨[], [], []⟩ (afterC 59 x) (.names [str "q"]) [] (by simp)
      refine ⟨Val.ofDict d, ?_⟩
      unfold codingParse
      rw [splitSemi_eq]
      exact Heard.bind hd .pure
    exact ⟨fun x => (this x).choose, fun x => (this x).choose_spec.res⟩
  refine ⟨(elementsOf lq (str "te")).map fun e => (lower (beforeC 59 e), ds e), ?_, by rw [List.map_map]; rfl⟩
  unfold AskedFor
  rw [hm]
  have hkind : q.kind = q0.kind := by
    have := (processSection_ext envq relq false lq q0).kind
    rwa [Pq.ok] at this
  refine ⟨hkind.trans hq, ?_⟩
  by_cases h : str "te" ∈ namesOf lq
  · have hte : str "te" ∈ namesFor .te_ lq := mem_namesFor.2 ⟨h, by decide +kernel⟩
    have := Pq.recorded hu (f := .te_) (by decide) (by rw [hq]; rfl) (fun _ => rfl) hte
    have e : (q.section false).parsed = q.headers.parsed := rfl
    rw [e] at this
    rw [this, valueOf_list rfl _ hp]
    unfold elementsOf
    rw [List.map_map, List.map_map]
    rfl
  · have := section_values Pq.linting Pq.new hu Pq.ok (str "te")
    rw [if_neg h] at this
    have e : dget q.headers.parsed (str "te") = none := this.trans hn
    have : valuesOf lq (str "te") = [] := by
      unfold valuesOf
      rw [List.map_eq_nil_iff, List.filter_eq_nil_iff]
      intro l hl he
      refine h (mem_dedup.2 (List.mem_map.2 ⟨l, hl, ?_⟩))
      exact beq_iff_eq.1 he
    rw [e]
    unfold elementsOf
    rw [this]
    rfl

/-- **C80** (response to a linted request) the codings reported as unwanted are those that the request's `TE` doesn't list -/
theorem C80_transfer_encoding_response {envq : Env} {relq : Option Msg} {lq : List Line} {q0 q : Msg} (Pq : Processed envq relq false lq q0 q) (hq : q0.kind = .request)
    (hn : dget q0.headers.parsed (str "te") = none) (hu : Unpadded lq) (P : Processed env (some q) t ls m m') (hm : m.kind = .response) :
    ∃ un : Str → List Str, (∀ n, ListsUnwanted (codingsOf ls n) (codingsOf lq (str "te")) (un n)) ∧
      Reported transferClasses m m' (((linesFor m.kind .transfer_encoding_ ls).flatMap fun p => (lineElements p.2.2).flatMap fun e => (codingReports env e).map (offsetSubject p.1, ·)) ++
        (namesFor .transfer_encoding_ ls).flatMap fun n => (transferReports (codingsOf ls n) (un n)).map (fieldSubject n, ·)) := by
  obtain ⟨tes, h1, h2⟩ := asked_recorded Pq hq hn hu hm
  obtain ⟨un, h3, h4⟩ := C80_transfer_encoding P h1
  exact ⟨un, by rwa [h2] at h3, h4⟩

end

end HL.Props
