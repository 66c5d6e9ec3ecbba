import Verif.Props.FinishValues

/-!
# The syntax notes added when a field is finished
-/

namespace HL.Props

/-- is a piece of text in the grammar of a field class (but for white space around it)? -/
def inGrammar (f : FieldId) (v : Str) : Bool :=
  match f.info.syn with
  | none => true
  | some r => matchSpaced r v

/-- the syntax notes added when a field of class `f` is finished, with what they are about: `subj` is the field, the
lines `ps` carry their numbers -/
def finishFrame (env : Env) (f : FieldId) (subj : Str) (ps : List (Nat × Str)) : List (NoteId × Str) :=
  match f.info.kind with
  | .singleton =>
    (if ps.length > 1 then [(.SINGLE_HEADER_REPEAT, subj)] else []) ++
    (match ps with
     | p :: _ => if inGrammar f p.2 then [] else if f.info.reportSyntax then [(.BAD_SYNTAX, subj)] else []
     | [] => [])
  | .broken => (ps.filter fun p => !inGrammar f p.2).map fun p => (.BAD_SYNTAX, offsetSubject p.1)
  | .sf t =>
    (match env.sfParse t (strip (join (str ", ") (ps.map (·.2)))) with
     | .ok _ d => d.map fun _ => (.DUPLICATE_KEY, subj)
     | .sfError _ _ d => (d.map fun _ => (.DUPLICATE_KEY, subj)) ++ [(.STRUCTURED_FIELD_PARSE_ERROR, subj)]
     | .error _ d => (d.map fun _ => (.DUPLICATE_KEY, subj)) ++ [(.STRUCTURED_FIELD_PARSE_ERROR, subj)])
  | .json =>
    (match env.jsonLoads (str "[" ++ join (str ", ") (ps.map (·.2)) ++ str "]") with
     | .decodeError _ => [(.BAD_JSON, subj)]
     | _ => [])
  | _ => []

theorem fed_aux {c : Ctx} (hm : HasMT c.msg.defaults) (name ps) : AuxOK (fedLines c name ps).aux := by
  unfold fedLines
  have h0 : AuxOK (mkHandler (classOf name) name).aux := by
    have : (mkHandler (classOf name) name).aux = {} := by unfold mkHandler; dsimp only; split <;> rfl
    rw [this]; exact auxOK_empty
  generalize mkHandler (classOf name) name = h at *
  induction ps generalizing h with
  | nil => exact h0
  | cons p ps ih => exact ih _ (handleInput_ok c hm h h0 _ _).1

theorem evalAfter_frame {add : AddNote} (hg : AddGood add keys1) (c ns) (h : Handler) (ha : AuxOK h.aux) :
    (h.evalAfter c add ns).2.notes.filter isFrame = ns.filter isFrame := by
  unfold Handler.evalAfter
  split
  · rfl
  · have he := Handler.evaluate_ok hg c h ha
    show (ns ++ (h.evaluate c add).2.notes).filter isFrame = _
    rw [List.filter_append, filter_notFrame he.2, List.append_nil]

theorem tags_one {add : AddNote} {cls : NoteId} {vrs cat} (ho : cls.origin = .frame) :
    (([add.mk1 cls vrs cat] : List Note).filter isFrame).map tag = [(cls, add.subject)] := by
  rw [List.filter_cons_of_pos (frame_mk1 add cls vrs cat ho)]; rfl

theorem dupKey_tags (add : AddNote) (d : List (Str × Str)) :
    ((dupKeyNotes add d).filter isFrame).map tag = d.map fun _ => (.DUPLICATE_KEY, add.subject) := by
  unfold dupKeyNotes
  induction d with
  | nil => rfl
  | cons p d ih =>
    rw [List.map_cons, List.filter_cons_of_pos (frame_mk1 _ _ _ _ rfl), List.map_cons, ih]
    rfl

theorem brokenLoop_frame (c : Ctx) (hm : HasMT c.msg.defaults) (rs : List (Str × Nat)) :
    ∀ (h : Handler) (acc : List Val), AuxOK h.aux → (∃ vs, (h.brokenLoop c rs acc).2.res = .ok vs) →
      ((h.brokenLoop c rs acc).2.notes.filter isFrame).map tag =
        (rs.filter fun p => !inGrammar h.fid p.1).map fun p => (.BAD_SYNTAX, offsetSubject p.2) := by
  induction rs with
  | nil => intro h acc ha _; rfl
  | cons r rs ih =>
    obtain ⟨raw, o⟩ := r
    intro h acc ha
    unfold Handler.brokenLoop
    dsimp only
    have hg := offsetAdd_good hm h o
    have hsub : (h.offsetAdd c.msg.defaults o).subject = offsetSubject o := rfl
    generalize h.offsetAdd c.msg.defaults o = add at *
    have hp := Handler.parse_ok hg c h ha (strip raw)
    generalize h.parse c add (strip raw) = p at *
    obtain ⟨aux, r⟩ := p
    dsimp only at *
    have hsyn : ((match h.fid.info.syn with
       | none => []
       | some r => if matchSpaced r raw then [] else [add.mk1 .BAD_SYNTAX [(str "ref_uri", .str h.reference)]]).filter isFrame).map tag =
        if inGrammar h.fid raw then [] else [(.BAD_SYNTAX, offsetSubject o)] := by
      unfold inGrammar
      cases h.fid.info.syn with
      | none => rfl
      | some r =>
        dsimp only
        split
        · rfl
        · rw [tags_one rfl, hsub]
    have fin : ∀ syn ns : List Note, (syn.filter isFrame).map tag = (if inGrammar h.fid raw then [] else [(NoteId.BAD_SYNTAX, offsetSubject o)]) → (ns.filter isFrame).map tag = ((rs.filter fun p => !inGrammar h.fid p.1).map fun p => (NoteId.BAD_SYNTAX, offsetSubject p.2)) →
        (((syn ++ r.notes) ++ ns).filter isFrame).map tag =
          (((raw, o) :: rs).filter fun p => !inGrammar h.fid p.1).map fun p => (.BAD_SYNTAX, offsetSubject p.2) := by
      intro syn ns hsyn hns
      rw [List.filter_append, List.filter_append, filter_notFrame hp.2, List.append_nil, List.map_append, hsyn, hns]
      cases hg : inGrammar h.fid raw
      · rw [List.filter_cons_of_pos (by simp [hg])]; rfl
      · rw [List.filter_cons_of_neg (by simp [hg])]; rfl
    cases hr2 : r.res with
    | error e =>
      dsimp only
      split
      · intro hok; exact fin _ _ hsyn (ih { h with aux } acc hp.1 hok)
      · intro h; simp at h
    | ok x => intro hok; exact fin _ _ hsyn (ih { h with aux } (acc ++ [x]) hp.1 hok)

theorem finish_frame {c0 c : Ctx} {add name} {ps : List (Nat × Str)} (hne : ps ≠ []) (hg : AddGood add keys1)
    (hm0 : HasMT c0.msg.defaults) (hm : HasMT c.msg.defaults) (hr : ((fedLines c0 name ps).finish c add).2.res = .ok ()) :
    (((fedLines c0 name ps).finish c add).2.notes.filter isFrame).map tag = finishFrame c.env (classOf name) add.subject ps := by
  have hid := (fed_id c0 name ps).fid
  rw [mkHandler_fid] at hid
  have hxs : ps.map (·.2) ≠ [] := by simpa using hne
  have haux := fed_aux hm0 name ps
  unfold finishFrame
  cases hk : (classOf name).info.kind with
  | list =>
    unfold Handler.finish
    rw [hid, hk]
    dsimp only
    rw [evalAfter_frame hg _ _ _ haux]; rfl
  | unknown =>
    unfold Handler.finish
    rw [hid, hk]
    dsimp only
    rw [evalAfter_frame hg _ _ _ haux]; rfl
  | singleton =>
    have hv := fed_singleton (c := c0) hk ps
    unfold Handler.finish at hr ⊢
    rw [hid, hk] at hr ⊢
    dsimp only at hr ⊢
    unfold Handler.finishSingleton at hr ⊢
    cases ps with
    | nil => exact absurd rfl hne
    | cons p ps =>
      have hraw : (fedLines c0 name (p :: ps)).raw = (p.2, 0) :: ps.map fun p => (p.2, 0) := by rw [hv]; rfl
      simp only [hraw] at hr ⊢
      have hp := Handler.parse_ok hg.to0 c _ haux (strip p.2)
      generalize (fedLines c0 name (p :: ps)).parse c add (strip p.2) = q at *
      obtain ⟨aux, r⟩ := q
      dsimp only at *
      rw [hid] at hr ⊢
      have h1 : ((if (ps.map fun p => (p.2, (0 : Nat))).isEmpty then [] else [add.mk1 .SINGLE_HEADER_REPEAT]).filter isFrame).map tag =
          if (p :: ps).length > 1 then [(.SINGLE_HEADER_REPEAT, add.subject)] else [] := by
        cases ps with
        | nil => rfl
        | cons q qs => exact tags_one rfl
      have h2 : ((match (classOf name).info.syn with
       | none => []
       | some r => if matchSpaced r p.2 then []
         else if (classOf name).info.reportSyntax then [add.mk1 .BAD_SYNTAX [(str "ref_uri", .str (fedLines c0 name (p :: ps)).reference)]] else []).filter isFrame).map tag =
          if inGrammar (classOf name) p.2 then [] else if (classOf name).info.reportSyntax then [(.BAD_SYNTAX, add.subject)] else [] := by
        unfold inGrammar
        cases (classOf name).info.syn with
        | none => rfl
        | some r =>
          dsimp only
          split
          · rfl
          · split
            · exact tags_one rfl
            · rfl
      have key : ∀ n1 n2 : List Note, (n1.filter isFrame).map tag = (if (p :: ps).length > 1 then [(NoteId.SINGLE_HEADER_REPEAT, add.subject)] else []) →
          (n2.filter isFrame).map tag = (if inGrammar (classOf name) p.2 then [] else if (classOf name).info.reportSyntax then [(NoteId.BAD_SYNTAX, add.subject)] else []) → (((n1 ++ n2) ++ r.notes).filter isFrame).map tag =
          (if (p :: ps).length > 1 then [(.SINGLE_HEADER_REPEAT, add.subject)] else []) ++
          (if inGrammar (classOf name) p.2 then [] else if (classOf name).info.reportSyntax then [(.BAD_SYNTAX, add.subject)] else []) := by
        intro n1 n2 h1 h2
        rw [List.filter_append, List.filter_append, filter_notFrame hp.2, List.append_nil, List.map_append, h1, h2]
      cases hres : r.res with
      | ok v => simp only [hres] at hr ⊢; rw [evalAfter_frame hg _ _ _ hp.1]; exact key _ _ h1 h2
      | error e =>
        simp only [hres] at hr ⊢
        by_cases he : e.isValueError = true
        · rw [if_pos he]; exact key _ _ h1 h2
        · rw [if_neg he] at hr; simp at hr
  | broken =>
    have hv := fed_broken (c := c0) hk ps
    unfold Handler.finish at hr ⊢
    rw [hid, hk] at hr ⊢
    dsimp only at hr ⊢
    unfold Handler.finishBroken at hr ⊢
    have hraw : (fedLines c0 name ps).raw = ps.map fun p => (p.2, p.1) := by rw [hv]
    have hb := brokenLoop_frame c hm (fedLines c0 name ps).raw (fedLines c0 name ps) [] haux
    have hbo := brokenLoop_ok c hm (fedLines c0 name ps).raw (fedLines c0 name ps) [] haux
    generalize (fedLines c0 name ps).brokenLoop c (fedLines c0 name ps).raw [] = q at *
    obtain ⟨h', w⟩ := q
    dsimp only at *
    cases hres : w.res with
    | error e => simp only [hres] at hr; simp at hr
    | ok vs =>
      simp only [hres] at hr ⊢
      rw [evalAfter_frame hg _ _ { h' with value := .list vs } hbo.1, hb ⟨vs, hres⟩, hraw, hid, List.filter_map, List.map_map]
      rfl
  | sf t =>
    have hv := fed_text (c := c0) (k := .sf t) hk (.inr ⟨t, rfl⟩) ps
    unfold Handler.finish at hr ⊢
    rw [hid, hk] at hr ⊢
    dsimp only at hr ⊢
    unfold Handler.finishSf at hr ⊢
    have h1 : (fedLines c0 name ps).value = textVal (ps.map (·.2)) := by rw [hv]
    have h2 : (fedLines c0 name ps).sfParsed = false := by rw [hv]; exact mkHandler_sf _ _
    rw [h1, textVal_truthy hxs, h2, joinValue_text] at hr ⊢
    simp only [Bool.not_true, Bool.false_eq_true, if_false] at hr ⊢
    cases hs : c.env.sfParse t (strip (join (str ", ") (ps.map (·.2)))) with
    | ok v d => simp only [hs] at hr ⊢; rw [evalAfter_frame hg _ _ { fedLines c0 name ps with value := v, sfParsed := true } haux, dupKey_tags]
    | sfError p i d => simp only; rw [List.filter_append, List.map_append, dupKey_tags, tags_one rfl]
    | error p d => simp only; rw [List.filter_append, List.map_append, dupKey_tags, tags_one rfl]
  | json =>
    have hv := fed_text (c := c0) (k := .json) hk (.inl rfl) ps
    unfold Handler.finish at hr ⊢
    rw [hid, hk] at hr ⊢
    dsimp only at hr ⊢
    unfold Handler.finishJson at hr ⊢
    have h1 : (fedLines c0 name ps).value = textVal (ps.map (·.2)) := by rw [hv]
    rw [h1, textVal_truthy hxs, joinValue_text] at hr ⊢
    simp only [Bool.not_true, Bool.false_eq_true, if_false] at hr ⊢
    cases hs : c.env.jsonLoads (str "[" ++ join (str ", ") (ps.map (·.2)) ++ str "]") with
    | ok v => simp only [hs] at hr ⊢; rw [evalAfter_frame hg _ _ { fedLines c0 name ps with value := v } haux]; rfl
    | decodeError p => simp only; rw [tags_one rfl]
    | raises e => simp only [hs] at hr; exact absurd hr (by simp [W.throw])

/-- a field that is not read at all gets none -/
theorem finish_frame_unread {c add kind name} (hok : okName kind name = false) (hg : AddGood add keys1) (hm : HasMT c.msg.defaults) :
    ((checked kind (mkHandler (classOf name) name)).finish c add).2.notes.filter isFrame = [] := by
  have hfid : (checked kind (mkHandler (classOf name) name)).fid = classOf name := by rw [(checked_id _ _).fid, mkHandler_fid]
  have hraw : (checked kind (mkHandler (classOf name) name)).raw = [] := by
    unfold checked; split <;> exact mkHandler_raw _ _
  have hval : (checked kind (mkHandler (classOf name) name)).value.truthy = false := by
    unfold checked
    rw [mkHandler_fid]
    split
    · rw [mkHandler_value]; rfl
    · rfl
  have haux : AuxOK (checked kind (mkHandler (classOf name) name)).aux := by
    have : (checked kind (mkHandler (classOf name) name)).aux = {} := by
      unfold checked mkHandler; dsimp only; split <;> (split <;> rfl)
    rw [this]; exact auxOK_empty
  generalize checked kind (mkHandler (classOf name) name) = h at *
  unfold Handler.finish
  split
  · unfold Handler.finishSingleton; rw [hraw]; rfl
  · unfold Handler.finishBroken
    rw [hraw]
    exact evalAfter_frame hg c [] { h with value := .list [] } haux
  · unfold Handler.finishSf; rw [hval]; rfl
  · unfold Handler.finishJson; rw [hval]; rfl
  · exact evalAfter_frame hg c [] h haux
  · exact evalAfter_frame hg c [] h haux

end HL.Props
