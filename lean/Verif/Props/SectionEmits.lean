import Verif.Props.FieldEmits
import Verif.Props.Frame

/-! # Lifting the per-field facts to handlers and field sections -/

namespace HL.Props
open HL.F

/-- what a handler keeps for later can be rendered -/
structure AuxOK (a : Aux) : Prop where
  notes : ∀ n ∈ a.notes, FieldNote n
  kids : KidsOK a.kids

theorem auxOK_empty : AuxOK {} := ⟨by simp, kidsOK_nil⟩

theorem auxOK_ite {aux : Aux} (ha : AuxOK aux) (b : Bool) (x : Str) :
    AuxOK (if b then { aux with vals := aux.vals ++ [.str x] } else aux) := by
  split
  · exact ⟨ha.notes, ha.kids⟩
  · exact ha

theorem clear_site_data_parse_aux (add : AddNote) (aux : Aux) (v : Str) (ha : AuxOK aux) :
    AuxOK (clear_site_data.parse add aux v).1 := by
  unfold clear_site_data.parse
  exact auxOK_ite ha _ _

theorem Handler.parse_ok {add : AddNote} (h : AddGood add keys0) (c : Ctx) (hd : Handler) (ha : AuxOK hd.aux) (v : Str) :
    AuxOK (hd.parse c add v).1 ∧ Emits FieldNote (hd.parse c add v).2 := by
  unfold Handler.parse Handler.noAux lowerParse pragma.parse vary.parse x_frame_options.parse
  split
  all_goals (try dsimp only)
  all_goals first
    | (with_reducible exact ⟨ha, emits_pure _⟩)
    | (with_reducible exact ⟨ha, accept_parse_emits h _ _⟩)
    | (with_reducible exact ⟨ha, accept_language_parse_emits h _ _⟩)
    | (with_reducible exact ⟨ha, accept_patch_parse_emits h _ _⟩)
    | (with_reducible exact ⟨ha, accept_post_parse_emits h _ _⟩)
    | (with_reducible exact ⟨ha, accept_ranges_parse_emits h _⟩)
    | (with_reducible exact ⟨ha, acac_parse_emits h _⟩)
    | (with_reducible exact ⟨ha, acma_parse_emits h _⟩)
    | (with_reducible exact ⟨ha, age_parse_emits h _⟩)
    | (with_reducible exact ⟨ha, alt_svc_parse_emits h _⟩)
    | (with_reducible exact ⟨ha, cache_control_parse_emits h _⟩)
    | (with_reducible exact ⟨ha, content_disposition_parse_emits h _ _⟩)
    | (with_reducible exact ⟨ha, content_encoding_parse_emits h _ _⟩)
    | (with_reducible exact ⟨ha, content_length_parse_emits h _⟩)
    | (with_reducible exact ⟨ha, content_range_parse_emits h _ _⟩)
    | (with_reducible exact ⟨ha, content_type_parse_emits h _ _⟩)
    | (with_reducible exact ⟨ha, date_parse_emits h _ _⟩)
    | (with_reducible exact ⟨ha, etag_parse_emits h _⟩)
    | (with_reducible exact ⟨ha, expires_parse_emits h _ _⟩)
    | (with_reducible exact ⟨ha, last_modified_parse_emits h _ _⟩)
    | (with_reducible exact ⟨ha, link_parse_emits h _ _⟩)
    | (with_reducible exact ⟨ha, location_parse_emits h _ _⟩)
    | (with_reducible exact ⟨ha, origin_parse_emits h _⟩)
    | (with_reducible exact ⟨ha, range_parse_emits h _⟩)
    | (with_reducible exact ⟨ha, server_parse_emits h _⟩)
    | (with_reducible exact ⟨ha, server_timing_parse_emits h _ _⟩)
    | (with_reducible exact ⟨ha, sunset_parse_emits h _ _⟩)
    | (with_reducible exact ⟨ha, tcn_parse_emits h _ _⟩)
    | (with_reducible exact ⟨ha, coding_parse_emits h _ _⟩)
    | (with_reducible exact ⟨ha, transfer_encoding_parse_emits h _ _⟩)
    | (with_reducible exact ⟨ha, unnecessary_parse_emits h _⟩)
    | skip
  · refine ⟨?_, clear_site_data_parse_emits h _ _⟩
    exact clear_site_data_parse_aux _ _ _ ha
  · refine ⟨⟨?_, csp_parse_kids _ _ _ ha.kids⟩, emits_pure _⟩
    unfold csp.parse
    dsimp only
    split <;> exact ha.notes
  · refine ⟨⟨?_, csp_parse_kids _ _ _ ha.kids⟩, emits_pure _⟩
    unfold csp.parse
    dsimp only
    split <;> exact ha.notes
  · refine ⟨⟨set_cookie_parse_notes h _ _ _ ha.notes, ?_⟩, set_cookie_parse_emits h _ _ _⟩
    unfold set_cookie.parse
    split <;> exact ha.kids
  · exact ⟨⟨ha.notes, hsts_parse_kids _ _ ha.kids⟩, emits_pure _⟩

theorem assign_aux (h : Handler) (w : W Val) : (h.assign w).1.aux = h.aux := by
  unfold Handler.assign; split <;> rfl
theorem assign_notes (h : Handler) (w : W Val) : (h.assign w).2.notes = w.notes := by
  unfold Handler.assign; split <;> rfl
theorem appendVals_notes (h : Handler) (w : W (List Val)) : (h.appendVals w).2.notes = w.notes := by
  unfold Handler.appendVals; split <;> rfl
theorem appendVals_aux (h : Handler) (w : W (List Val)) (ha : AuxOK h.aux) : AuxOK (h.appendVals w).1.aux := by
  unfold Handler.appendVals; split <;> exact ⟨ha.notes, ha.kids⟩

theorem Handler.evaluate_ok {add : AddNote} (h : AddGood add keys1) (c : Ctx) (hd : Handler) (ha : AuxOK hd.aux) :
    AuxOK (hd.evaluate c add).1.aux ∧ Emits FieldNote (hd.evaluate c add).2 := by
  unfold Handler.evaluate Handler.keep
  split
  all_goals (try dsimp only)
  all_goals first
    | (with_reducible exact ⟨ha, emits_pure _⟩)
    | (with_reducible exact ⟨ha, accept_ch_evaluate_emits h _⟩)
    | (with_reducible exact ⟨ha, acao_evaluate_emits h _ _⟩)
    | (with_reducible exact ⟨ha, alt_svc_evaluate_emits h _⟩)
    | (with_reducible exact ⟨ha, available_dictionary_evaluate_emits h _⟩)
    | (with_reducible exact ⟨ha, cache_control_evaluate_emits h _ _⟩)
    | (with_reducible exact ⟨ha, cache_group_invalidation_evaluate_emits h _ _⟩)
    | (with_reducible exact ⟨ha, cache_groups_evaluate_emits h _⟩)
    | (with_reducible exact ⟨ha, cache_status_evaluate_emits h _ _⟩)
    | (with_reducible exact ⟨ha, cdn_cache_control_evaluate_emits h _⟩)
    | (with_reducible exact ⟨ha, clear_site_data_evaluate_emits h _⟩)
    | (with_reducible exact ⟨ha, content_language_evaluate_emits h _⟩)
    | (with_reducible exact ⟨ha, content_length_evaluate_emits h _⟩)
    | (with_reducible exact ⟨ha, csp_evaluate_emits h _ _ rfl ha.kids⟩)
    | (with_reducible exact ⟨ha, coep_emits h _ _ rfl⟩)
    | (with_reducible exact ⟨ha, coop_emits h _ _ rfl⟩)
    | (with_reducible exact ⟨ha, coepRO_emits h _ _⟩)
    | (with_reducible exact ⟨ha, coopRO_emits h _ _⟩)
    | (with_reducible exact ⟨ha, corp_evaluate_emits h _⟩)
    | (with_reducible exact ⟨ha, date_evaluate_emits h _ _⟩)
    | (with_reducible exact ⟨ha, deprecation_evaluate_emits h _ _⟩)
    | (with_reducible exact ⟨ha, expect_evaluate_emits h _ _⟩)
    | (with_reducible exact ⟨ha, last_modified_evaluate_emits h _ _⟩)
    | (with_reducible exact ⟨ha, link_evaluate_emits h _ _⟩)
    | (with_reducible exact ⟨ha, max_forwards_evaluate_emits h _ _⟩)
    | (with_reducible exact ⟨ha, permissions_policy_emits h _ _⟩)
    | (with_reducible exact ⟨ha, pragma_evaluate_emits h _⟩)
    | (with_reducible exact ⟨ha, proxy_status_evaluate_emits h _ _⟩)
    | (with_reducible exact ⟨ha, referer_evaluate_emits h _ _⟩)
    | (with_reducible exact ⟨ha, referrer_policy_evaluate_emits h _⟩)
    | (with_reducible exact ⟨ha, report_to_evaluate_emits h _⟩)
    | (with_reducible exact ⟨ha, reporting_endpoints_evaluate_emits h _ _⟩)
    | (with_reducible exact ⟨ha, server_timing_evaluate_emits h _⟩)
    | (with_reducible exact ⟨ha, set_cookie_evaluate_emits h _ ha.notes⟩)
    | (with_reducible exact ⟨ha, speculation_rules_evaluate_emits h _ _⟩)
    | (with_reducible exact ⟨ha, hsts_evaluate_emits h _ _ ha.kids⟩)
    | (with_reducible exact ⟨ha, sunset_evaluate_emits h _ _⟩)
    | (with_reducible exact ⟨ha, transfer_encoding_evaluate_emits h _ _⟩)
    | (with_reducible exact ⟨ha, use_as_dictionary_evaluate_emits h _⟩)
    | (with_reducible exact ⟨ha, via_evaluate_emits h _⟩)
    | (with_reducible exact ⟨ha, xcto_evaluate_emits h _⟩)
    | (with_reducible exact ⟨ha, xfo_evaluate_emits h _⟩)
    | skip
  · exact ⟨by rw [assign_aux]; exact ha, by unfold Emits; rw [assign_notes]; exact accept_query_evaluate_emits h _ _⟩
  · exact ⟨appendVals_aux _ _ ha, by unfold Emits; rw [appendVals_notes]; exact nel_evaluate_emits h _⟩
  · exact ⟨by rw [assign_aux]; exact ha, by unfold Emits; rw [assign_notes]; exact vary_evaluate_emits h _⟩

/-! ### handlers -/

/-- `message_type` is among the message's default variables -/
def HasMT (d : Dict Val) : Prop := dhas d (str "message_type") = true

theorem addGood_base {d : Dict Val} (hd : HasMT d) (subject : Str) (base : Dict Val) (ks : List Str)
    (h : (ks.all fun k => k == str "message_type" || (base.map (·.1)).contains k) = true)
    (hu : UniqueKeys base := by simp [UniqueKeys]) :
    AddGood { defaults := d, subject, base } ks := by
  refine ⟨⟨fun k hk => ?_, hu⟩, hd⟩
  have := (List.all_eq_true.1 h) k hk
  simp only [Bool.or_eq_true, beq_iff_eq, List.contains_iff_mem] at this
  rcases this with rfl | h
  · exact .inr hd
  · exact .inl ((dhas_iff_mem_keys base k).2 h)

theorem offsetAdd_good {d : Dict Val} (hd : HasMT d) (h : Handler) (o : Nat) : AddGood (h.offsetAdd d o) keys0 :=
  addGood_base hd _ _ _ rfl

theorem fieldAdder_good {m : Msg} (hd : HasMT m.defaults) (t : Bool) (h : Handler) : AddGood (m.fieldAdder t h) keys1 :=
  addGood_base hd _ _ _ rfl

theorem emits_notes {P : Note → Prop} {α} {ns : List Note} {r : Except Exn α} (h : ∀ n ∈ ns, P n) : Emits P ⟨ns, r⟩ := h

theorem emits_prefix {P : Note → Prop} {α} {ns : List Note} {w : W α} (h : ∀ n ∈ ns, P n) (hw : Emits P w) :
    Emits P (prefixNotes ns w) := by
  intro n hn
  rcases List.mem_append.1 hn with h' | h'
  · exact h n h'
  · exact hw n h'

theorem mem_append_of {P : Note → Prop} {a b : List Note} (ha : ∀ n ∈ a, P n) (hb : ∀ n ∈ b, P n) : ∀ n ∈ a ++ b, P n := by
  intro n hn
  rcases List.mem_append.1 hn with h | h
  · exact ha n h
  · exact hb n h

theorem mem_one {P : Note → Prop} {n : Note} (h : P n) : ∀ n' ∈ [n], P n' := by
  intro n' hn; simp only [List.mem_singleton] at hn; exact hn ▸ h

theorem mem_none {P : Note → Prop} : ∀ n ∈ ([] : List Note), P n := by simp

theorem mem_ite {P : Note → Prop} {c : Prop} [Decidable c] {a b : List Note} (ha : ∀ n ∈ a, P n) (hb : ∀ n ∈ b, P n) :
    ∀ n ∈ (if c then a else b), P n := by
  split
  · exact ha
  · exact hb

theorem fieldNote_mkG {a : AddNote} {ks : List Str} (ha : AddGood a ks) {cls : NoteId} {vrs : Dict Val} {cat}
    (h : covers cls (ks ++ vrs.map (·.1)) = true) {o} (hl : cls.origin = o)
    (hi : inert cls vrs = true := by first | rfl | calm_leaf) : NoteFrom o (a.mk1 cls vrs cat) :=
  fieldNote_mk1 ha.ok h hl hi

/-- a note of the `field` package that can be rendered, added by a parser or by the code common to a kind of field -/
def ParNote (n : Note) : Prop := NoteOK n ∧ (n.cls.origin = .field ∨ n.cls.origin = .frame)

/-- a note of the `field` package that can be rendered -/
def SecNote (n : Note) : Prop := NoteOK n ∧ (n.cls.origin = .field ∨ n.cls.origin = .frame ∨ n.cls.origin = .line)

theorem FieldNote.par {n} (h : FieldNote n) : ParNote n := ⟨h.1, .inl h.2⟩
theorem frame_par {n} (h : NoteFrom .frame n) : ParNote n := ⟨h.1, .inr h.2⟩
theorem mem_par {ns : List Note} (h : ∀ n ∈ ns, FieldNote n) : ∀ n ∈ ns, ParNote n := fun n hn => FieldNote.par (h n hn)
theorem ParNote.sec {n} (h : ParNote n) : SecNote n := ⟨h.1, h.2.elim .inl fun h => .inr (.inl h)⟩
theorem mem_sec {ns : List Note} (h : ∀ n ∈ ns, ParNote n) : ∀ n ∈ ns, SecNote n := fun n hn => ParNote.sec (h n hn)

theorem frame_mkG {a : AddNote} {ks : List Str} (ha : AddGood a ks) {cls : NoteId} {vrs : Dict Val} {cat}
    (h : covers cls (ks ++ vrs.map (·.1)) = true) (hl : cls.origin = .frame)
    (hi : inert cls vrs = true := by first | rfl | calm_leaf) : ParNote (a.mk1 cls vrs cat) :=
  frame_par (fieldNote_mk1 ha.ok h hl hi)

theorem line_mkG {a : AddNote} {ks : List Str} (ha : AddGood a ks) {cls : NoteId} {vrs : Dict Val} {cat}
    (h : covers cls (ks ++ vrs.map (·.1)) = true) (hl : cls.origin = .line)
    (hi : inert cls vrs = true := by first | rfl | calm_leaf) : SecNote (a.mk1 cls vrs cat) :=
  ⟨noteOK_mk1 ha.ok h (inert_append hi), .inr (.inr hl)⟩

theorem elementSyntax_emits {add : AddNote} (h : AddGood add keys0) (hd : Handler) (v : Str) :
    Emits ParNote (hd.elementSyntax add v) := by
  have : Emits (NoteFrom .frame) (hd.elementSyntax add v) := by
    unfold Handler.elementSyntax
    emits
  exact fun n hn => frame_par (this n hn)

theorem append_aux {h h' : Handler} {x : Val} (he : h.append x = .ok h') : h'.aux = h.aux := by
  unfold Handler.append at he
  split at he
  · simp only [Except.ok.injEq] at he; rw [← he]
  · simp at he

theorem listLoop_ok {add : AddNote} (hg : AddGood add keys0) (c : Ctx) (vs : List Str) :
    ∀ h : Handler, AuxOK h.aux → AuxOK (h.listLoop c add vs).1.aux ∧ Emits ParNote (h.listLoop c add vs).2 := by
  induction vs with
  | nil => intro h ha; exact ⟨ha, emits_pure _⟩
  | cons v vs ih =>
    intro h ha
    unfold Handler.listLoop
    have hs := elementSyntax_emits hg h v
    dsimp only
    generalize h.elementSyntax add v = syn at *
    cases hr : syn.res with
    | error e => exact ⟨ha, emits_notes hs⟩
    | ok u =>
      dsimp only
      have hp := Handler.parse_ok hg c h ha (strip v)
      generalize h.parse c add (strip v) = p at *
      obtain ⟨aux, r⟩ := p
      dsimp only at *
      have hns : ∀ n ∈ syn.notes ++ r.notes, ParNote n := mem_append_of hs (mem_par hp.2)
      cases hr2 : r.res with
      | error e =>
        dsimp only
        split
        · exact ⟨(ih { h with aux } hp.1).1, emits_prefix hns (ih { h with aux } hp.1).2⟩
        · exact ⟨hp.1, emits_notes hns⟩
      | ok x =>
        dsimp only
        cases ha2 : ({ h with aux } : Handler).append x with
        | error e => exact ⟨hp.1, emits_notes hns⟩
        | ok h' =>
          have ha' : AuxOK h'.aux := by rw [append_aux ha2]; exact hp.1
          exact ⟨(ih h' ha').1, emits_prefix hns (ih h' ha').2⟩

theorem handleInput_ok (c : Ctx) (hm : HasMT c.msg.defaults) (h : Handler) (ha : AuxOK h.aux) (v : Str) (o : Nat) :
    AuxOK (h.handleInput c v o).1.aux ∧ Emits ParNote (h.handleInput c v o).2 := by
  unfold Handler.handleInput
  split
  · exact listLoop_ok (offsetAdd_good hm h o) c _ h ha
  · exact ⟨ha, emits_pure _⟩
  · exact ⟨ha, emits_pure _⟩
  · split
    · exact ⟨by rename_i he; rw [← append_aux he] at ha; exact ha, emits_pure _⟩
    · exact ⟨ha, emits_throw _⟩
  · split
    · exact ⟨by rename_i he; rw [← append_aux he] at ha; exact ha, emits_pure _⟩
    · exact ⟨ha, emits_throw _⟩
  · exact ⟨ha, emits_pure _⟩

theorem evalAfter_ok {add : AddNote} (hg : AddGood add keys1) (c : Ctx) (ns : List Note) (hn : ∀ n ∈ ns, ParNote n)
    (h : Handler) (ha : AuxOK h.aux) :
    AuxOK (h.evalAfter c add ns).1.aux ∧ Emits ParNote (h.evalAfter c add ns).2 := by
  unfold Handler.evalAfter
  split
  · exact ⟨ha, emits_notes hn⟩
  · have he := Handler.evaluate_ok hg c h ha
    exact ⟨he.1, emits_prefix hn (mem_par he.2)⟩

theorem finishSingleton_ok {add : AddNote} (hg : AddGood add keys1) (c : Ctx) (h : Handler) (ha : AuxOK h.aux) :
    AuxOK (h.finishSingleton c add).1.aux ∧ Emits ParNote (h.finishSingleton c add).2 := by
  unfold Handler.finishSingleton
  split
  · exact ⟨ha, emits_pure _⟩
  · rename_i first _ more _
    dsimp only
    have hp := Handler.parse_ok hg.to0 c h ha (strip first)
    generalize h.parse c add (strip first) = p at *
    obtain ⟨aux, r⟩ := p
    dsimp only at *
    have h1 : ∀ n ∈ (if more.isEmpty then [] else [add.mk1 .SINGLE_HEADER_REPEAT]), ParNote n :=
      mem_ite mem_none (mem_one (frame_mkG hg rfl rfl))
    have h2 : ∀ n ∈ (match h.fid.info.syn with
       | none => []
       | some r => if matchSpaced r first then []
         else if h.fid.info.reportSyntax then [add.mk1 .BAD_SYNTAX [(str "ref_uri", .str h.reference)]] else []),
         ParNote n := by
      split
      · exact mem_none
      · exact mem_ite mem_none (mem_ite (mem_one (frame_mkG hg rfl rfl)) mem_none)
    have hns := mem_append_of (mem_append_of h1 h2) (mem_par hp.2)
    cases hr : r.res with
    | ok x => exact evalAfter_ok hg c _ hns { h with aux, value := x } hp.1
    | error e =>
      dsimp only
      split
      · exact ⟨hp.1, emits_notes hns⟩
      · exact ⟨hp.1, emits_notes hns⟩

theorem brokenLoop_ok (c : Ctx) (hm : HasMT c.msg.defaults) (rs : List (Str × Nat)) :
    ∀ (h : Handler) (acc : List Val), AuxOK h.aux →
      AuxOK (h.brokenLoop c rs acc).1.aux ∧ Emits ParNote (h.brokenLoop c rs acc).2 := by
  induction rs with
  | nil => intro h acc ha; exact ⟨ha, emits_pure _⟩
  | cons r rs ih =>
    obtain ⟨raw, o⟩ := r
    intro h acc ha
    unfold Handler.brokenLoop
    dsimp only
    have hg := offsetAdd_good hm h o
    generalize h.offsetAdd c.msg.defaults o = add at *
    have hp := Handler.parse_ok hg c h ha (strip raw)
    generalize h.parse c add (strip raw) = p at *
    obtain ⟨aux, r⟩ := p
    dsimp only at *
    have h2 : ∀ n ∈ (match h.fid.info.syn with
       | none => []
       | some r => if matchSpaced r raw then [] else [add.mk1 .BAD_SYNTAX [(str "ref_uri", .str h.reference)]]),
         ParNote n := by
      split
      · exact mem_none
      · exact mem_ite mem_none (mem_one (frame_mkG hg rfl rfl))
    have hns := mem_append_of h2 (mem_par hp.2)
    cases hr : r.res with
    | ok x =>
      have := ih { h with aux } (acc ++ [x]) hp.1
      exact ⟨this.1, emits_prefix hns this.2⟩
    | error e =>
      dsimp only
      split
      · have := ih { h with aux } acc hp.1
        exact ⟨this.1, emits_prefix hns this.2⟩
      · exact ⟨hp.1, emits_notes hns⟩

theorem dupKeyNotes_ok {add : AddNote} (hg : AddGood add keys1) (dups) : ∀ n ∈ dupKeyNotes add dups, ParNote n := by
  intro n hn
  simp only [dupKeyNotes, List.mem_map] at hn
  obtain ⟨p, _, rfl⟩ := hn
  exact frame_mkG hg rfl rfl

theorem finishSf_ok {add : AddNote} (hg : AddGood add keys1) (c : Ctx) (t : Str) (h : Handler) (ha : AuxOK h.aux) :
    AuxOK (h.finishSf c add t).1.aux ∧ Emits ParNote (h.finishSf c add t).2 := by
  unfold Handler.finishSf
  split
  · exact ⟨ha, emits_pure _⟩
  · split
    · exact ⟨ha, emits_pure _⟩
    · split
      · exact ⟨ha, emits_throw _⟩
      · dsimp only
        split
        · exact evalAfter_ok hg c _ (dupKeyNotes_ok hg _) _ ha
        · exact ⟨ha, emits_notes (mem_append_of (dupKeyNotes_ok hg _) (mem_one (frame_mkG hg rfl rfl)))⟩
        · exact ⟨ha, emits_notes (mem_append_of (dupKeyNotes_ok hg _) (mem_one (frame_mkG hg rfl rfl)))⟩

theorem finishJson_ok {add : AddNote} (hg : AddGood add keys1) (c : Ctx) (h : Handler) (ha : AuxOK h.aux) :
    AuxOK (h.finishJson c add).1.aux ∧ Emits ParNote (h.finishJson c add).2 := by
  unfold Handler.finishJson
  split
  · exact ⟨ha, emits_pure _⟩
  · split
    · exact ⟨ha, emits_throw _⟩
    · split
      · exact evalAfter_ok hg c _ mem_none _ ha
      · exact ⟨ha, emits_notes (mem_one (frame_mkG hg rfl rfl))⟩
      · exact ⟨ha, emits_throw _⟩

theorem finishBroken_ok {add : AddNote} (hg : AddGood add keys1) (c : Ctx) (hm : HasMT c.msg.defaults) (h : Handler)
    (ha : AuxOK h.aux) : AuxOK (h.finishBroken c add).1.aux ∧ Emits ParNote (h.finishBroken c add).2 := by
  unfold Handler.finishBroken
  have hb := brokenLoop_ok c hm h.raw h [] ha
  generalize h.brokenLoop c h.raw [] = p at *
  obtain ⟨h', w⟩ := p
  dsimp only at *
  split
  · exact ⟨hb.1, emits_notes hb.2⟩
  · exact evalAfter_ok hg c _ hb.2 _ hb.1

theorem finish_ok {add : AddNote} (hg : AddGood add keys1) (c : Ctx) (hm : HasMT c.msg.defaults) (h : Handler)
    (ha : AuxOK h.aux) : AuxOK (h.finish c add).1.aux ∧ Emits ParNote (h.finish c add).2 := by
  unfold Handler.finish
  split
  · exact finishSingleton_ok hg c h ha
  · exact finishBroken_ok hg c hm h ha
  · exact finishSf_ok hg c _ h ha
  · exact finishJson_ok hg c h ha
  · exact evalAfter_ok hg c _ mem_none h ha
  · exact evalAfter_ok hg c _ mem_none h ha

theorem preCheck_ok {add : AddNote} (hg : AddGood add keys0) (kind : MsgKind) (h : Handler) :
    (h.preCheck kind add).1.aux = h.aux ∧ ∀ n ∈ (h.preCheck kind add).2.2, SecNote n := by
  unfold Handler.preCheck
  split
  · refine ⟨rfl, mem_one ?_⟩
    cases kind
    · exact line_mkG hg rfl rfl
    · exact line_mkG hg rfl rfl
  · split
    · exact ⟨rfl, mem_one (line_mkG hg rfl rfl)⟩
    · dsimp only
      split
      · exact ⟨rfl, mem_one ⟨⟨(line_mkG hg (cls := .FIELD_DEPRECATED) (cat := none) rfl rfl).1.1,
          (fun s hs => nomatch hs), (fun k hk => nomatch hk), fun s hs => nomatch hs⟩, .inr (.inr rfl)⟩⟩
      · exact ⟨rfl, mem_ite (mem_one (line_mkG hg rfl rfl)) mem_none⟩

/-! ### field sections -/

/-- the handlers of a section keep only notes that can be rendered -/
def SecOK (s : Section) : Prop := ∀ p ∈ s.handlers, AuxOK p.2.aux

theorem secOK_dget {s : Section} (h : SecOK s) {k : Str} {hd : Handler} (hk : dget s.handlers k = some hd) : AuxOK hd.aux := by
  unfold dget at hk
  cases hf : s.handlers.find? (fun p => p.1 == k) with
  | none => simp [hf] at hk
  | some p =>
    simp only [hf, Option.map_some, Option.some.injEq] at hk
    exact hk ▸ h p (List.mem_of_find?_eq_some hf)

theorem mem_dset {β} {d : Dict β} {k : Str} {v : β} {p : Str × β} (h : p ∈ dset d k v) : p = (k, v) ∨ p ∈ d := by
  induction d with
  | nil => simp [dset] at h; exact .inl h
  | cons q d ih =>
    obtain ⟨a, b⟩ := q
    unfold dset at h
    split at h
    · rcases List.mem_cons.1 h with h | h
      · exact .inl h
      · exact .inr (List.mem_cons_of_mem _ h)
    · rcases List.mem_cons.1 h with h | h
      · exact .inr (h ▸ List.mem_cons_self ..)
      · rcases ih h with h | h
        · exact .inl h
        · exact .inr (List.mem_cons_of_mem _ h)

theorem dset_ok {d : Dict Handler} (h : ∀ p ∈ d, AuxOK p.2.aux) {k : Str} {v : Handler} (hv : AuxOK v.aux) :
    ∀ p ∈ dset d k v, AuxOK p.2.aux := by
  intro p hp
  rcases mem_dset hp with rfl | hp
  · exact hv
  · exact h p hp

theorem mkHandler_aux (fid n) : (mkHandler fid n).aux = {} := by
  unfold mkHandler
  dsimp only
  split <;> rfl

theorem findHandler_ok {s : Section} (h : SecOK s) (name : Str) : AuxOK (findHandler s.handlers name).aux := by
  unfold findHandler
  split
  · exact secOK_dget h ‹_›
  · rw [mkHandler_aux]; exact auxOK_empty

/-- `m'` is `m` with field notes added at the end, and one section replaced by one whose handlers are fine -/
structure SecRun (t : Bool) (m m' : Msg) : Prop where
  ext : ∃ ns s, m' = (m.setSection t s).addNotes ns ∧ SecOK s ∧ ∀ n ∈ ns, SecNote n

theorem SecRun.refl {t m} (h : SecOK (m.section t)) : SecRun t m m :=
  ⟨[], m.section t, by rw [setSection_self, addNotes_nil], h, mem_none⟩

theorem SecRun.trans {t a b c} (h1 : SecRun t a b) (h2 : SecRun t b c) : SecRun t a c := by
  obtain ⟨n1, s1, rfl, _, p1⟩ := h1
  obtain ⟨n2, s2, rfl, o2, p2⟩ := h2
  exact ⟨n1 ++ n2, s2, by rw [setSection_addNotes, setSection_setSection, addNotes_addNotes], o2, mem_append_of p1 p2⟩

theorem SecRun.step {t m s ns} (h : SecOK s) (hn : ∀ n ∈ ns, SecNote n) :
    SecRun t m ((m.addNotes ns).setSection t s) := ⟨ns, s, setSection_addNotes .., h, hn⟩

theorem SecRun.add {t m ns} (h : SecOK (m.section t)) (hn : ∀ n ∈ ns, SecNote n) : SecRun t m (m.addNotes ns) :=
  ⟨ns, m.section t, by rw [setSection_self], h, hn⟩

theorem SecRun.ok {t m m'} (h : SecRun t m m') : SecOK (m'.section t) := by
  obtain ⟨ns, s, rfl, o, _⟩ := h
  simpa using o

theorem SecRun.defaults {t m m'} (h : SecRun t m m') : m'.defaults = m.defaults := by
  obtain ⟨ns, s, rfl, o, _⟩ := h
  cases t <;> rfl

theorem adder_good {m : Msg} (hm : HasMT m.defaults) (s : Str) (b : Dict Val) (ks : List Str)
    (h : (ks.all fun k => k == str "message_type" || (b.map (·.1)).contains k) = true)
    (hu : UniqueKeys b := by simp [UniqueKeys]) : AddGood (m.adder s b) ks :=
  addGood_base hm _ _ _ h hu

theorem processLine_run (env related t) (m : Msg) (hm : HasMT m.defaults) (hs : SecOK (m.section t)) (o : Nat)
    (l : Str × Str) : SecRun t m (processLine env related t m o l).1 := by
  obtain ⟨name, value⟩ := l
  unfold processLine
  dsimp only
  have hh := findHandler_ok hs (decodeName name)
  generalize (findHandler (m.section t).handlers (decodeName name)) = h at *
  have hg := adder_good hm (offsetSubject o) [] [str "message_type"] rfl
  have hn : ∀ n ∈ ((if nonAscii name then [(m.adder (offsetSubject o)).mk1 .FIELD_NAME_ENCODING
      [(str "field_name", .str (decodeName name))]] else []) ++
      (if nonAscii value then [(m.adder (offsetSubject o)).mk1 .FIELD_VALUE_ENCODING
      [(str "field_name", .str (decodeName name))]] else [])), SecNote n :=
    mem_append_of (mem_ite (mem_one (line_mkG hg rfl rfl)) mem_none)
      (mem_ite (mem_one (line_mkG hg rfl rfl)) mem_none)
  generalize ((if nonAscii name then [(m.adder (offsetSubject o)).mk1 .FIELD_NAME_ENCODING
      [(str "field_name", .str (decodeName name))]] else []) ++
      (if nonAscii value then [(m.adder (offsetSubject o)).mk1 .FIELD_VALUE_ENCODING
      [(str "field_name", .str (decodeName name))]] else [])) = notes at *
  have hs0 : SecOK { m.section t with
      size := (m.section t).size + (name.length + value.length)
      text := (m.section t).text ++ [(decodeName name, value)]
      handlers := dset (m.section t).handlers (lower (decodeName name)) h } := dset_ok hs hh
  generalize ({ isTrailer := _, text := _, parsed := _, size := _, handlers := dset _ _ h } : Section) = sec at *
  have e1 := SecRun.step (t := t) (m := m) hs0 hn
  generalize (m.addNotes notes).setSection t sec = m1 at *
  have hm1 : HasMT m1.defaults := by rw [e1.defaults]; exact hm
  have hp := preCheck_ok (adder_good hm1 (offsetSubject o) [(str "field_name", .str h.canonicalName)] keys0 rfl) m1.kind h
  generalize hq : Handler.preCheck _ _ h = p at *
  obtain ⟨h1, ok, ns⟩ := p
  dsimp only at *
  have hh1 : AuxOK h1.aux := by rw [hp.1]; exact hh
  have e2 := e1.trans (SecRun.step (t := t) (m := m1) (ns := ns)
    (s := { (m1.addNotes ns).section t with handlers := dset ((m1.addNotes ns).section t).handlers (lower (decodeName name)) h1 })
    (dset_ok (by rw [section_addNotes]; exact e1.ok) hh1) hp.2)
  generalize ((m1.addNotes ns).setSection t _) = m2 at *
  split
  · exact e2
  · have hm2 : HasMT m2.defaults := by rw [e2.defaults]; exact hm
    have hi := handleInput_ok ⟨env, m2, related⟩ hm2 h1 hh1 value o
    generalize h1.handleInput ⟨env, m2, related⟩ value o = hw at *
    obtain ⟨h2, w⟩ := hw
    dsimp only at *
    have e3 := e2.trans (SecRun.step (t := t) (m := m2) (ns := w.notes)
      (s := { (m2.addNotes w.notes).section t with handlers := dset ((m2.addNotes w.notes).section t).handlers (lower (decodeName name)) h2 })
      (dset_ok (by rw [section_addNotes]; exact e2.ok) hi.1) (mem_sec hi.2))
    generalize ((m2.addNotes w.notes).setSection t _) = m3 at *
    have hm3 : HasMT m3.defaults := by rw [e3.defaults]; exact hm
    split
    · exact e3
    · refine e3.trans (SecRun.add e3.ok (mem_ite (mem_one ?_) mem_none))
      exact line_mkG (adder_good hm3 _ [] [str "message_type"] rfl) rfl rfl

theorem processLines_run (env related t) (ls : List (Str × Str)) (o : Nat) (m : Msg) (hm : HasMT m.defaults)
    (hs : SecOK (m.section t)) : SecRun t m (processLines env related t ls o m).1 := by
  induction ls generalizing o m with
  | nil => exact SecRun.refl hs
  | cons l ls ih =>
    unfold processLines
    have h := processLine_run env related t m hm hs o l
    split <;> rename_i heq <;> rw [heq] at h
    · exact h
    · exact h.trans (ih _ _ (by rw [h.defaults]; exact hm) h.ok)

theorem finishHandler_run (env related t) (m : Msg) (hm : HasMT m.defaults) (hs : SecOK (m.section t)) (k : Str) :
    SecRun t m (finishHandler env related t m k).1 := by
  unfold finishHandler
  split
  · exact SecRun.refl hs
  · rename_i h hk
    have hf := finish_ok (fieldAdder_good hm t h) ⟨env, m, related⟩ hm h (secOK_dget hs hk)
    generalize Handler.finish _ _ _ = hw at *
    obtain ⟨h', w⟩ := hw
    dsimp only at *
    have hd := dset_ok (d := (m.section t).handlers) hs hf.1 (k := k)
    split
    · exact SecRun.step (by simpa [SecOK] using hd) (mem_sec hf.2)
    · exact SecRun.step (by simpa [SecOK] using hd) (mem_sec hf.2)

theorem finishHandlers_run (env related t) (ks : List Str) (m : Msg) (hm : HasMT m.defaults) (hs : SecOK (m.section t)) :
    SecRun t m (finishHandlers env related t ks m).1 := by
  induction ks generalizing m with
  | nil => exact SecRun.refl hs
  | cons l ls ih =>
    unfold finishHandlers
    have h := finishHandler_run env related t m hm hs l
    split <;> rename_i heq <;> rw [heq] at h
    · exact h
    · exact h.trans (ih _ (by rw [h.defaults]; exact hm) h.ok)

theorem processSection_run (env related t) (ls : List (Str × Str)) (m : Msg) (hm : HasMT m.defaults)
    (hs : SecOK (m.section t)) : SecRun t m (processSection env related t ls m).1 := by
  unfold processSection
  have h := processLines_run env related t ls 0 m hm hs
  split <;> rename_i m1 heq <;> rw [heq] at h
  · exact h
  · dsimp only at *
    have hm1 : HasMT m1.defaults := by rw [h.defaults]; exact hm
    have h2 : SecRun t m (m1.addNotes (sectionSizeNotes t m1)) := h.trans (SecRun.add h.ok (by
      unfold sectionSizeNotes
      exact mem_ite (mem_one (line_mkG (adder_good hm1 _ [] [str "message_type"] rfl) rfl rfl)) mem_none))
    exact h2.trans (finishHandlers_run env related t _ _ (by rw [h2.defaults]; exact hm) h2.ok)

end HL.Props
