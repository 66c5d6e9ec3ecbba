import Verif.Props.Values

/-!
# What a check does is independent of the subject and the variables its notes are given

`Sim b w w'`: the two computations end in the same way and add the same classes of notes, with the same categories
and the same classes of sub-notes, in the same order (and on the same subjects, if `b`).
-/

namespace HL.Props
open HL.F

/-- what is compared of a note -/
def noteKey (b : Bool) (n : Note) : NoteId × Cat × List NoteId × Str :=
  (n.cls, n.category, n.subnotes.map (·.cls), if b then n.subject else [])

/-- the same outcome and the same notes up to their variables -/
structure Sim (b : Bool) {α} (w w' : W α) : Prop where
  res : w.res = w'.res
  notes : w.notes.map (noteKey b) = w'.notes.map (noteKey b)

/-- adders on the same subject, if that matters -/
def AddSim (b : Bool) (a a' : AddNote) : Prop := b = true → a.subject = a'.subject

theorem Sim.refl {b α} (w : W α) : Sim b w w := ⟨rfl, rfl⟩
theorem Sim.symm {b α} {w w' : W α} (h : Sim b w w') : Sim b w' w := ⟨h.res.symm, h.notes.symm⟩
theorem Sim.trans {b α} {w w' w'' : W α} (h : Sim b w w') (h' : Sim b w' w'') : Sim b w w'' :=
  ⟨h.res.trans h'.res, h.notes.trans h'.notes⟩

theorem sim_bind {b α β} {x x' : W α} {f f' : α → W β} (hx : Sim b x x') (hf : ∀ a, Sim b (f a) (f' a)) :
    Sim b (x >>= f) (x' >>= f') := by
  obtain ⟨h1, h2⟩ := hx
  cases hr : x.res with
  | error e =>
    rw [W.bind_err hr, W.bind_err (h1 ▸ hr)]
    exact ⟨rfl, h2⟩
  | ok a =>
    rw [W.bind_ok hr, W.bind_ok (h1 ▸ hr)]
    exact ⟨(hf a).res, by simp only [List.map_append, h2, (hf a).notes]⟩

theorem sim_when {b} {c : Bool} {w w' : W Unit} (h : Sim b w w') : Sim b (W.when c w) (W.when c w') := by
  unfold W.when; split
  · exact h
  · exact .refl _

theorem sim_ite {b α} {c : Prop} [Decidable c] {x x' y y' : W α} (hx : Sim b x x') (hy : Sim b y y') :
    Sim b (if c then x else y) (if c then x' else y') := by
  split
  · exact hx
  · exact hy

theorem sim_forEach {b α} {xs : List α} {f f' : α → W Unit} (h : ∀ a, Sim b (f a) (f' a)) :
    Sim b (W.forEach xs f) (W.forEach xs f') := by
  induction xs with
  | nil => exact .refl _
  | cons x xs ih => exact sim_bind (h x) fun _ => ih

theorem sim_mapM {b α β} {xs : List α} {f f' : α → W β} (h : ∀ a, Sim b (f a) (f' a)) :
    Sim b (xs.mapM f) (xs.mapM f') := by
  induction xs with
  | nil => exact .refl _
  | cons x xs ih =>
    rw [List.mapM_cons, List.mapM_cons]
    exact sim_bind (h x) fun _ => sim_bind ih fun _ => .refl _

theorem noteKey_mk1 {b a a'} (h : AddSim b a a') (cls : NoteId) (vrs vrs' : Dict Val) (cat) :
    noteKey b (a.mk1 cls vrs cat) = noteKey b (a'.mk1 cls vrs' cat) := by
  unfold noteKey
  cases b
  · rfl
  · simp only [if_true, AddNote.mk1_subject, h rfl]; rfl

theorem sim_add {b a a'} (h : AddSim b a a') {cls : NoteId} {vrs vrs' : Dict Val} {cat} :
    Sim b (a.add cls vrs cat) (a'.add cls vrs' cat) :=
  ⟨rfl, by simp only [AddNote.add_notes, List.map_cons, List.map_nil, noteKey_mk1 h cls vrs vrs' cat]⟩

theorem addSim_on {b a a'} (s base base') : AddSim b (AddNote.on a s base) (AddNote.on a' s base') := fun _ => rfl

theorem noteKey_addKids {b} {n n' : Note} (h : noteKey b n = noteKey b n') (kids kids' : List (NoteId × Dict Val))
    (hk : kids.map (·.1) = kids'.map (·.1)) :
    noteKey b (kids.foldl (fun n k => n.addChild k.1 k.2) n) = noteKey b (kids'.foldl (fun n k => n.addChild k.1 k.2) n') := by
  induction kids generalizing n n' kids' with
  | nil => cases kids' with
    | nil => exact h
    | cons _ _ => simp at hk
  | cons k ks ih => cases kids' with
    | nil => simp at hk
    | cons k' ks' =>
      simp only [List.map_cons, List.cons.injEq] at hk
      simp only [List.foldl_cons]
      refine ih ?_ _ hk.2
      simp only [noteKey, Prod.mk.injEq] at h
      unfold noteKey Note.addChild
      simp only [List.map_append, List.map_cons, List.map_nil]
      rw [h.1, h.2.1, h.2.2.1, h.2.2.2, hk.1]

theorem sim_addWith {b a a'} (h : AddSim b a a') {cls : NoteId} {vrs vrs' : Dict Val} {cat} {kids kids' : List (NoteId × Dict Val)}
    (hk : kids.map (·.1) = kids'.map (·.1)) : Sim b (a.addWith cls vrs cat kids) (a'.addWith cls vrs' cat kids') := by
  refine ⟨rfl, ?_⟩
  unfold AddNote.addWith
  simp only [List.map_cons, List.map_nil]
  rw [noteKey_addKids (noteKey_mk1 h cls vrs vrs' cat) kids kids' hk]

/-- step through two copies of a check -/
macro "sim_step" : tactic => `(tactic| first
  | assumption
  | with_reducible exact Sim.refl _
  | with_reducible exact sim_add (by assumption)
  | with_reducible exact sim_add (addSim_on _ _ _)
  | with_reducible exact sim_addWith (by assumption) rfl
  | with_reducible refine sim_bind ?_ ?_
  | with_reducible refine sim_when ?_
  | with_reducible refine sim_ite ?_ ?_
  | with_reducible refine sim_forEach ?_
  | with_reducible refine sim_mapM ?_
  | with_reducible intro _
  | split
  | dsimp only)

/-- step through two copies of a check, as far as possible -/
macro "sim" : tactic => `(tactic| repeat' sim_step)

variable {b : Bool} {add add' : AddNote}

theorem checkMediaType_sim (h : AddSim b add add') (v bad ref w t) :
    Sim b (checkMediaType add v bad ref w t) (checkMediaType add' v bad ref w t) := by
  unfold checkMediaType
  dsimp only
  generalize partition 47 v = p
  obtain ⟨x, y, z⟩ := p
  cases bad <;> cases ref <;> dsimp only <;> sim

theorem parseParam_sim (h : AddSim b add add') (env ns d p) : Sim b (parseParam env add ns d p) (parseParam env add' ns d p) := by
  unfold parseParam; sim

theorem parseParams_sim (h : AddSim b add add') (env s ns dl) : Sim b (parseParams env add s ns dl) (parseParams env add' s ns dl) := by
  unfold parseParams
  generalize splitString s Syntax.rfc9110.parameter (delimRE dl) = ps
  generalize ([] : Dict Val) = d
  induction ps generalizing d with
  | nil => exact .refl _
  | cons p ps ih => exact sim_bind (parseParam_sim h _ _ _ _) fun d => ih d

theorem parseMediaType_sim (h : AddSim b add add') (env v bad ref w ns) :
    Sim b (parseMediaType env add v bad ref w ns) (parseMediaType env add' v bad ref w ns) := by
  unfold parseMediaType
  exact sim_bind (checkMediaType_sim h _ _ _ _ _) fun _ => sim_bind (parseParams_sim h _ _ _ _) fun _ => .refl _

theorem parseHttpDate_sim (h : AddSim b add add') (env v cat) : Sim b (parseHttpDate env add v cat) (parseHttpDate env add' v cat) := by
  unfold parseHttpDate; sim

theorem processCookieAttribute_sim (h : AddSim b add add') (n v cn at_ up t l) :
    Sim b (processCookieAttribute n v cn at_ up t add l) (processCookieAttribute n v cn at_ up t add' l) := by
  unfold processCookieAttribute; sim

theorem cookieAttrLoop_sim (h : AddSim b add add') (cn up t avs) :
    ∀ seen at_ l, Sim b (cookieAttrLoop cn up t add avs seen at_ l) (cookieAttrLoop cn up t add' avs seen at_ l) := by
  induction avs with
  | nil => intro _ _ _; exact .refl _
  | cons a avs ih =>
    intro seen at_ l
    unfold cookieAttrLoop
    repeat' first | (with_reducible exact ih _ _ _) | (with_reducible exact processCookieAttribute_sim h _ _ _ _ _ _ _) | sim_step

theorem checkPrefixes_sim (h : AddSim b add add') (cn at_) : Sim b (checkPrefixes cn at_ add) (checkPrefixes cn at_ add') := by
  unfold checkPrefixes; sim

theorem looseParse_sim (h : AddSim b add add') (s up t) : Sim b (looseParse s up t add) (looseParse s up t add') := by
  unfold looseParse
  repeat' first | (with_reducible exact cookieAttrLoop_sim h _ _ _ _ _ _ _) | (with_reducible exact checkPrefixes_sim h _ _) | sim_step

theorem rangeBad_sim (h : AddSim b add add') (p) : Sim b (range.bad add p) (range.bad add' p) := by
  unfold range.bad; sim

theorem checkStatus_sim (h : AddSim b add add') (c) : Sim b (content_range.checkStatus c add) (content_range.checkStatus c add') := by
  unfold content_range.checkStatus; sim

theorem contentRangeLength_sim (h : AddSim b add add') (s) : Sim b (content_range.parseLength add s) (content_range.parseLength add' s) := by
  unfold content_range.parseLength; sim

theorem contentRangeSpec_sim (h : AddSim b add add') (s) : Sim b (content_range.parseSpec add s) (content_range.parseSpec add' s) := by
  unfold content_range.parseSpec; sim

theorem rangeEnd_sim (h : AddSim b add add') (s p) : Sim b (range.parseEnd add s p) (range.parseEnd add' s p) := by
  unfold range.parseEnd; repeat' first | (with_reducible exact rangeBad_sim (by assumption) _) | sim_step

theorem rangeSpec_sim (h : AddSim b add add') (s) : Sim b (range.parseSpec add s) (range.parseSpec add' s) := by
  unfold range.parseSpec
  repeat' first | (with_reducible exact rangeBad_sim (by assumption) _) | (with_reducible exact rangeEnd_sim (by assumption) _ _) | sim_step

/-- step, with the helpers -/
macro "sim_parse" : tactic => `(tactic| repeat' first
  | (with_reducible exact parseMediaType_sim (by assumption) _ _ _ _ _ _)
  | (with_reducible exact parseParams_sim (by assumption) _ _ _ _)
  | (with_reducible exact parseHttpDate_sim (by assumption) _ _ _)
  | (with_reducible exact rangeBad_sim (by assumption) _)
  | (with_reducible exact checkStatus_sim (by assumption) _)
  | (with_reducible exact contentRangeLength_sim (by assumption) _)
  | (with_reducible exact contentRangeSpec_sim (by assumption) _)
  | (with_reducible exact rangeSpec_sim (by assumption) _)
  | sim_step)

theorem accept_parse_sim (h : AddSim b add add') (env v) : Sim b (accept.parse env add v) (accept.parse env add' v) := by
  unfold accept.parse; sim_parse
theorem coding_parse_sim (h : AddSim b add add') (env v) : Sim b (codingParse env add v) (codingParse env add' v) := by
  unfold codingParse; sim_parse
theorem accept_language_parse_sim (h : AddSim b add add') (env v) : Sim b (accept_language.parse env add v) (accept_language.parse env add' v) := by
  unfold accept_language.parse; sim_parse
theorem accept_patch_parse_sim (h : AddSim b add add') (env v) : Sim b (accept_patch.parse env add v) (accept_patch.parse env add' v) := by
  unfold accept_patch.parse; sim_parse
theorem accept_post_parse_sim (h : AddSim b add add') (env v) : Sim b (accept_post.parse env add v) (accept_post.parse env add' v) := by
  unfold accept_post.parse; sim_parse
theorem accept_ranges_parse_sim (h : AddSim b add add') (v) : Sim b (accept_ranges.parse add v) (accept_ranges.parse add' v) := by
  unfold accept_ranges.parse; sim_parse
theorem acma_parse_sim (h : AddSim b add add') (v) : Sim b (access_control_max_age.parse add v) (access_control_max_age.parse add' v) := by
  unfold access_control_max_age.parse; sim_parse
theorem age_parse_sim (h : AddSim b add add') (v) : Sim b (age.parse add v) (age.parse add' v) := by
  unfold age.parse; sim_parse
theorem cache_control_parse_sim (h : AddSim b add add') (v) : Sim b (cache_control.parse add v) (cache_control.parse add' v) := by
  unfold cache_control.parse; sim_parse
theorem content_disposition_parse_sim (h : AddSim b add add') (env v) : Sim b (content_disposition.parse env add v) (content_disposition.parse env add' v) := by
  unfold content_disposition.parse; sim_parse
theorem content_encoding_parse_sim (h : AddSim b add add') (c v) : Sim b (content_encoding.parse c add v) (content_encoding.parse c add' v) := by
  unfold content_encoding.parse; sim_parse
theorem content_length_parse_sim (h : AddSim b add add') (v) : Sim b (content_length.parse add v) (content_length.parse add' v) := by
  unfold content_length.parse; sim_parse
theorem content_range_parse_sim (h : AddSim b add add') (c v) : Sim b (content_range.parse c add v) (content_range.parse c add' v) := by
  unfold content_range.parse; sim_parse
theorem content_type_parse_sim (h : AddSim b add add') (env v) : Sim b (content_type.parse env add v) (content_type.parse env add' v) := by
  unfold content_type.parse; sim_parse
theorem date_parse_sim (h : AddSim b add add') (env v) : Sim b (date.parse env add v) (date.parse env add' v) := by
  unfold date.parse; sim_parse
theorem expires_parse_sim (h : AddSim b add add') (env v) : Sim b (expires.parse env add v) (expires.parse env add' v) := by
  unfold expires.parse; sim_parse
theorem last_modified_parse_sim (h : AddSim b add add') (env v) : Sim b (last_modified.parse env add v) (last_modified.parse env add' v) := by
  unfold last_modified.parse; sim_parse
theorem sunset_parse_sim (h : AddSim b add add') (env v) : Sim b (sunset.parse env add v) (sunset.parse env add' v) := by
  unfold sunset.parse; sim_parse
theorem link_parse_sim (h : AddSim b add add') (c v) : Sim b (link.parse c add v) (link.parse c add' v) := by
  unfold link.parse; sim_parse
theorem location_parse_sim (h : AddSim b add add') (c v) : Sim b (location.parse c add v) (location.parse c add' v) := by
  unfold location.parse; sim_parse
theorem origin_parse_sim (h : AddSim b add add') (v) : Sim b (origin.parse add v) (origin.parse add' v) := by
  unfold origin.parse; sim_parse
theorem range_parse_sim (h : AddSim b add add') (v) : Sim b (range.parse add v) (range.parse add' v) := by
  unfold range.parse; sim_parse
theorem server_parse_sim (h : AddSim b add add') (v) : Sim b (server.parse add v) (server.parse add' v) := by
  unfold server.parse; sim_parse
theorem server_timing_parse_sim (h : AddSim b add add') (c v) : Sim b (server_timing.parse c add v) (server_timing.parse c add' v) := by
  unfold server_timing.parse; sim_parse
theorem tcn_parse_sim (h : AddSim b add add') (n n' v) : Sim b (tcn.parse add n v) (tcn.parse add' n' v) := by
  unfold tcn.parse; sim_parse
theorem transfer_encoding_parse_sim (h : AddSim b add add') (env v) : Sim b (transfer_encoding.parse env add v) (transfer_encoding.parse env add' v) := by
  unfold transfer_encoding.parse; sim_parse
theorem unnecessary_parse_sim (h : AddSim b add add') (n n') : Sim b (unnecessary.parse add n) (unnecessary.parse add' n') := by
  unfold unnecessary.parse; sim_parse

/-! ### the scratch attributes -/

/-- the same up to the variables of notes not yet added -/
structure AuxSim (b : Bool) (a a' : Aux) : Prop where
  notes : a.notes.map (noteKey b) = a'.notes.map (noteKey b)
  kids : a.kids = a'.kids
  vals : a.vals = a'.vals

theorem AuxSim.refl (a) : AuxSim b a a := ⟨rfl, rfl, rfl⟩

theorem clear_site_data_parse_sim (h : AddSim b add add') {a a'} (ha : AuxSim b a a') (v) :
    AuxSim b (clear_site_data.parse add a v).1 (clear_site_data.parse add' a' v).1 ∧
    Sim b (clear_site_data.parse add a v).2 (clear_site_data.parse add' a' v).2 := by
  unfold clear_site_data.parse
  refine ⟨?_, by dsimp only; sim⟩
  dsimp only
  split
  · split
    · exact ⟨ha.notes, ha.kids, by rw [ha.vals]⟩
    · exact ha
  · split
    · exact ⟨ha.notes, ha.kids, by rw [ha.vals]⟩
    · exact ha

theorem csp_parse_sim {a a'} (ha : AuxSim b a a') (ro v) :
    AuxSim b (csp.parse ro a v).1 (csp.parse ro a' v).1 ∧ Sim b (csp.parse ro a v).2 (csp.parse ro a' v).2 := by
  unfold csp.parse
  refine ⟨?_, .refl _⟩
  dsimp only
  split
  · exact ha
  · exact ⟨ha.notes, by rw [ha.kids], ha.vals⟩

theorem hsts_parse_sim {a a'} (ha : AuxSim b a a') (v) :
    AuxSim b (hsts.parse a v).1 (hsts.parse a' v).1 ∧ Sim b (hsts.parse a v).2 (hsts.parse a' v).2 := by
  unfold hsts.parse
  rw [ha.kids]
  exact ⟨⟨ha.notes, rfl, ha.vals⟩, .refl _⟩

theorem set_cookie_parse_sim (h : AddSim b add add') {a a'} (ha : AuxSim b a a') (c v) :
    AuxSim b (set_cookie.parse c add a v).1 (set_cookie.parse c add' a' v).1 ∧
    Sim b (set_cookie.parse c add a v).2 (set_cookie.parse c add' a' v).2 := by
  unfold set_cookie.parse
  split
  · exact ⟨ha, .refl _⟩
  · rename_i u _
    have hs := looseParse_sim h v u.path c.msg.startTime
    exact ⟨⟨by simp only [List.map_append, ha.notes, hs.notes], ha.kids, ha.vals⟩, ⟨by simp only [hs.res], rfl⟩⟩

/-- `parse` does the same for handlers of the same class -/
theorem Handler.parse_sim (h : AddSim b add add') {hd hd' : Handler} (hf : hd.fid = hd'.fid) (ha : AuxSim b hd.aux hd'.aux) (c v) :
    AuxSim b (hd.parse c add v).1 (hd'.parse c add' v).1 ∧ Sim b (hd.parse c add v).2 (hd'.parse c add' v).2 := by
  unfold Handler.parse Handler.noAux
  rw [← hf]
  split
  all_goals (try dsimp only)
  all_goals first
    | (with_reducible exact ⟨ha, accept_parse_sim h _ _⟩)
    | (with_reducible exact ⟨ha, coding_parse_sim h _ _⟩)
    | (with_reducible exact ⟨ha, accept_language_parse_sim h _ _⟩)
    | (with_reducible exact ⟨ha, accept_patch_parse_sim h _ _⟩)
    | (with_reducible exact ⟨ha, accept_post_parse_sim h _ _⟩)
    | (with_reducible exact ⟨ha, accept_ranges_parse_sim h _⟩)
    | (with_reducible exact ⟨ha, acma_parse_sim h _⟩)
    | (with_reducible exact ⟨ha, age_parse_sim h _⟩)
    | (with_reducible exact ⟨ha, cache_control_parse_sim h _⟩)
    | (with_reducible exact ⟨ha, content_disposition_parse_sim h _ _⟩)
    | (with_reducible exact ⟨ha, content_encoding_parse_sim h _ _⟩)
    | (with_reducible exact ⟨ha, content_length_parse_sim h _⟩)
    | (with_reducible exact ⟨ha, content_range_parse_sim h _ _⟩)
    | (with_reducible exact ⟨ha, content_type_parse_sim h _ _⟩)
    | (with_reducible exact ⟨ha, date_parse_sim h _ _⟩)
    | (with_reducible exact ⟨ha, expires_parse_sim h _ _⟩)
    | (with_reducible exact ⟨ha, last_modified_parse_sim h _ _⟩)
    | (with_reducible exact ⟨ha, sunset_parse_sim h _ _⟩)
    | (with_reducible exact ⟨ha, link_parse_sim h _ _⟩)
    | (with_reducible exact ⟨ha, location_parse_sim h _ _⟩)
    | (with_reducible exact ⟨ha, origin_parse_sim h _⟩)
    | (with_reducible exact ⟨ha, range_parse_sim h _⟩)
    | (with_reducible exact ⟨ha, server_parse_sim h _⟩)
    | (with_reducible exact ⟨ha, server_timing_parse_sim h _ _⟩)
    | (with_reducible exact ⟨ha, tcn_parse_sim h _ _ _⟩)
    | (with_reducible exact ⟨ha, transfer_encoding_parse_sim h _ _⟩)
    | (with_reducible exact ⟨ha, unnecessary_parse_sim h _ _⟩)
    | (with_reducible exact clear_site_data_parse_sim h ha _)
    | (with_reducible exact csp_parse_sim ha _ _)
    | (with_reducible exact hsts_parse_sim ha _)
    | (with_reducible exact set_cookie_parse_sim h ha _ _)
    | exact ⟨ha, Sim.refl _⟩

end HL.Props
