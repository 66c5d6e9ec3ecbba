import Verif.Props.Values

/-!
# The notes of a check have the subject its adder has, and nothing else depends on it

`Mv w w'`: the two computations end in the same way and add the same notes, in the same order, but for their subjects.
-/

namespace HL.Props
open HL.F

/-- a note without its subject -/
def unplaced (n : Note) : Note := { n with subject := [], subnotes := n.subnotes.map fun s => { s with subject := [] } }

/-- the same outcome and the same notes up to their subjects -/
structure Mv {α} (w w' : W α) : Prop where
  res : w.res = w'.res
  notes : w.notes.map unplaced = w'.notes.map unplaced

/-- adders that differ in the subject only -/
def AddMv (a a' : AddNote) : Prop := a.defaults = a'.defaults ∧ a.base = a'.base

theorem Mv.refl {α} (w : W α) : Mv w w := ⟨rfl, rfl⟩

theorem mv_bind {α β} {x x' : W α} {f f' : α → W β} (hx : Mv x x') (hf : ∀ a, Mv (f a) (f' a)) :
    Mv (x >>= f) (x' >>= f') := by
  obtain ⟨h1, h2⟩ := hx
  cases hr : x.res with
  | error e =>
    rw [W.bind_err hr, W.bind_err (h1 ▸ hr)]
    exact ⟨rfl, h2⟩
  | ok a =>
    rw [W.bind_ok hr, W.bind_ok (h1 ▸ hr)]
    exact ⟨(hf a).res, by simp only [List.map_append, h2, (hf a).notes]⟩

theorem mv_when {c : Bool} {w w' : W Unit} (h : Mv w w') : Mv (W.when c w) (W.when c w') := by
  unfold W.when; split
  · exact h
  · exact .refl _

theorem mv_ite {α} {c : Prop} [Decidable c] {x x' y y' : W α} (hx : Mv x x') (hy : Mv y y') :
    Mv (if c then x else y) (if c then x' else y') := by
  split
  · exact hx
  · exact hy

theorem mv_forEach {α} {xs : List α} {f f' : α → W Unit} (h : ∀ a, Mv (f a) (f' a)) :
    Mv (W.forEach xs f) (W.forEach xs f') := by
  induction xs with
  | nil => exact .refl _
  | cons x xs ih => exact mv_bind (h x) fun _ => ih

theorem mv_mapM {α β} {xs : List α} {f f' : α → W β} (h : ∀ a, Mv (f a) (f' a)) :
    Mv (xs.mapM f) (xs.mapM f') := by
  induction xs with
  | nil => exact .refl _
  | cons x xs ih =>
    rw [List.mapM_cons, List.mapM_cons]
    exact mv_bind (h x) fun _ => mv_bind ih fun _ => .refl _

theorem unplaced_mk1 {a a'} (h : AddMv a a') (cls : NoteId) (vrs : Dict Val) (cat) : unplaced (a.mk1 cls vrs cat) = unplaced (a'.mk1 cls vrs cat) := by
  unfold unplaced AddNote.mk1 mkNote
  rw [h.1, h.2]

theorem mv_add {a a'} (h : AddMv a a') {cls : NoteId} {vrs : Dict Val} {cat} : Mv (a.add cls vrs cat) (a'.add cls vrs cat) :=
  ⟨rfl, by simp only [AddNote.add_notes, List.map_cons, List.map_nil, unplaced_mk1 h cls vrs cat]⟩

theorem addMv_on {a a'} (h : AddMv a a') (s base) : AddMv (AddNote.on a s base) (AddNote.on a' s base) := ⟨h.1, rfl⟩

theorem unplaced_addChild {n n' : Note} (h : unplaced n = unplaced n') (c v) : unplaced (n.addChild c v) = unplaced (n'.addChild c v) := by
  unfold unplaced Note.addChild at *
  simp only [Note.mk.injEq, List.map_append, List.map_cons, List.map_nil] at *
  obtain ⟨h1, h2, h3, h4, h5⟩ := h
  refine ⟨h1, h2, h3, h4, ?_⟩
  rw [h5, h4]

theorem unplaced_addKids {n n' : Note} (h : unplaced n = unplaced n') (kids : List (NoteId × Dict Val)) :
    unplaced (kids.foldl (fun n k => n.addChild k.1 k.2) n) = unplaced (kids.foldl (fun n k => n.addChild k.1 k.2) n') := by
  induction kids generalizing n n' with
  | nil => exact h
  | cons k ks ih => exact ih (unplaced_addChild h _ _)

theorem mv_addWith {a a'} (h : AddMv a a') {cls : NoteId} {vrs : Dict Val} {cat} {kids : List (NoteId × Dict Val)} :
    Mv (a.addWith cls vrs cat kids) (a'.addWith cls vrs cat kids) := by
  refine ⟨rfl, ?_⟩
  unfold AddNote.addWith
  simp only [List.map_cons, List.map_nil]
  rw [unplaced_addKids (unplaced_mk1 h cls vrs cat) kids]

/-- step through two copies of a check -/
macro "mv_step" : tactic => `(tactic| first
  | assumption
  | with_reducible exact Mv.refl _
  | with_reducible exact mv_add (by assumption)
  | with_reducible exact mv_add (addMv_on (by assumption) _ _)
  | with_reducible exact mv_addWith (by assumption)
  | with_reducible refine mv_bind ?_ ?_
  | with_reducible refine mv_when ?_
  | with_reducible refine mv_ite ?_ ?_
  | with_reducible refine mv_forEach ?_
  | with_reducible refine mv_mapM ?_
  | with_reducible intro _
  | split
  | dsimp only)

/-- step through two copies of a check, as far as possible -/
macro "mv" : tactic => `(tactic| repeat' mv_step)

variable {add add' : AddNote}

theorem checkMediaType_mv (h : AddMv add add') (v bad ref w t) :
    Mv (checkMediaType add v bad ref w t) (checkMediaType add' v bad ref w t) := by
  unfold checkMediaType
  dsimp only
  generalize partition 47 v = p
  obtain ⟨x, y, z⟩ := p
  cases bad <;> cases ref <;> dsimp only <;> mv

theorem parseParam_mv (h : AddMv add add') (env ns d p) : Mv (parseParam env add ns d p) (parseParam env add' ns d p) := by
  unfold parseParam; mv

theorem parseParams_mv (h : AddMv add add') (env s ns dl) : Mv (parseParams env add s ns dl) (parseParams env add' s ns dl) := by
  unfold parseParams
  generalize splitString s Syntax.rfc9110.parameter (delimRE dl) = ps
  generalize ([] : Dict Val) = d
  induction ps generalizing d with
  | nil => exact .refl _
  | cons p ps ih => exact mv_bind (parseParam_mv h _ _ _ _) fun d => ih d

theorem parseMediaType_mv (h : AddMv add add') (env v bad ref w ns) :
    Mv (parseMediaType env add v bad ref w ns) (parseMediaType env add' v bad ref w ns) := by
  unfold parseMediaType
  exact mv_bind (checkMediaType_mv h _ _ _ _ _) fun _ => mv_bind (parseParams_mv h _ _ _ _) fun _ => .refl _

theorem parseHttpDate_mv (h : AddMv add add') (env v cat) : Mv (parseHttpDate env add v cat) (parseHttpDate env add' v cat) := by
  unfold parseHttpDate; mv

theorem processCookieAttribute_mv (h : AddMv add add') (n v cn at_ up t l) :
    Mv (processCookieAttribute n v cn at_ up t add l) (processCookieAttribute n v cn at_ up t add' l) := by
  unfold processCookieAttribute; mv

theorem cookieAttrLoop_mv (h : AddMv add add') (cn up t avs) :
    ∀ seen at_ l, Mv (cookieAttrLoop cn up t add avs seen at_ l) (cookieAttrLoop cn up t add' avs seen at_ l) := by
  induction avs with
  | nil => intro _ _ _; exact .refl _
  | cons a avs ih =>
    intro seen at_ l
    unfold cookieAttrLoop
    repeat' first | (with_reducible exact ih _ _ _) | (with_reducible exact processCookieAttribute_mv h _ _ _ _ _ _ _) | mv_step

theorem checkPrefixes_mv (h : AddMv add add') (cn at_) : Mv (checkPrefixes cn at_ add) (checkPrefixes cn at_ add') := by
  unfold checkPrefixes; mv

theorem looseParse_mv (h : AddMv add add') (s up t) : Mv (looseParse s up t add) (looseParse s up t add') := by
  unfold looseParse
  repeat' first | (with_reducible exact cookieAttrLoop_mv h _ _ _ _ _ _ _) | (with_reducible exact checkPrefixes_mv h _ _) | mv_step

theorem rangeBad_mv (h : AddMv add add') (p) : Mv (range.bad add p) (range.bad add' p) := by
  unfold range.bad; mv

theorem checkStatus_mv (h : AddMv add add') (c) : Mv (content_range.checkStatus c add) (content_range.checkStatus c add') := by
  unfold content_range.checkStatus; mv

theorem contentRangeLength_mv (h : AddMv add add') (s) : Mv (content_range.parseLength add s) (content_range.parseLength add' s) := by
  unfold content_range.parseLength; mv

theorem contentRangeSpec_mv (h : AddMv add add') (s) : Mv (content_range.parseSpec add s) (content_range.parseSpec add' s) := by
  unfold content_range.parseSpec; mv

theorem rangeEnd_mv (h : AddMv add add') (s p) : Mv (range.parseEnd add s p) (range.parseEnd add' s p) := by
  unfold range.parseEnd; repeat' first | (with_reducible exact rangeBad_mv (by assumption) _) | mv_step

theorem rangeSpec_mv (h : AddMv add add') (s) : Mv (range.parseSpec add s) (range.parseSpec add' s) := by
  unfold range.parseSpec
  repeat' first | (with_reducible exact rangeBad_mv (by assumption) _) | (with_reducible exact rangeEnd_mv (by assumption) _ _) | mv_step

/-- step, with the helpers -/
macro "mv_parse" : tactic => `(tactic| repeat' first
  | (with_reducible exact parseMediaType_mv (by assumption) _ _ _ _ _ _)
  | (with_reducible exact parseParams_mv (by assumption) _ _ _ _)
  | (with_reducible exact parseHttpDate_mv (by assumption) _ _ _)
  | (with_reducible exact rangeBad_mv (by assumption) _)
  | (with_reducible exact checkStatus_mv (by assumption) _)
  | (with_reducible exact contentRangeLength_mv (by assumption) _)
  | (with_reducible exact contentRangeSpec_mv (by assumption) _)
  | (with_reducible exact rangeSpec_mv (by assumption) _)
  | mv_step)

theorem accept_parse_mv (h : AddMv add add') (env v) : Mv (accept.parse env add v) (accept.parse env add' v) := by
  unfold accept.parse; mv_parse
theorem coding_parse_mv (h : AddMv add add') (env v) : Mv (codingParse env add v) (codingParse env add' v) := by
  unfold codingParse; mv_parse
theorem accept_language_parse_mv (h : AddMv add add') (env v) : Mv (accept_language.parse env add v) (accept_language.parse env add' v) := by
  unfold accept_language.parse; mv_parse
theorem accept_patch_parse_mv (h : AddMv add add') (env v) : Mv (accept_patch.parse env add v) (accept_patch.parse env add' v) := by
  unfold accept_patch.parse; mv_parse
theorem accept_post_parse_mv (h : AddMv add add') (env v) : Mv (accept_post.parse env add v) (accept_post.parse env add' v) := by
  unfold accept_post.parse; mv_parse
theorem accept_ranges_parse_mv (h : AddMv add add') (v) : Mv (accept_ranges.parse add v) (accept_ranges.parse add' v) := by
  unfold accept_ranges.parse; mv_parse
theorem acma_parse_mv (h : AddMv add add') (v) : Mv (access_control_max_age.parse add v) (access_control_max_age.parse add' v) := by
  unfold access_control_max_age.parse; mv_parse
theorem age_parse_mv (h : AddMv add add') (v) : Mv (age.parse add v) (age.parse add' v) := by
  unfold age.parse; mv_parse
theorem cache_control_parse_mv (h : AddMv add add') (v) : Mv (cache_control.parse add v) (cache_control.parse add' v) := by
  unfold cache_control.parse; mv_parse
theorem content_disposition_parse_mv (h : AddMv add add') (env v) : Mv (content_disposition.parse env add v) (content_disposition.parse env add' v) := by
  unfold content_disposition.parse; mv_parse
theorem content_encoding_parse_mv (h : AddMv add add') (c v) : Mv (content_encoding.parse c add v) (content_encoding.parse c add' v) := by
  unfold content_encoding.parse; mv_parse
theorem content_length_parse_mv (h : AddMv add add') (v) : Mv (content_length.parse add v) (content_length.parse add' v) := by
  unfold content_length.parse; mv_parse
theorem content_range_parse_mv (h : AddMv add add') (c v) : Mv (content_range.parse c add v) (content_range.parse c add' v) := by
  unfold content_range.parse; mv_parse
theorem content_type_parse_mv (h : AddMv add add') (env v) : Mv (content_type.parse env add v) (content_type.parse env add' v) := by
  unfold content_type.parse; mv_parse
theorem date_parse_mv (h : AddMv add add') (env v) : Mv (date.parse env add v) (date.parse env add' v) := by
  unfold date.parse; mv_parse
theorem expires_parse_mv (h : AddMv add add') (env v) : Mv (expires.parse env add v) (expires.parse env add' v) := by
  unfold expires.parse; mv_parse
theorem last_modified_parse_mv (h : AddMv add add') (env v) : Mv (last_modified.parse env add v) (last_modified.parse env add' v) := by
  unfold last_modified.parse; mv_parse
theorem sunset_parse_mv (h : AddMv add add') (env v) : Mv (sunset.parse env add v) (sunset.parse env add' v) := by
  unfold sunset.parse; mv_parse
theorem link_parse_mv (h : AddMv add add') (c v) : Mv (link.parse c add v) (link.parse c add' v) := by
  unfold link.parse; mv_parse
theorem location_parse_mv (h : AddMv add add') (c v) : Mv (location.parse c add v) (location.parse c add' v) := by
  unfold location.parse; mv_parse
theorem origin_parse_mv (h : AddMv add add') (v) : Mv (origin.parse add v) (origin.parse add' v) := by
  unfold origin.parse; mv_parse
theorem range_parse_mv (h : AddMv add add') (v) : Mv (range.parse add v) (range.parse add' v) := by
  unfold range.parse; mv_parse
theorem server_parse_mv (h : AddMv add add') (v) : Mv (server.parse add v) (server.parse add' v) := by
  unfold server.parse; mv_parse
theorem server_timing_parse_mv (h : AddMv add add') (c v) : Mv (server_timing.parse c add v) (server_timing.parse c add' v) := by
  unfold server_timing.parse; mv_parse
theorem tcn_parse_mv (h : AddMv add add') (n v) : Mv (tcn.parse add n v) (tcn.parse add' n v) := by
  unfold tcn.parse; mv_parse
theorem transfer_encoding_parse_mv (h : AddMv add add') (env v) : Mv (transfer_encoding.parse env add v) (transfer_encoding.parse env add' v) := by
  unfold transfer_encoding.parse; mv_parse
theorem unnecessary_parse_mv (h : AddMv add add') (n) : Mv (unnecessary.parse add n) (unnecessary.parse add' n) := by
  unfold unnecessary.parse; mv_parse

/-! ### the scratch attributes -/

/-- the same up to the variables of notes not yet added -/
structure AuxMv (a a' : Aux) : Prop where
  notes : a.notes.map unplaced = a'.notes.map unplaced
  kids : a.kids = a'.kids
  vals : a.vals = a'.vals

theorem AuxMv.refl (a) : AuxMv a a := ⟨rfl, rfl, rfl⟩

theorem clear_site_data_parse_mv (h : AddMv add add') {a a'} (ha : AuxMv a a') (v) :
    AuxMv (clear_site_data.parse add a v).1 (clear_site_data.parse add' a' v).1 ∧
    Mv (clear_site_data.parse add a v).2 (clear_site_data.parse add' a' v).2 := by
  unfold clear_site_data.parse
  refine ⟨?_, by dsimp only; mv⟩
  dsimp only
  split
  · split
    · exact ⟨ha.notes, ha.kids, by rw [ha.vals]⟩
    · exact ha
  · split
    · exact ⟨ha.notes, ha.kids, by rw [ha.vals]⟩
    · exact ha

theorem csp_parse_mv {a a'} (ha : AuxMv a a') (ro v) :
    AuxMv (csp.parse ro a v).1 (csp.parse ro a' v).1 ∧ Mv (csp.parse ro a v).2 (csp.parse ro a' v).2 := by
  unfold csp.parse
  refine ⟨?_, .refl _⟩
  dsimp only
  split
  · exact ha
  · exact ⟨ha.notes, by rw [ha.kids], ha.vals⟩

theorem hsts_parse_mv {a a'} (ha : AuxMv a a') (v) :
    AuxMv (hsts.parse a v).1 (hsts.parse a' v).1 ∧ Mv (hsts.parse a v).2 (hsts.parse a' v).2 := by
  unfold hsts.parse
  rw [ha.kids]
  exact ⟨⟨ha.notes, rfl, ha.vals⟩, .refl _⟩

theorem set_cookie_parse_mv (h : AddMv add add') {a a'} (ha : AuxMv a a') (c v) :
    AuxMv (set_cookie.parse c add a v).1 (set_cookie.parse c add' a' v).1 ∧
    Mv (set_cookie.parse c add a v).2 (set_cookie.parse c add' a' v).2 := by
  unfold set_cookie.parse
  split
  · exact ⟨ha, .refl _⟩
  · rename_i u _
    have hs := looseParse_mv h v u.path c.msg.startTime
    exact ⟨⟨by simp only [List.map_append, ha.notes, hs.notes], ha.kids, ha.vals⟩, ⟨by simp only [hs.res], rfl⟩⟩

/-- `parse` does the same for handlers of the same class -/
theorem Handler.parse_mv (h : AddMv add add') {hd hd' : Handler} (hf : hd.fid = hd'.fid) (hw : hd.wireName = hd'.wireName) (ha : AuxMv hd.aux hd'.aux) (c v) :
    AuxMv (hd.parse c add v).1 (hd'.parse c add' v).1 ∧ Mv (hd.parse c add v).2 (hd'.parse c add' v).2 := by
  unfold Handler.parse Handler.noAux
  rw [← hf, ← hw]
  split
  all_goals (try dsimp only)
  all_goals first
    | (with_reducible exact ⟨ha, accept_parse_mv h _ _⟩)
    | (with_reducible exact ⟨ha, coding_parse_mv h _ _⟩)
    | (with_reducible exact ⟨ha, accept_language_parse_mv h _ _⟩)
    | (with_reducible exact ⟨ha, accept_patch_parse_mv h _ _⟩)
    | (with_reducible exact ⟨ha, accept_post_parse_mv h _ _⟩)
    | (with_reducible exact ⟨ha, accept_ranges_parse_mv h _⟩)
    | (with_reducible exact ⟨ha, acma_parse_mv h _⟩)
    | (with_reducible exact ⟨ha, age_parse_mv h _⟩)
    | (with_reducible exact ⟨ha, cache_control_parse_mv h _⟩)
    | (with_reducible exact ⟨ha, content_disposition_parse_mv h _ _⟩)
    | (with_reducible exact ⟨ha, content_encoding_parse_mv h _ _⟩)
    | (with_reducible exact ⟨ha, content_length_parse_mv h _⟩)
    | (with_reducible exact ⟨ha, content_range_parse_mv h _ _⟩)
    | (with_reducible exact ⟨ha, content_type_parse_mv h _ _⟩)
    | (with_reducible exact ⟨ha, date_parse_mv h _ _⟩)
    | (with_reducible exact ⟨ha, expires_parse_mv h _ _⟩)
    | (with_reducible exact ⟨ha, last_modified_parse_mv h _ _⟩)
    | (with_reducible exact ⟨ha, sunset_parse_mv h _ _⟩)
    | (with_reducible exact ⟨ha, link_parse_mv h _ _⟩)
    | (with_reducible exact ⟨ha, location_parse_mv h _ _⟩)
    | (with_reducible exact ⟨ha, origin_parse_mv h _⟩)
    | (with_reducible exact ⟨ha, range_parse_mv h _⟩)
    | (with_reducible exact ⟨ha, server_parse_mv h _⟩)
    | (with_reducible exact ⟨ha, server_timing_parse_mv h _ _⟩)
    | (with_reducible exact ⟨ha, tcn_parse_mv h _ _⟩)
    | (with_reducible exact ⟨ha, transfer_encoding_parse_mv h _ _⟩)
    | (with_reducible exact ⟨ha, unnecessary_parse_mv h _⟩)
    | (with_reducible exact clear_site_data_parse_mv h ha _)
    | (with_reducible exact csp_parse_mv ha _ _)
    | (with_reducible exact hsts_parse_mv ha _)
    | (with_reducible exact set_cookie_parse_mv h ha _ _)
    | exact ⟨ha, Mv.refl _⟩

end HL.Props
