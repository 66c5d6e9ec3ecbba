import Verif.Props.Reports

/-!
# What every note of a field's own code carries: the field it is about, and the category

For a field's `parse` and `evaluate`: every note is about what `add` is about (but for two kinds of note, which are about
something else), names what `add` names, and its category is its class's (but for problems with dates).
-/

namespace HL.Props
open HL.F

/-! ### specification -/

/-- the variables that tell where a note comes from -/
def contextKeys : List Str := [str "field_name", str "field_type", str "message_type"]

/-- the notes on a field that are about something other than it, and what -/
def elsewhere : NoteId → Option Str
  | .AGE_PENALTY => some (str "field-date field-age")
  | .CORS_ORIGIN_NULL | .CORS_ORIGIN_STAR | .CORS_ORIGIN_MATCH | .CORS_ORIGIN_MISMATCH => some (str "header-access-control-allow-origin")
  | _ => none

/-- problems with dates, which are put in the category of their field -/
def dated : NoteId → Bool
  | .BAD_DATE_SYNTAX | .DATE_OBSOLETE => true
  | _ => false

/-! ### the calculus -/

/-- the note inherits from `add`; `cat` is the category of the field -/
structure Bears (add : AddNote) (cat : Cat) (n : Note) : Prop where
  subject : n.subject = (elsewhere n.cls).getD add.subject
  context : elsewhere n.cls = none → ∀ k ∈ contextKeys, dget n.vars k = dget (dupdate add.defaults add.base) k
  kind : dget n.vars (str "message_type") = dget add.defaults (str "message_type") ∨ elsewhere n.cls = none
  category : n.category = if dated n.cls then cat else n.cls.cat
  kids : ∀ s ∈ n.subnotes, s.subject = n.subject ∧ ∀ k ∈ contextKeys, dget s.vars k = dget n.vars k
  origin : n.cls.origin = .field

/-- none of the variables is one of these -/
def free (ks : List Str) : Bool := ks.all fun k => !contextKeys.contains k

/-- is a note of this class about its field, and its category that of its class? -/
def plain (cls : NoteId) : Bool := !dated cls && (elsewhere cls).isNone && cls.origin == .field

theorem free_notMem {ks : List Str} (h : free ks = true) {k : Str} (hk : k ∈ contextKeys) : k ∉ ks := by
  intro hm
  have := List.all_eq_true.1 h k hm
  simp only [Bool.not_eq_true', List.contains_eq_mem, decide_eq_false_iff_not] at this
  exact this hk

theorem dget_dupdate_free {β} {d e : Dict β} {k : Str} (hk : k ∉ e.map (·.1)) : dget (dupdate d e) k = dget d k := by
  rw [dget_dupdate]
  have : dget e.reverse k = none := by
    rw [dget_eq_none]
    simpa using hk
  rw [this]; rfl

theorem dget_mk1_free {add : AddNote} (h : UniqueKeys add.base) {cls : NoteId} {vrs : Dict Val} {c} {k : Str} (hk : k ∉ vrs.map (·.1)) :
    dget (add.mk1 cls vrs c).vars k = dget (dupdate add.defaults add.base) k := by
  show dget (dupdate add.defaults (dupdate add.base vrs)) k = _
  rw [dget_dupdate, dget_dupdate, dget_reverse (h.dupdate _), dget_reverse h, dget_dupdate_free hk]

variable {add : AddNote} {cat : Cat}

theorem bears_mk1 (h : UniqueKeys add.base) {cls : NoteId} {vrs : Dict Val} {c} (hf : free (vrs.map (·.1)) = true) (he : elsewhere cls = none) (ho : cls.origin = .field)
    (hc : addCategory cls c = if dated cls then cat else cls.cat) : Bears add cat (add.mk1 cls vrs c) where
  subject := by rw [AddNote.mk1_cls, he]; rfl
  context := fun _ k hk => dget_mk1_free h (free_notMem hf hk)
  kind := .inr he
  category := hc
  origin := ho
  kids := by intro s hs; exact absurd hs (by simp [AddNote.mk1, mkNote])

theorem plain_cat {cls : NoteId} (hp : plain cls = true) : elsewhere cls = none ∧ dated cls = false ∧ cls.origin = .field := by
  unfold plain at hp
  rw [Bool.and_eq_true, Bool.and_eq_true] at hp
  exact ⟨by simpa using hp.1.2, by simpa using hp.1.1, by simpa using hp.2⟩

theorem bears_add (h : UniqueKeys add.base) {cls : NoteId} {vrs : Dict Val} (hf : free (vrs.map (·.1)) = true) (hp : plain cls = true) :
    Emits (Bears add cat) (add.add cls vrs) := by
  intro n hn
  rw [AddNote.add_notes, List.mem_singleton] at hn
  subst hn
  refine bears_mk1 h hf (plain_cat hp).1 (plain_cat hp).2.2 ?_
  rw [(plain_cat hp).2.1]; rfl

theorem bears_dated (h : UniqueKeys add.base) {cls : NoteId} {vrs : Dict Val} (hf : free (vrs.map (·.1)) = true) (he : elsewhere cls = none)
    (hd : dated cls = true) (hg : cls.cat = .GENERAL) (ho : cls.origin = .field) : Emits (Bears add cat) (add.add cls vrs (some cat)) := by
  intro n hn
  rw [AddNote.add_notes, List.mem_singleton] at hn
  subst hn
  refine bears_mk1 h hf he ho ?_
  rw [hd, if_pos rfl]
  unfold addCategory
  dsimp only
  rw [if_pos hg]

theorem bears_on {s : Str} {cls : NoteId} {vrs : Dict Val} (hf : free (vrs.map (·.1)) = true) (he : elsewhere cls = some s) (hd : dated cls = false) (ho : cls.origin = .field) :
    Emits (Bears add cat) ((add.on s).add cls vrs) := by
  intro n hn
  rw [AddNote.add_notes, List.mem_singleton] at hn
  subst hn
  refine ⟨?_, ?_, .inl ?_, ?_, ?_, ho⟩
  · rw [AddNote.mk1_cls, he]; rfl
  · intro hn; rw [AddNote.mk1_cls, he] at hn; exact nomatch hn
  · exact (dget_mk1_free (add := add.on s) List.nodup_nil (free_notMem hf (k := str "message_type") (by decide)))
  · rw [AddNote.mk1_cls, hd]; rfl
  · intro s hs; exact absurd hs (by simp [AddNote.mk1, mkNote])

/-- step through the code of a check -/
macro "bears_step" : tactic => `(tactic| first
  | assumption
  | with_reducible exact emits_pure _
  | with_reducible exact emits_throw _
  | with_reducible exact emits_lift _
  | ((with_reducible refine bears_add (by assumption) ?_ ?_) <;> first | assumption | rfl)
  | ((with_reducible refine bears_dated (by assumption) ?_ ?_ ?_ ?_ ?_) <;> rfl)
  | ((with_reducible refine bears_on ?_ ?_ ?_ ?_) <;> rfl)
  | with_reducible refine emits_bind ?_ ?_
  | with_reducible refine emits_when ?_
  | with_reducible refine emits_ite ?_ ?_
  | with_reducible refine emits_forEach ?_
  | with_reducible refine emits_mapM ?_
  | with_reducible intro _
  | split
  | dsimp only)

/-- step through the code of a check, as far as possible -/
macro "bears" : tactic => `(tactic| repeat' bears_step)

/-! ### helpers -/

theorem checkMediaType_bears (h : UniqueKeys add.base) (v bad ref w t)
    (hb : ∀ cls, bad = some cls → free (str "value" :: ref.toList.map fun _ => str "ref_uri") = true ∧
      plain cls = true) :
    Emits (Bears add cat) (checkMediaType add v bad ref w t) := by
  unfold checkMediaType
  dsimp only
  generalize partition 47 v = p
  obtain ⟨a, b, c⟩ := p
  cases bad with
  | none => bears
  | some cls =>
    obtain ⟨h1, h2⟩ := hb cls rfl
    clear hb
    cases ref with
    | none =>
      have hbad : Emits (Bears add cat) (add.add cls ([(str "value", .str v)] ++ [])) := bears_add h h1 h2
      dsimp only; bears
    | some r =>
      have hbad : Emits (Bears add cat) (add.add cls ([(str "value", .str v)] ++ [(str "ref_uri", .str r)])) :=
        bears_add h h1 h2
      dsimp only; bears

theorem parseParam_bears (h : UniqueKeys add.base) (env ns d p) : Emits (Bears add cat) (parseParam env add ns d p) := by
  unfold parseParam; bears

theorem parseParamsLoop_bears (h : UniqueKeys add.base) (env ns ps) :
    ∀ d, Emits (Bears add cat) (parseParamsLoop env add ns d ps) := by
  induction ps with
  | nil => intro d; exact emits_pure _
  | cons p ps ih => intro d; exact emits_bind (parseParam_bears h _ _ _ _) fun d => ih d

theorem parseParams_bears (h : UniqueKeys add.base) (env s ns dl) : Emits (Bears add cat) (parseParams env add s ns dl) :=
  parseParamsLoop_bears h _ _ _ _

theorem parseMediaType_bears (h : UniqueKeys add.base) (env v bad ref w ns)
    (hb : ∀ cls, bad = some cls → free (str "value" :: ref.toList.map fun _ => str "ref_uri") = true ∧
      plain cls = true) :
    Emits (Bears add cat) (parseMediaType env add v bad ref w ns) := by
  unfold parseMediaType
  dsimp only
  refine emits_bind (checkMediaType_bears h _ _ _ _ _ hb) fun _ => emits_bind (parseParams_bears h _ _ _ _) fun _ => emits_pure _

theorem parseHttpDate_bears (h : UniqueKeys add.base) (env v) : Emits (Bears add cat) (parseHttpDate env add v (some cat)) := by
  unfold parseHttpDate; bears

theorem checkSfParams_bears (h : UniqueKeys add.base) (r known u b params)
    (hu : free [str "param"] = true) (hu' : plain u = true)
    (hb : free [str "param", str "value"] = true) (hb' : plain b = true) :
    Emits (Bears add cat) (checkSfParams r known add u b params) := by
  unfold checkSfParams
  refine emits_bind (emits_lift _) fun items => emits_bind (emits_mapM fun p => ?_) fun _ => emits_pure _
  unfold checkSfParam
  have e1 : ∀ x : Str, Emits (Bears add cat) (add.add u [(str "param", .str x)]) := fun x => bears_add h hu hu'
  have e2 : ∀ (x : Str) (v : Val), Emits (Bears add cat) (add.add b [(str "param", .str x), (str "value", v)]) :=
    fun x v => bears_add h hb hb'
  repeat' first | (with_reducible exact e1 _) | (with_reducible exact e2 _ _) | bears_step

theorem age_parse_bears (h : UniqueKeys add.base) (v) :
    Emits (Bears add cat) (age.parse add v) := by
  unfold age.parse
  repeat' first | bears_step

theorem cache_control_parse_bears (h : UniqueKeys add.base) (v) :
    Emits (Bears add cat) (cache_control.parse add v) := by
  unfold cache_control.parse
  repeat' first | bears_step

theorem accept_parse_bears (h : UniqueKeys add.base) (env v) :
    Emits (Bears add cat) (accept.parse env add v) := by
  unfold accept.parse
  repeat' first | (with_reducible exact parseMediaType_bears h _ _ _ _ _ _ (by intro c hc; cases hc; exact ⟨rfl, rfl⟩)) | bears_step

theorem accept_language_parse_bears (h : UniqueKeys add.base) (env v) :
    Emits (Bears add cat) (accept_language.parse env add v) := by
  unfold accept_language.parse
  repeat' first | (with_reducible exact parseParams_bears h _ _ _ _) | bears_step

theorem coding_parse_bears (h : UniqueKeys add.base) (env v) :
    Emits (Bears add cat) (codingParse env add v) := by
  unfold codingParse
  repeat' first | (with_reducible exact parseParams_bears h _ _ _ _) | bears_step

theorem accept_patch_parse_bears (h : UniqueKeys add.base) (env v) :
    Emits (Bears add cat) (accept_patch.parse env add v) := by
  unfold accept_patch.parse
  repeat' first | (with_reducible exact parseMediaType_bears h _ _ _ _ _ _ (by intro c hc; cases hc; exact ⟨rfl, rfl⟩)) | bears_step

theorem accept_post_parse_bears (h : UniqueKeys add.base) (env v) :
    Emits (Bears add cat) (accept_post.parse env add v) := by
  unfold accept_post.parse
  repeat' first | (with_reducible exact parseMediaType_bears h _ _ _ _ _ _ (by intro c hc; cases hc; exact ⟨rfl, rfl⟩)) | bears_step

theorem content_type_parse_bears (h : UniqueKeys add.base) (env v) :
    Emits (Bears add cat) (content_type.parse env add v) := by
  unfold content_type.parse
  repeat' first | (with_reducible exact parseMediaType_bears h _ _ _ _ _ _ (by intro c hc; cases hc)) | bears_step

theorem accept_ranges_parse_bears (h : UniqueKeys add.base) (v) :
    Emits (Bears add cat) (accept_ranges.parse add v) := by
  unfold accept_ranges.parse
  repeat' first | bears_step

theorem acac_parse_bears (h : UniqueKeys add.base) (v) :
    Emits (Bears add cat) (access_control_allow_credentials.parse v) := by
  unfold access_control_allow_credentials.parse
  repeat' first | bears_step

theorem acma_parse_bears (h : UniqueKeys add.base) (v) :
    Emits (Bears add cat) (access_control_max_age.parse add v) := by
  unfold access_control_max_age.parse
  repeat' first | bears_step

theorem alt_svc_parse_bears (h : UniqueKeys add.base) (v) :
    Emits (Bears add cat) (alt_svc.parse v) := by
  unfold alt_svc.parse
  repeat' first | bears_step

theorem content_disposition_parse_bears (h : UniqueKeys add.base) (env v) :
    Emits (Bears add cat) (content_disposition.parse env add v) := by
  unfold content_disposition.parse
  repeat' first | (with_reducible exact parseParams_bears h _ _ _ _) | bears_step

theorem content_encoding_parse_bears (h : UniqueKeys add.base) (c v) :
    Emits (Bears add cat) (content_encoding.parse c add v) := by
  unfold content_encoding.parse
  repeat' first | bears_step

theorem content_length_parse_bears (h : UniqueKeys add.base) (v) :
    Emits (Bears add cat) (content_length.parse add v) := by
  unfold content_length.parse
  repeat' first | bears_step

theorem content_range_parse_bears (h : UniqueKeys add.base) (c v) :
    Emits (Bears add cat) (content_range.parse c add v) := by
  unfold content_range.parse
  repeat' first | bears_step | unfold content_range.checkStatus | unfold content_range.parseLength | unfold content_range.parseSpec | unfold intOrRaise

theorem date_parse_bears (h : UniqueKeys add.base) (env v) :
    Emits (Bears add FieldId.date_.info.category) (date.parse env add v) := by
  unfold date.parse
  repeat' first | (with_reducible exact parseHttpDate_bears h _ _) | bears_step

theorem expires_parse_bears (h : UniqueKeys add.base) (env v) :
    Emits (Bears add FieldId.expires_.info.category) (expires.parse env add v) := by
  unfold expires.parse
  repeat' first | (with_reducible exact parseHttpDate_bears h _ _) | bears_step

theorem last_modified_parse_bears (h : UniqueKeys add.base) (env v) :
    Emits (Bears add FieldId.last_modified_.info.category) (last_modified.parse env add v) := by
  unfold last_modified.parse
  repeat' first | (with_reducible exact parseHttpDate_bears h _ _) | bears_step

theorem sunset_parse_bears (h : UniqueKeys add.base) (env v) :
    Emits (Bears add FieldId.sunset_.info.category) (sunset.parse env add v) := by
  unfold sunset.parse
  repeat' first | (with_reducible exact parseHttpDate_bears h _ _) | bears_step

theorem etag_parse_bears (h : UniqueKeys add.base) (v) :
    Emits (Bears add cat) (etag.parse v) := by
  unfold etag.parse
  repeat' first | bears_step

theorem link_parse_bears (h : UniqueKeys add.base) (c v) :
    Emits (Bears add cat) (link.parse c add v) := by
  unfold link.parse
  repeat' first | (with_reducible exact parseParams_bears h _ _ _ _) | bears_step

theorem location_parse_bears (h : UniqueKeys add.base) (c v) :
    Emits (Bears add cat) (location.parse c add v) := by
  unfold location.parse
  repeat' first | bears_step

theorem origin_parse_bears (h : UniqueKeys add.base) (v) :
    Emits (Bears add cat) (origin.parse add v) := by
  unfold origin.parse
  repeat' first | bears_step

theorem range_parse_bears (h : UniqueKeys add.base) (v) :
    Emits (Bears add cat) (range.parse add v) := by
  unfold range.parse
  repeat' first | bears_step | unfold range.parseSpec | unfold range.parseEnd | unfold range.bad | unfold intOrRaise

theorem server_parse_bears (h : UniqueKeys add.base) (v) :
    Emits (Bears add cat) (server.parse add v) := by
  unfold server.parse
  repeat' first | bears_step

theorem server_timing_parse_bears (h : UniqueKeys add.base) (c v) :
    Emits (Bears add cat) (server_timing.parse c add v) := by
  unfold server_timing.parse
  repeat' first | (with_reducible exact parseParams_bears h _ _ _ _) | bears_step

theorem tcn_parse_bears (h : UniqueKeys add.base) (w v) :
    Emits (Bears add cat) (tcn.parse add w v) := by
  unfold tcn.parse
  repeat' first | bears_step

theorem transfer_encoding_parse_bears (h : UniqueKeys add.base) (env v) :
    Emits (Bears add cat) (transfer_encoding.parse env add v) := by
  unfold transfer_encoding.parse
  repeat' first | (with_reducible exact parseParams_bears h _ _ _ _) | bears_step

theorem unnecessary_parse_bears (h : UniqueKeys add.base) (w) :
    Emits (Bears add cat) (unnecessary.parse add w) := by
  unfold unnecessary.parse
  repeat' first | bears_step

theorem cache_control_evaluate_bears (h : UniqueKeys add.base) (c hd) :
    Emits (Bears add cat) (cache_control.evaluate c add hd) := by
  unfold cache_control.evaluate
  repeat' first | bears_step | unfold cache_control.checkDirective | unfold cache_control.checkPrePost

theorem accept_query_evaluate_bears (h : UniqueKeys add.base) (c hd) :
    Emits (Bears add cat) (accept_query.evaluate c add hd) := by
  unfold accept_query.evaluate
  repeat' first | (with_reducible exact checkMediaType_bears h _ _ _ _ _ (by intro c hc; cases hc; exact ⟨rfl, rfl⟩)) | bears_step | unfold accept_query.item

theorem acao_evaluate_bears (h : UniqueKeys add.base) (c hd) :
    Emits (Bears add cat) (access_control_allow_origin.evaluate c add hd) := by
  unfold access_control_allow_origin.evaluate
  repeat' first | bears_step | unfold checkAllowOrigin

theorem alt_svc_evaluate_bears (h : UniqueKeys add.base) (hd) :
    Emits (Bears add cat) (alt_svc.evaluate add hd) := by
  unfold alt_svc.evaluate
  repeat' first | bears_step

theorem available_dictionary_evaluate_bears (h : UniqueKeys add.base) (hd) :
    Emits (Bears add cat) (available_dictionary.evaluate add hd) := by
  unfold available_dictionary.evaluate
  repeat' first | bears_step

theorem cache_group_invalidation_evaluate_bears (h : UniqueKeys add.base) (c hd) :
    Emits (Bears add cat) (cache_group_invalidation.evaluate c add hd) := by
  unfold cache_group_invalidation.evaluate
  repeat' first | bears_step | unfold badTypes

theorem cache_groups_evaluate_bears (h : UniqueKeys add.base) (hd) :
    Emits (Bears add cat) (cache_groups.evaluate add hd) := by
  unfold cache_groups.evaluate
  repeat' first | bears_step | unfold badTypes

theorem cache_status_evaluate_bears (h : UniqueKeys add.base) (c hd) :
    Emits (Bears add cat) (cache_status.evaluate c add hd) := by
  unfold cache_status.evaluate
  repeat' first | (with_reducible exact checkSfParams_bears h _ _ _ _ _ rfl rfl rfl rfl) | bears_step | unfold statusList

theorem proxy_status_evaluate_bears (h : UniqueKeys add.base) (c hd) :
    Emits (Bears add cat) (proxy_status.evaluate c add hd) := by
  unfold proxy_status.evaluate
  repeat' first | (with_reducible exact checkSfParams_bears h _ _ _ _ _ rfl rfl rfl rfl) | bears_step | unfold statusList

theorem cdn_cache_control_evaluate_bears (h : UniqueKeys add.base) (hd) :
    Emits (Bears add cat) (cdn_cache_control.evaluate add hd) := by
  unfold cdn_cache_control.evaluate
  repeat' first | bears_step | unfold cdn_cache_control.member

theorem clear_site_data_evaluate_bears (h : UniqueKeys add.base) (hd) :
    Emits (Bears add cat) (clear_site_data.evaluate add hd) := by
  unfold clear_site_data.evaluate
  repeat' first | bears_step

theorem content_language_evaluate_bears (h : UniqueKeys add.base) (hd) :
    Emits (Bears add cat) (content_language.evaluate add hd) := by
  unfold content_language.evaluate
  repeat' first | bears_step

theorem content_length_evaluate_bears (h : UniqueKeys add.base) (c) :
    Emits (Bears add cat) (content_length.evaluate c add) := by
  unfold content_length.evaluate
  repeat' first | bears_step

theorem corp_evaluate_bears (h : UniqueKeys add.base) (hd) :
    Emits (Bears add cat) (corp.evaluate add hd) := by
  unfold corp.evaluate
  repeat' first | bears_step

theorem date_evaluate_bears (h : UniqueKeys add.base) (c hd) :
    Emits (Bears add cat) (date.evaluate c add hd) := by
  unfold date.evaluate
  repeat' first | bears_step

theorem deprecation_evaluate_bears (h : UniqueKeys add.base) (c hd) :
    Emits (Bears add cat) (deprecation.evaluate c add hd) := by
  unfold deprecation.evaluate
  repeat' first | bears_step

theorem expect_evaluate_bears (h : UniqueKeys add.base) (c hd) :
    Emits (Bears add cat) (expect.evaluate c add hd) := by
  unfold expect.evaluate
  repeat' first | bears_step

theorem last_modified_evaluate_bears (h : UniqueKeys add.base) (c hd) :
    Emits (Bears add cat) (last_modified.evaluate c add hd) := by
  unfold last_modified.evaluate
  repeat' first | bears_step

theorem link_evaluate_bears (h : UniqueKeys add.base) (c hd) :
    Emits (Bears add cat) (link.evaluate c add hd) := by
  unfold link.evaluate
  repeat' first | bears_step

theorem max_forwards_evaluate_bears (h : UniqueKeys add.base) (c hd) :
    Emits (Bears add cat) (max_forwards.evaluate c add hd) := by
  unfold max_forwards.evaluate
  repeat' first | bears_step

theorem nel_evaluate_bears (h : UniqueKeys add.base) (hd) :
    Emits (Bears add cat) (nel.evaluate add hd) := by
  unfold nel.evaluate
  repeat' first | bears_step | unfold nel.policy | unfold nel.member | unfold nel.fraction

theorem pragma_evaluate_bears (h : UniqueKeys add.base) (hd) :
    Emits (Bears add cat) (pragma.evaluate add hd) := by
  unfold pragma.evaluate
  repeat' first | bears_step

theorem referer_evaluate_bears (h : UniqueKeys add.base) (c hd) :
    Emits (Bears add cat) (referer.evaluate c add hd) := by
  unfold referer.evaluate
  repeat' first | bears_step

theorem referrer_policy_evaluate_bears (h : UniqueKeys add.base) (hd) :
    Emits (Bears add cat) (referrer_policy.evaluate add hd) := by
  unfold referrer_policy.evaluate
  repeat' first | bears_step

theorem report_to_evaluate_bears (h : UniqueKeys add.base) (hd) :
    Emits (Bears add cat) (report_to.evaluate add hd) := by
  unfold report_to.evaluate
  repeat' first | bears_step | unfold report_to.endpoint

theorem reporting_endpoints_evaluate_bears (h : UniqueKeys add.base) (c hd) :
    Emits (Bears add cat) (reporting_endpoints.evaluate c add hd) := by
  unfold reporting_endpoints.evaluate
  repeat' first | bears_step

theorem server_timing_evaluate_bears (h : UniqueKeys add.base) (hd) :
    Emits (Bears add cat) (server_timing.evaluate add hd) := by
  unfold server_timing.evaluate
  repeat' first | bears_step

theorem speculation_rules_evaluate_bears (h : UniqueKeys add.base) (c hd) :
    Emits (Bears add cat) (speculation_rules.evaluate c add hd) := by
  unfold speculation_rules.evaluate
  repeat' first | bears_step

theorem sunset_evaluate_bears (h : UniqueKeys add.base) (c hd) :
    Emits (Bears add cat) (sunset.evaluate c add hd) := by
  unfold sunset.evaluate
  repeat' first | bears_step

theorem transfer_encoding_evaluate_bears (h : UniqueKeys add.base) (c hd) :
    Emits (Bears add cat) (transfer_encoding.evaluate c add hd) := by
  unfold transfer_encoding.evaluate
  repeat' first | bears_step

theorem use_as_dictionary_evaluate_bears (h : UniqueKeys add.base) (hd) :
    Emits (Bears add cat) (use_as_dictionary.evaluate add hd) := by
  unfold use_as_dictionary.evaluate
  repeat' first | bears_step | unfold use_as_dictionary.member | unfold use_as_dictionary.checkType

theorem vary_evaluate_bears (h : UniqueKeys add.base) (hd) :
    Emits (Bears add cat) (vary.evaluate add hd) := by
  unfold vary.evaluate
  repeat' first | bears_step

theorem via_evaluate_bears (h : UniqueKeys add.base) (hd) :
    Emits (Bears add cat) (via.evaluate add hd) := by
  unfold via.evaluate
  repeat' first | bears_step

theorem xcto_evaluate_bears (h : UniqueKeys add.base) (hd) :
    Emits (Bears add cat) (x_content_type_options.evaluate add hd) := by
  unfold x_content_type_options.evaluate
  repeat' first | bears_step

theorem xfo_evaluate_bears (h : UniqueKeys add.base) (hd) :
    Emits (Bears add cat) (x_frame_options.evaluate add hd) := by
  unfold x_frame_options.evaluate
  repeat' first | bears_step

theorem available_dictionary_post_bears (h : UniqueKeys add.base) (c) :
    Emits (Bears add cat) (available_dictionary.postCheck c add) := by
  unfold available_dictionary.postCheck
  repeat' first | bears_step

theorem content_encoding_post_bears (h : UniqueKeys add.base) (c) :
    Emits (Bears add cat) (content_encoding.postCheck c add) := by
  unfold content_encoding.postCheck
  repeat' first | bears_step

theorem nel_post_bears (h : UniqueKeys add.base) (c hd) :
    Emits (Bears add cat) (nel.postCheck c add hd) := by
  unfold nel.postCheck
  repeat' first | bears_step

theorem accept_ch_evaluate_bears (h : UniqueKeys add.base) (hd) : Emits (Bears add cat) (accept_ch.evaluate add hd) := by
  unfold accept_ch.evaluate
  refine emits_bind (emits_lift _) fun items => ?_
  induction items with
  | nil => exact emits_pure _
  | cons i is ih => unfold accept_ch.evaluate.go; bears

theorem accept_ch_missing_bears (P) (c vary items) : Emits P (accept_ch.missing c vary items) := by
  induction items with
  | nil => exact emits_pure _
  | cons i is ih => unfold accept_ch.missing; bears

theorem accept_ch_post_bears (h : UniqueKeys add.base) (c hd) : Emits (Bears add cat) (accept_ch.postCheck c add hd) := by
  unfold accept_ch.postCheck
  repeat' first | (with_reducible exact accept_ch_missing_bears _ _ _ _) | bears_step

theorem tokenPolicy_bears (h : UniqueKeys add.base) (ro table bad hd)
    (ht : ∀ p ∈ table, free [str "report_only", str "report_only_text"] = true ∧ plain p.2 = true)
    (hb : free [str "value", str "report_only"] = true) (hb' : plain bad = true) :
    Emits (Bears add cat) (tokenPolicy add ro table bad hd) := by
  unfold tokenPolicy
  refine emits_bind (emits_lift _) fun v => ?_
  have e1 : Emits (Bears add cat) (add.add bad [(str "value", v), (str "report_only", .str ro.string)]) := bears_add h hb hb'
  dsimp only
  split
  · split
    · rename_i heq
      obtain ⟨h1, h2⟩ := ht _ (List.mem_of_find?_eq_some heq)
      exact bears_add h h1 h2
    · exact e1
  · exact e1

theorem coep_bears (h : UniqueKeys add.base) (ro hd) : Emits (Bears add cat) (coep.evaluate add ro hd) :=
  tokenPolicy_bears h _ _ _ _ (by decide) rfl rfl
theorem coop_bears (h : UniqueKeys add.base) (ro hd) : Emits (Bears add cat) (coop.evaluate add ro hd) :=
  tokenPolicy_bears h _ _ _ _ (by decide) rfl rfl
theorem coepRO_bears (h : UniqueKeys add.base) (c hd) : Emits (Bears add cat) (coepRO.evaluate c add hd) := by
  unfold coepRO.evaluate
  repeat' first | (with_reducible exact coep_bears h _ _) | bears_step
theorem coopRO_bears (h : UniqueKeys add.base) (c hd) : Emits (Bears add cat) (coopRO.evaluate c add hd) := by
  unfold coopRO.evaluate
  repeat' first | (with_reducible exact coop_bears h _ _) | bears_step

theorem tokenPolicyPostCheck_bears (h : UniqueKeys add.base) (c ro missing hd)
    (hb : free [str "endpoint", str "report_only"] = true) (hb' : plain missing = true) :
    Emits (Bears add cat) (tokenPolicyPostCheck c add ro missing hd) := by
  unfold tokenPolicyPostCheck
  have e1 : ∀ rt : Val, Emits (Bears add cat) (add.add missing [(str "endpoint", rt), (str "report_only", .str ro.string)]) :=
    fun _ => bears_add h hb hb'
  repeat' first | (with_reducible exact e1 _) | bears_step

/-! ### notes with children -/

/-- the children kept for later can be rendered whatever note they end up under -/
def KidsFree (kids : List (NoteId × Dict Val)) : Prop := ∀ k ∈ kids, free (k.2.map (·.1)) = true

theorem bears_addKids (h : UniqueKeys add.base) {cls : NoteId} {vrs : Dict Val} {kids : List (NoteId × Dict Val)}
    (hf : free (vrs.map (·.1)) = true) (hp : plain cls = true) (hk : KidsFree kids) : Emits (Bears add cat) (add.addWith cls vrs none kids) := by
  intro n hn
  simp only [AddNote.addWith, List.mem_singleton] at hn
  subst hn
  rw [foldl_addChild]
  have hb : Bears add cat (add.mk1 cls vrs none) := bears_add h hf hp _ (by simp)
  refine ⟨hb.subject, hb.context, hb.kind, hb.category, ?_, hb.origin⟩
  intro s hs
  have hs' : s ∈ kids.map fun k => (⟨k.1, (add.mk1 cls vrs none).subject, dupdate (add.mk1 cls vrs none).vars k.2⟩ : SubNote) := by simpa [AddNote.mk1, mkNote] using hs
  obtain ⟨k, hk', rfl⟩ := List.mem_map.1 hs'
  exact ⟨rfl, fun x hx => dget_dupdate_free (free_notMem (hk k hk') hx)⟩

theorem kidsFree_append {a b} (ha : KidsFree a) (hb : KidsFree b) : KidsFree (a ++ b) := by
  intro k hk
  rcases List.mem_append.1 hk with h | h
  · exact ha k h
  · exact hb k h

theorem kidsFree_nil : KidsFree [] := by simp [KidsFree]
theorem kidsFree_one {k} (h : free (k.2.map (·.1)) = true) : KidsFree [k] := by
  intro k' hk; simp only [List.mem_singleton] at hk; subst hk; exact h

theorem csp_children_free (ro ds) : KidsFree (csp.children ro ds) := by
  unfold csp.children
  dsimp only
  repeat' apply kidsFree_append
  all_goals (split <;> first | exact kidsFree_nil | (apply kidsFree_one; rfl))

theorem csp_evaluate_bears (h : UniqueKeys add.base) (ro hd) (hk : KidsFree hd.aux.kids) :
    Emits (Bears add cat) (csp.evaluate add ro hd) := by
  unfold csp.evaluate
  split
  · exact emits_pure _
  · exact bears_addKids h rfl rfl (kidsFree_append hk (csp_children_free _ _))

theorem csp_parse_kidsFree (ro aux v) (hk : KidsFree aux.kids) : KidsFree (csp.parse ro aux v).1.kids := by
  unfold csp.parse
  generalize csp.directives [] [] (splitOn 59 v) = p
  obtain ⟨d, dups⟩ := p
  dsimp only
  split
  · exact hk
  · exact kidsFree_append hk (kidsFree_one rfl)

theorem hsts_directive_free (x n v) : KidsFree (hsts.directive x n v).2 := by
  unfold hsts.directive
  repeat' first | exact kidsFree_nil | (apply kidsFree_one; rfl) | split | dsimp only

theorem hsts_loop_free (ds) : ∀ x seen kids, KidsFree kids → KidsFree (hsts.loop x seen kids ds).2 := by
  induction ds with
  | nil => intro x seen kids h; exact h
  | cons d ds ih =>
    intro x seen kids h
    unfold hsts.loop
    split
    dsimp only
    split
    · exact ih _ _ _ (kidsFree_append h (kidsFree_one rfl))
    · exact ih _ _ _ (kidsFree_append h (hsts_directive_free _ _ _))

theorem hsts_parse_kidsFree (aux v) (hk : KidsFree aux.kids) : KidsFree (hsts.parse aux v).1.kids := by
  unfold hsts.parse
  dsimp only
  refine hsts_loop_free _ _ _ _ (kidsFree_append hk ?_)
  split
  · exact kidsFree_one rfl
  · exact kidsFree_nil

theorem hsts_evaluate_bears (h : UniqueKeys add.base) (c hd) (hk : KidsFree hd.aux.kids) :
    Emits (Bears add cat) (hsts.evaluate c add hd) := by
  unfold hsts.evaluate
  split
  · exact emits_pure _
  · dsimp only
    refine bears_addKids h ?_ ?_ (kidsFree_append hk ?_)
    · rfl
    · split <;> rfl
    · intro k hk
      simp only [List.mem_map] at hk
      obtain ⟨n, hn, rfl⟩ := hk
      revert hn
      have : ∀ n ∈ ([.HSTS_PRELOAD, .HSTS_PRELOAD_NOT_SUITABLE, .HSTS_NO_PRELOAD, .HSTS_NO_MAX_AGE, .HSTS_MAX_AGE_ZERO,
        .HSTS_SHORT_MAX_AGE, .HSTS_SUBDOMAINS, .HSTS_NO_SUBDOMAINS, .HSTS_OVER_HTTP] : List NoteId),
        free ((n, ([] : Dict Val)).2.map (·.1)) = true := by decide
      intro hn
      apply this
      revert hn
      generalize Hsts.ofVal hd.value = x
      generalize hd.aux.kids = kids
      unfold hsts.notesToAdd
      simp only [List.mem_append, List.mem_singleton]
      intro hn
      rcases hn with ((hn | hn) | hn) | hn
      · subst hn; repeat' split
        all_goals simp
      · revert hn; repeat' split
        all_goals simp +contextual
      · subst hn; split <;> simp
      · revert hn; split <;> simp +contextual

theorem permissions_item_free (c f i l) (h : permissions_policy.item c f i = .ok l) : KidsFree l := by
  unfold permissions_policy.item at h
  split at h
  · cases h; exact kidsFree_nil
  · cases hu : i.unpack2 with
    | error e => simp [hu, bind, Except.bind] at h
    | ok p =>
      obtain ⟨v, w⟩ := p
      simp only [hu, bind, Except.bind] at h
      split at h
      · split at h <;> cases h
        · exact kidsFree_nil
        · exact kidsFree_one rfl
      · split at h <;> cases h
        · exact kidsFree_one rfl
        · exact kidsFree_nil
      · split at h <;> cases h
        exact kidsFree_one rfl

theorem permissions_items_free (c f) (items : List Val) : ∀ l, items.mapM (permissions_policy.item c f) = .ok l → KidsFree l.flatten := by
  induction items with
  | nil => intro l h; simp [pure, Except.pure] at h; subst h; exact kidsFree_nil
  | cons i is ih =>
    intro l h
    rw [List.mapM_cons] at h
    cases h1 : permissions_policy.item c f i with
    | error e => simp [h1, bind, Except.bind] at h
    | ok a =>
      cases h2 : is.mapM (permissions_policy.item c f) with
      | error e => simp [h1, h2, bind, Except.bind] at h
      | ok b =>
        simp [h1, h2, bind, Except.bind, pure, Except.pure] at h
        subst h
        exact kidsFree_append (permissions_item_free _ _ _ _ h1) (ih _ h2)

theorem permissions_feature_free (c f a l) (h : permissions_policy.feature c f a = .ok l) : KidsFree l := by
  have wild : ∀ b : Bool, KidsFree (if b then [(.PERMISSIONS_POLICY_WILDCARD, [(str "feature", f)])] else []) := by
    intro b; cases b
    · exact kidsFree_nil
    · exact kidsFree_one rfl
  unfold permissions_policy.feature at h
  cases hu : a.unpack2 with
  | error e => simp [hu, bind, Except.bind] at h
  | ok p =>
    obtain ⟨v, w⟩ := p
    simp only [hu, bind, Except.bind] at h
    split at h
    · split at h
      · cases h
      · rename_i hm
        cases h
        exact kidsFree_append (permissions_items_free _ _ _ _ hm) (wild _)
    · cases h
      refine kidsFree_append ?_ (wild _)
      split
      · exact kidsFree_nil
      · exact kidsFree_one rfl
    · cases h
      exact kidsFree_append (kidsFree_one rfl) (wild _)

theorem permissions_features_free (c ps) : KidsFree (permissions_policy.features c ps).1 := by
  induction ps with
  | nil => exact kidsFree_nil
  | cons p ps ih =>
    unfold permissions_policy.features
    split
    · exact kidsFree_nil
    · rename_i hl
      exact kidsFree_append (permissions_feature_free _ _ _ _ hl) ih

theorem permissions_policy_bears (h : UniqueKeys add.base) (c hd) : Emits (Bears add cat) (permissions_policy.evaluate c add hd) := by
  unfold permissions_policy.evaluate
  split
  · exact emits_pure _
  · split
    · bears
    · rename_i items _
      have := permissions_features_free c items
      generalize permissions_policy.features c items = p at this
      obtain ⟨kids, err⟩ := p
      dsimp only
      refine emits_bind (bears_addKids h rfl rfl this) fun _ => ?_
      bears

/-! ### Set-Cookie, Clear-Site-Data -/

theorem clear_site_data_parse_bears (h : UniqueKeys add.base) (aux v) :
    Emits (Bears add cat) (clear_site_data.parse add aux v).2 := by
  unfold clear_site_data.parse; bears

theorem processCookieAttribute_bears (h : UniqueKeys add.base) (n v cn at_ up t l) :
    Emits (Bears add cat) (processCookieAttribute n v cn at_ up t add l) := by
  unfold processCookieAttribute; bears

theorem cookieAttrLoop_bears (h : UniqueKeys add.base) (cn up t avs) :
    ∀ seen at_ l, Emits (Bears add cat) (cookieAttrLoop cn up t add avs seen at_ l) := by
  induction avs with
  | nil => intro _ _ _; exact emits_pure _
  | cons a avs ih =>
    intro seen at_ l
    unfold cookieAttrLoop
    repeat' first | (with_reducible exact ih _ _ _) | (with_reducible exact processCookieAttribute_bears h _ _ _ _ _ _ _) | bears_step

theorem checkPrefixes_bears (h : UniqueKeys add.base) (cn at_) : Emits (Bears add cat) (checkPrefixes cn at_ add) := by
  unfold checkPrefixes; bears

theorem looseParse_bears (h : UniqueKeys add.base) (s up t) : Emits (Bears add cat) (looseParse s up t add) := by
  unfold looseParse
  repeat' first | (with_reducible exact cookieAttrLoop_bears h _ _ _ _ _ _ _) | (with_reducible exact checkPrefixes_bears h _ _) | bears_step

theorem set_cookie_parse_bears (h : UniqueKeys add.base) (c aux v) : Emits (Bears add cat) (set_cookie.parse c add aux v).2 := by
  unfold set_cookie.parse
  split
  · exact emits_throw _
  · intro n hn; simp at hn

theorem set_cookie_parse_kept {Q : Note → Prop} (h : UniqueKeys add.base) (hQ : ∀ n, Bears add cat n → Q n) (c aux v) (ha : ∀ n ∈ aux.notes, Q n) :
    ∀ n ∈ (set_cookie.parse c add aux v).1.notes, Q n := by
  unfold set_cookie.parse
  split
  · exact ha
  · intro n hn
    simp only [List.mem_append] at hn
    rcases hn with hn | hn
    · exact ha n hn
    · exact hQ n (looseParse_bears h _ _ _ n hn)

theorem emits_imp {α} {P P' : Note → Prop} {w : W α} (hp : ∀ n, P n → P' n) (h : Emits P w) : Emits P' w := fun n hn => hp n (h n hn)

theorem set_cookie_evaluate_kept {Q : Note → Prop} (h : UniqueKeys add.base) (hd) (ha : ∀ n ∈ hd.aux.notes, Q n) :
    Emits (fun n => Bears add cat n ∨ Q n) (set_cookie.evaluate add hd) := by
  unfold set_cookie.evaluate
  have e : ∀ {cls vrs}, free (vrs.map (·.1)) = true → plain cls = true → Emits (fun n => Bears add cat n ∨ Q n) (add.add cls vrs) :=
    fun h1 h2 => emits_imp (fun n hn => .inl hn) (bears_add h h1 h2)
  refine emits_bind (emits_lift _) fun items => emits_bind (emits_when fun _ => e rfl rfl) fun _ => emits_bind (emits_when fun _ => e rfl rfl) fun _ => ?_
  exact fun n hn => .inr (ha n hn)

/-! ### the field classes -/

/-- what is kept between `parse` and `evaluate`: notes of which `Q` holds, and sub-notes -/
structure Kept (Q : Note → Prop) (aux : Aux) : Prop where
  notes : ∀ n ∈ aux.notes, Q n
  kids : KidsFree aux.kids

theorem kept_empty {Q} : Kept Q {} := ⟨by simp, by simp [KidsFree]⟩

end HL.Props
