import Verif.Props.Emits
import Verif.Fields

/-! # Every field's `parse` and `evaluate` only adds field-level notes whose templates are bound -/

namespace HL.Props
open HL.F

variable {add : AddNote}

/-! ### helpers -/

theorem checkMediaType_emits (h : AddGood add keys0) (v bad ref w t)
    (hb : ∀ cls, bad = some cls → covers cls (keys0 ++ (str "value" :: ref.toList.map fun _ => str "ref_uri")) = true ∧
      cls.origin = .field ∧ ∀ v, inert cls ([(str "value", .str v)] ++ ref.toList.map fun r => (str "ref_uri", .str r)) = true) :
    Emits FieldNote (checkMediaType add v bad ref w t) := by
  unfold checkMediaType
  dsimp only
  generalize partition 47 v = p
  obtain ⟨a, b, c⟩ := p
  cases bad with
  | none => emits
  | some cls =>
    obtain ⟨h1, h2, h3⟩ := hb cls rfl
    clear hb
    cases ref with
    | none =>
      have hbad : Emits FieldNote (add.add cls ([(str "value", .str v)] ++ [])) := emits_addG h h1 h2 (h3 v)
      dsimp only; emits
    | some r =>
      have hbad : Emits FieldNote (add.add cls ([(str "value", .str v)] ++ [(str "ref_uri", .str r)])) :=
        emits_addG h h1 h2 (h3 v)
      dsimp only; emits

theorem parseParam_emits (h : AddGood add keys0) (env ns d p) : Emits FieldNote (parseParam env add ns d p) := by
  unfold parseParam; emits

theorem parseParamsLoop_emits (h : AddGood add keys0) (env ns ps) :
    ∀ d, Emits FieldNote (parseParamsLoop env add ns d ps) := by
  induction ps with
  | nil => intro d; exact emits_pure _
  | cons p ps ih => intro d; exact emits_bind (parseParam_emits h _ _ _ _) fun d => ih d

theorem parseParams_emits (h : AddGood add keys0) (env s ns dl) : Emits FieldNote (parseParams env add s ns dl) :=
  parseParamsLoop_emits h _ _ _ _

theorem parseMediaType_emits (h : AddGood add keys0) (env v bad ref w ns)
    (hb : ∀ cls, bad = some cls → covers cls (keys0 ++ (str "value" :: ref.toList.map fun _ => str "ref_uri")) = true ∧
      cls.origin = .field ∧ ∀ v, inert cls ([(str "value", .str v)] ++ ref.toList.map fun r => (str "ref_uri", .str r)) = true) :
    Emits FieldNote (parseMediaType env add v bad ref w ns) := by
  unfold parseMediaType
  dsimp only
  refine emits_bind (checkMediaType_emits h _ _ _ _ _ hb) fun _ => emits_bind (parseParams_emits h _ _ _ _) fun _ => emits_pure _

theorem parseHttpDate_emits (h : AddGood add keys0) (env v cat) : Emits FieldNote (parseHttpDate env add v cat) := by
  unfold parseHttpDate; emits

theorem emits_mono {α P} {w : W α} {f : α → W Val} (hw : Emits P w) (hf : ∀ a, Emits P (f a)) : Emits P (w >>= f) :=
  emits_bind hw hf

theorem checkSfParams_emits (h : AddGood add keys0) (r known u b params)
    (hu : covers u (keys0 ++ [str "param"]) = true) (hu' : u.origin = .field) (hui : u.bare = [])
    (hb : covers b (keys0 ++ [str "param", str "value"]) = true) (hb' : b.origin = .field) (hbi : b.bare = []) :
    Emits FieldNote (checkSfParams r known add u b params) := by
  unfold checkSfParams
  refine emits_bind (emits_lift _) fun items => emits_bind (emits_mapM fun p => ?_) fun _ => emits_pure _
  unfold checkSfParam
  have e1 : ∀ x : Str, Emits FieldNote (add.add u [(str "param", .str x)]) := fun x => emits_addG h hu hu' (inert_none hui)
  have e2 : ∀ (x : Str) (v : Val), Emits FieldNote (add.add b [(str "param", .str x), (str "value", v)]) :=
    fun x v => emits_addG h hb hb' (inert_none hbi)
  repeat' first | (with_reducible exact e1 _) | (with_reducible exact e2 _ _) | emits_step

theorem age_parse_emits (h : AddGood add keys0) (v) :
    Emits FieldNote (age.parse add v) := by
  unfold age.parse
  repeat' first | emits_step

theorem cache_control_parse_emits (h : AddGood add keys0) (v) :
    Emits FieldNote (cache_control.parse add v) := by
  unfold cache_control.parse
  repeat' first | emits_step

theorem accept_parse_emits (h : AddGood add keys0) (env v) :
    Emits FieldNote (accept.parse env add v) := by
  unfold accept.parse
  repeat' first | (with_reducible exact parseMediaType_emits h _ _ _ _ _ _ (by intro c hc; cases hc; exact ⟨rfl, rfl, fun _ => rfl⟩)) | emits_step

theorem accept_language_parse_emits (h : AddGood add keys0) (env v) :
    Emits FieldNote (accept_language.parse env add v) := by
  unfold accept_language.parse
  repeat' first | (with_reducible exact parseParams_emits h _ _ _ _) | emits_step

theorem coding_parse_emits (h : AddGood add keys0) (env v) :
    Emits FieldNote (codingParse env add v) := by
  unfold codingParse
  repeat' first | (with_reducible exact parseParams_emits h _ _ _ _) | emits_step

theorem accept_patch_parse_emits (h : AddGood add keys0) (env v) :
    Emits FieldNote (accept_patch.parse env add v) := by
  unfold accept_patch.parse
  repeat' first | (with_reducible exact parseMediaType_emits h _ _ _ _ _ _ (by intro c hc; cases hc; exact ⟨rfl, rfl, fun _ => rfl⟩)) | emits_step

theorem accept_post_parse_emits (h : AddGood add keys0) (env v) :
    Emits FieldNote (accept_post.parse env add v) := by
  unfold accept_post.parse
  repeat' first | (with_reducible exact parseMediaType_emits h _ _ _ _ _ _ (by intro c hc; cases hc; exact ⟨rfl, rfl, fun _ => rfl⟩)) | emits_step

theorem content_type_parse_emits (h : AddGood add keys0) (env v) :
    Emits FieldNote (content_type.parse env add v) := by
  unfold content_type.parse
  repeat' first | (with_reducible exact parseMediaType_emits h _ _ _ _ _ _ (by intro c hc; cases hc)) | emits_step

theorem accept_ranges_parse_emits (h : AddGood add keys0) (v) :
    Emits FieldNote (accept_ranges.parse add v) := by
  unfold accept_ranges.parse
  repeat' first | emits_step

theorem acac_parse_emits (h : AddGood add keys0) (v) :
    Emits FieldNote (access_control_allow_credentials.parse v) := by
  unfold access_control_allow_credentials.parse
  repeat' first | emits_step

theorem acma_parse_emits (h : AddGood add keys0) (v) :
    Emits FieldNote (access_control_max_age.parse add v) := by
  unfold access_control_max_age.parse
  repeat' first | emits_step

theorem alt_svc_parse_emits (h : AddGood add keys0) (v) :
    Emits FieldNote (alt_svc.parse v) := by
  unfold alt_svc.parse
  repeat' first | emits_step

theorem content_disposition_parse_emits (h : AddGood add keys0) (env v) :
    Emits FieldNote (content_disposition.parse env add v) := by
  unfold content_disposition.parse
  repeat' first | (with_reducible exact parseParams_emits h _ _ _ _) | emits_step

theorem content_encoding_parse_emits (h : AddGood add keys0) (c v) :
    Emits FieldNote (content_encoding.parse c add v) := by
  unfold content_encoding.parse
  repeat' first | emits_step

theorem content_length_parse_emits (h : AddGood add keys0) (v) :
    Emits FieldNote (content_length.parse add v) := by
  unfold content_length.parse
  repeat' first | emits_step

theorem content_range_parse_emits (h : AddGood add keys0) (c v) :
    Emits FieldNote (content_range.parse c add v) := by
  unfold content_range.parse
  repeat' first | emits_step | unfold content_range.checkStatus | unfold content_range.parseLength | unfold content_range.parseSpec | unfold intOrRaise

theorem date_parse_emits (h : AddGood add keys0) (env v) :
    Emits FieldNote (date.parse env add v) := by
  unfold date.parse
  repeat' first | (with_reducible exact parseHttpDate_emits h _ _ _) | emits_step

theorem expires_parse_emits (h : AddGood add keys0) (env v) :
    Emits FieldNote (expires.parse env add v) := by
  unfold expires.parse
  repeat' first | (with_reducible exact parseHttpDate_emits h _ _ _) | emits_step

theorem last_modified_parse_emits (h : AddGood add keys0) (env v) :
    Emits FieldNote (last_modified.parse env add v) := by
  unfold last_modified.parse
  repeat' first | (with_reducible exact parseHttpDate_emits h _ _ _) | emits_step

theorem sunset_parse_emits (h : AddGood add keys0) (env v) :
    Emits FieldNote (sunset.parse env add v) := by
  unfold sunset.parse
  repeat' first | (with_reducible exact parseHttpDate_emits h _ _ _) | emits_step

theorem etag_parse_emits (h : AddGood add keys0) (v) :
    Emits FieldNote (etag.parse v) := by
  unfold etag.parse
  repeat' first | emits_step

theorem link_parse_emits (h : AddGood add keys0) (c v) :
    Emits FieldNote (link.parse c add v) := by
  unfold link.parse
  repeat' first | (with_reducible exact parseParams_emits h _ _ _ _) | emits_step

theorem location_parse_emits (h : AddGood add keys0) (c v) :
    Emits FieldNote (location.parse c add v) := by
  unfold location.parse
  repeat' first | emits_step

theorem origin_parse_emits (h : AddGood add keys0) (v) :
    Emits FieldNote (origin.parse add v) := by
  unfold origin.parse
  repeat' first | emits_step

theorem range_parse_emits (h : AddGood add keys0) (v) :
    Emits FieldNote (range.parse add v) := by
  unfold range.parse
  repeat' first | emits_step | unfold range.parseSpec | unfold range.parseEnd | unfold range.bad | unfold intOrRaise

theorem server_parse_emits (h : AddGood add keys0) (v) :
    Emits FieldNote (server.parse add v) := by
  unfold server.parse
  repeat' first | emits_step

theorem server_timing_parse_emits (h : AddGood add keys0) (c v) :
    Emits FieldNote (server_timing.parse c add v) := by
  unfold server_timing.parse
  repeat' first | (with_reducible exact parseParams_emits h _ _ _ _) | emits_step

theorem tcn_parse_emits (h : AddGood add keys0) (w v) :
    Emits FieldNote (tcn.parse add w v) := by
  unfold tcn.parse
  repeat' first | emits_step

theorem transfer_encoding_parse_emits (h : AddGood add keys0) (env v) :
    Emits FieldNote (transfer_encoding.parse env add v) := by
  unfold transfer_encoding.parse
  repeat' first | (with_reducible exact parseParams_emits h _ _ _ _) | emits_step

theorem unnecessary_parse_emits (h : AddGood add keys0) (w) :
    Emits FieldNote (unnecessary.parse add w) := by
  unfold unnecessary.parse
  repeat' first | emits_step

theorem cache_control_evaluate_emits (h : AddGood add keys1) (c hd) :
    Emits FieldNote (cache_control.evaluate c add hd) := by
  unfold cache_control.evaluate
  repeat' first | emits_step | unfold cache_control.checkDirective | unfold cache_control.checkPrePost

theorem accept_query_evaluate_emits (h : AddGood add keys1) (c hd) :
    Emits FieldNote (accept_query.evaluate c add hd) := by
  unfold accept_query.evaluate
  repeat' first | (with_reducible exact checkMediaType_emits h.to0 _ _ _ _ _ (by intro c hc; cases hc; exact ⟨rfl, rfl, fun _ => rfl⟩)) | emits_step | unfold accept_query.item

theorem acao_evaluate_emits (h : AddGood add keys1) (c hd) :
    Emits FieldNote (access_control_allow_origin.evaluate c add hd) := by
  unfold access_control_allow_origin.evaluate
  repeat' first | emits_step | unfold checkAllowOrigin

theorem alt_svc_evaluate_emits (h : AddGood add keys1) (hd) :
    Emits FieldNote (alt_svc.evaluate add hd) := by
  unfold alt_svc.evaluate
  repeat' first | emits_step

theorem available_dictionary_evaluate_emits (h : AddGood add keys1) (hd) :
    Emits FieldNote (available_dictionary.evaluate add hd) := by
  unfold available_dictionary.evaluate
  repeat' first | emits_step

theorem cache_group_invalidation_evaluate_emits (h : AddGood add keys1) (c hd) :
    Emits FieldNote (cache_group_invalidation.evaluate c add hd) := by
  unfold cache_group_invalidation.evaluate
  repeat' first | emits_step | unfold badTypes

theorem cache_groups_evaluate_emits (h : AddGood add keys1) (hd) :
    Emits FieldNote (cache_groups.evaluate add hd) := by
  unfold cache_groups.evaluate
  repeat' first | emits_step | unfold badTypes

theorem cache_status_evaluate_emits (h : AddGood add keys1) (c hd) :
    Emits FieldNote (cache_status.evaluate c add hd) := by
  unfold cache_status.evaluate
  repeat' first | (with_reducible exact checkSfParams_emits h.to0 _ _ _ _ _ rfl rfl rfl rfl rfl rfl) | emits_step | unfold statusList

theorem proxy_status_evaluate_emits (h : AddGood add keys1) (c hd) :
    Emits FieldNote (proxy_status.evaluate c add hd) := by
  unfold proxy_status.evaluate
  repeat' first | (with_reducible exact checkSfParams_emits h.to0 _ _ _ _ _ rfl rfl rfl rfl rfl rfl) | emits_step | unfold statusList

theorem cdn_cache_control_evaluate_emits (h : AddGood add keys1) (hd) :
    Emits FieldNote (cdn_cache_control.evaluate add hd) := by
  unfold cdn_cache_control.evaluate
  repeat' first | emits_step | unfold cdn_cache_control.member

theorem clear_site_data_evaluate_emits (h : AddGood add keys1) (hd) :
    Emits FieldNote (clear_site_data.evaluate add hd) := by
  have hv : ∀ (items : List Val) (unq : List Str), ∀ v ∈ (items.map Val.asStr).filter (fun v => csdKnown.contains v && !unq.contains v),
      v ∈ csdKnown := by
    intro items unq v hv
    have := (List.mem_filter.1 hv).2
    rw [Bool.and_eq_true] at this
    simpa using this.1
  unfold clear_site_data.evaluate
  repeat' first | (with_reducible exact emits_addG h rfl rfl (inert_one rfl rfl (calm_csd (hv _ _)))) | emits_step

theorem content_language_evaluate_emits (h : AddGood add keys1) (hd) :
    Emits FieldNote (content_language.evaluate add hd) := by
  unfold content_language.evaluate
  repeat' first | emits_step

theorem content_length_evaluate_emits (h : AddGood add keys1) (c) :
    Emits FieldNote (content_length.evaluate c add) := by
  unfold content_length.evaluate
  repeat' first | emits_step

theorem corp_evaluate_emits (h : AddGood add keys1) (hd) :
    Emits FieldNote (corp.evaluate add hd) := by
  unfold corp.evaluate
  repeat' first | emits_step

theorem date_evaluate_emits (h : AddGood add keys1) (c hd) :
    Emits FieldNote (date.evaluate c add hd) := by
  unfold date.evaluate
  repeat' first | emits_step

theorem deprecation_evaluate_emits (h : AddGood add keys1) (c hd) :
    Emits FieldNote (deprecation.evaluate c add hd) := by
  unfold deprecation.evaluate
  repeat' first | emits_step

theorem expect_evaluate_emits (h : AddGood add keys1) (c hd) :
    Emits FieldNote (expect.evaluate c add hd) := by
  unfold expect.evaluate
  repeat' first | emits_step

theorem last_modified_evaluate_emits (h : AddGood add keys1) (c hd) :
    Emits FieldNote (last_modified.evaluate c add hd) := by
  unfold last_modified.evaluate
  repeat' first | emits_step

theorem link_evaluate_emits (h : AddGood add keys1) (c hd) :
    Emits FieldNote (link.evaluate c add hd) := by
  have ht : ∀ good : List (Str × Str × Str), calm (.md (join [10] ((linkHints.filter fun t => good.any fun x => x.1 == t).map fun t =>
        str "- `" ++ t ++ str "`: " ++ join (str ", ")
          ((good.filter fun x => x.1 == t).map fun x => [96] ++ removeC 96 x.2.1 ++ [96])))) = true := by
    intro good
    have := calm_hints (hints := linkHints.filter fun t => good.any fun x => x.1 == t)
      (fun t ht => (List.mem_filter.1 ht).1) (fun t => (good.filter fun x => x.1 == t).map (·.2.1))
      (fun t ht => by
        have := (List.mem_filter.1 ht).2
        obtain ⟨x, hx, he⟩ := List.any_eq_true.1 this
        intro h0
        have h1 := List.map_eq_nil_iff.1 h0
        have : x ∈ good.filter fun x => x.1 == t := List.mem_filter.2 ⟨hx, he⟩
        rw [h1] at this
        cases this)
    simpa only [List.map_map, Function.comp_def] using this
  unfold link.evaluate
  repeat' first | (with_reducible exact emits_addG h rfl rfl (inert_one rfl rfl (ht _))) | emits_step

theorem max_forwards_evaluate_emits (h : AddGood add keys1) (c hd) :
    Emits FieldNote (max_forwards.evaluate c add hd) := by
  unfold max_forwards.evaluate
  repeat' first | emits_step

theorem nel_evaluate_emits (h : AddGood add keys1) (hd) :
    Emits FieldNote (nel.evaluate add hd) := by
  unfold nel.evaluate
  repeat' first | emits_step | unfold nel.policy | unfold nel.member | unfold nel.fraction

theorem pragma_evaluate_emits (h : AddGood add keys1) (hd) :
    Emits FieldNote (pragma.evaluate add hd) := by
  unfold pragma.evaluate
  repeat' first | emits_step

theorem referer_evaluate_emits (h : AddGood add keys1) (c hd) :
    Emits FieldNote (referer.evaluate c add hd) := by
  unfold referer.evaluate
  repeat' first | emits_step

theorem referrer_policy_evaluate_emits (h : AddGood add keys1) (hd) :
    Emits FieldNote (referrer_policy.evaluate add hd) := by
  unfold referrer_policy.evaluate
  repeat' first | emits_step

theorem report_to_evaluate_emits (h : AddGood add keys1) (hd) :
    Emits FieldNote (report_to.evaluate add hd) := by
  unfold report_to.evaluate
  repeat' first | emits_step | unfold report_to.endpoint

theorem reporting_endpoints_evaluate_emits (h : AddGood add keys1) (c hd) :
    Emits FieldNote (reporting_endpoints.evaluate c add hd) := by
  unfold reporting_endpoints.evaluate
  repeat' first | emits_step

theorem server_timing_evaluate_emits (h : AddGood add keys1) (hd) :
    Emits FieldNote (server_timing.evaluate add hd) := by
  unfold server_timing.evaluate
  repeat' first | emits_step

theorem speculation_rules_evaluate_emits (h : AddGood add keys1) (c hd) :
    Emits FieldNote (speculation_rules.evaluate c add hd) := by
  unfold speculation_rules.evaluate
  repeat' first | emits_step

theorem sunset_evaluate_emits (h : AddGood add keys1) (c hd) :
    Emits FieldNote (sunset.evaluate c add hd) := by
  unfold sunset.evaluate
  repeat' first | emits_step

theorem transfer_encoding_evaluate_emits (h : AddGood add keys1) (c hd) :
    Emits FieldNote (transfer_encoding.evaluate c add hd) := by
  unfold transfer_encoding.evaluate
  repeat' first | emits_step

theorem use_as_dictionary_evaluate_emits (h : AddGood add keys1) (hd) :
    Emits FieldNote (use_as_dictionary.evaluate add hd) := by
  unfold use_as_dictionary.evaluate
  repeat' first | emits_step | unfold use_as_dictionary.member | unfold use_as_dictionary.checkType

theorem vary_evaluate_emits (h : AddGood add keys1) (hd) :
    Emits FieldNote (vary.evaluate add hd) := by
  unfold vary.evaluate
  repeat' first | emits_step

theorem via_evaluate_emits (h : AddGood add keys1) (hd) :
    Emits FieldNote (via.evaluate add hd) := by
  unfold via.evaluate
  repeat' first | emits_step

theorem xcto_evaluate_emits (h : AddGood add keys1) (hd) :
    Emits FieldNote (x_content_type_options.evaluate add hd) := by
  unfold x_content_type_options.evaluate
  repeat' first | emits_step

theorem xfo_evaluate_emits (h : AddGood add keys1) (hd) :
    Emits FieldNote (x_frame_options.evaluate add hd) := by
  unfold x_frame_options.evaluate
  repeat' first | emits_step

theorem checkPreflightRequest_emits {ks} (h : AddGood add ks) (c) :
    Emits (NoteFrom .cors) (checkPreflightRequest c add) := by
  unfold checkPreflightRequest
  repeat' first | emits_step

theorem checkPreflightResponse_emits {ks} (h : AddGood add ks) (c) :
    Emits (NoteFrom .cors) (checkPreflightResponse c add) := by
  unfold checkPreflightResponse
  repeat' first | emits_step

theorem available_dictionary_post_emits (h : AddGood add keys1) (c) :
    Emits FieldNote (available_dictionary.postCheck c add) := by
  unfold available_dictionary.postCheck
  repeat' first | emits_step

theorem content_encoding_post_emits (h : AddGood add keys1) (c) :
    Emits FieldNote (content_encoding.postCheck c add) := by
  unfold content_encoding.postCheck
  repeat' first | emits_step

theorem nel_post_emits (h : AddGood add keys1) (c hd) :
    Emits FieldNote (nel.postCheck c add hd) := by
  unfold nel.postCheck
  repeat' first | emits_step

theorem accept_ch_evaluate_emits (h : AddGood add keys1) (hd) : Emits FieldNote (accept_ch.evaluate add hd) := by
  unfold accept_ch.evaluate
  refine emits_bind (emits_lift _) fun items => ?_
  induction items with
  | nil => exact emits_pure _
  | cons i is ih => unfold accept_ch.evaluate.go; emits

theorem accept_ch_missing_emits (P) (c vary items) : Emits P (accept_ch.missing c vary items) := by
  induction items with
  | nil => exact emits_pure _
  | cons i is ih => unfold accept_ch.missing; emits

theorem accept_ch_post_emits (h : AddGood add keys1) (c hd) : Emits FieldNote (accept_ch.postCheck c add hd) := by
  unfold accept_ch.postCheck
  repeat' first | (with_reducible exact accept_ch_missing_emits _ _ _ _) | emits_step

theorem tokenPolicy_emits (h : AddGood add keys1) (ro table bad hd) (hro : calm (.str ro.text) = true)
    (ht : ∀ p ∈ table, covers p.2 (keys1 ++ [str "report_only", str "report_only_text"]) = true ∧ p.2.origin = .field ∧
      p.2.bare = [str "report_only_text"])
    (hb : covers bad (keys1 ++ [str "value", str "report_only"]) = true) (hb' : bad.origin = .field) (hbi : bad.bare = []) :
    Emits FieldNote (tokenPolicy add ro table bad hd) := by
  unfold tokenPolicy
  refine emits_bind (emits_lift _) fun v => ?_
  have e1 : Emits FieldNote (add.add bad [(str "value", v), (str "report_only", .str ro.string)]) :=
    emits_addG h hb hb' (inert_none hbi)
  dsimp only
  split
  · split
    · rename_i heq
      obtain ⟨h1, h2, h3⟩ := ht _ (List.mem_of_find?_eq_some heq)
      exact emits_addG h h1 h2 (inert_one h3 rfl hro)
    · exact e1
  · exact e1

theorem coep_emits (h : AddGood add keys1) (ro hd) (hro : calm (.str ro.text) = true) :
    Emits FieldNote (coep.evaluate add ro hd) :=
  tokenPolicy_emits h _ _ _ _ hro (by decide) rfl rfl rfl
theorem coop_emits (h : AddGood add keys1) (ro hd) (hro : calm (.str ro.text) = true) :
    Emits FieldNote (coop.evaluate add ro hd) :=
  tokenPolicy_emits h _ _ _ _ hro (by decide) rfl rfl rfl
theorem coepRO_emits (h : AddGood add keys1) (c hd) : Emits FieldNote (coepRO.evaluate c add hd) := by
  unfold coepRO.evaluate
  repeat' first | (with_reducible exact coep_emits h _ _ rfl) | emits_step
theorem coopRO_emits (h : AddGood add keys1) (c hd) : Emits FieldNote (coopRO.evaluate c add hd) := by
  unfold coopRO.evaluate
  repeat' first | (with_reducible exact coop_emits h _ _ rfl) | emits_step

theorem tokenPolicyPostCheck_emits (h : AddGood add keys1) (c ro missing hd)
    (hb : covers missing (keys1 ++ [str "endpoint", str "report_only"]) = true) (hb' : missing.origin = .field)
    (hbi : missing.bare = []) :
    Emits FieldNote (tokenPolicyPostCheck c add ro missing hd) := by
  unfold tokenPolicyPostCheck
  have e1 : ∀ rt : Val, Emits FieldNote (add.add missing [(str "endpoint", rt), (str "report_only", .str ro.string)]) :=
    fun _ => emits_addG h hb hb' (inert_none hbi)
  repeat' first | (with_reducible exact e1 _) | emits_step

/-! ### notes with children -/

/-- the children kept for later can be rendered whatever note they end up under -/
def KidsOK (kids : List (NoteId × Dict Val)) : Prop :=
  ∀ k ∈ kids, covers k.1 (keys1 ++ k.2.map (·.1)) = true ∧ inert k.1 k.2 = true

theorem covers_mono {cls ks ks'} (h : covers cls ks = true) (hs : ∀ k ∈ ks, k ∈ ks') : covers cls ks' = true := by
  simp only [covers, List.all_eq_true, List.contains_iff_mem] at h ⊢
  exact fun k hk => hs k (h k hk)

theorem emits_addKids (h : AddGood add keys1) {cls : NoteId} {vrs : Dict Val} {cat}
    {kids : List (NoteId × Dict Val)} (hc : covers cls (keys1 ++ vrs.map (·.1)) = true) (hl : cls.origin = .field)
    (hi : inert cls vrs = true) (hk : KidsOK kids) : Emits FieldNote (add.addWith cls vrs cat kids) :=
  emits_addWith h.ok hc hl hi fun k hk' => ⟨covers_mono (hk k hk').1 (by
    intro x hx
    simp only [List.mem_append] at hx ⊢
    rcases hx with hx | hx
    · exact .inl (.inl hx)
    · exact .inr hx), (hk k hk').2⟩

theorem kidsOK_append {a b} (ha : KidsOK a) (hb : KidsOK b) : KidsOK (a ++ b) := by
  intro k hk
  rcases List.mem_append.1 hk with h | h
  · exact ha k h
  · exact hb k h

theorem kidsOK_nil : KidsOK [] := by simp [KidsOK]
theorem kidsOK_one {k} (h : covers k.1 (keys1 ++ k.2.map (·.1)) = true) (hi : inert k.1 k.2 = true) : KidsOK [k] := by
  intro k' hk; simp only [List.mem_singleton] at hk; subst hk; exact ⟨h, hi⟩

theorem csp_children_ok (ro ds) (hro : calm (.str ro.text) = true) : KidsOK (csp.children ro ds) := by
  have hw : ∀ l, inert .CSP_WIDE_OPEN [(str "directives_list", csp.makeList l), (str "report_only_text", .str ro.text)] = true := by
    intro l
    simp [inert, NoteId.bare, dget_cons, hro, calm_makeList]
  unfold csp.children
  dsimp only
  repeat' apply kidsOK_append
  all_goals (split <;> first
    | exact kidsOK_nil
    | (exact kidsOK_one rfl rfl)
    | (exact kidsOK_one rfl (hw _))
    | (exact kidsOK_one rfl (inert_one rfl rfl (calm_makeList _))))

theorem csp_evaluate_emits (h : AddGood add keys1) (ro hd) (hro : calm (.str ro.text) = true) (hk : KidsOK hd.aux.kids) :
    Emits FieldNote (csp.evaluate add ro hd) := by
  unfold csp.evaluate
  split
  · exact emits_pure _
  · exact emits_addKids h rfl rfl (inert_one rfl rfl hro) (kidsOK_append hk (csp_children_ok _ _ hro))

theorem csp_parse_kids (ro aux v) (hk : KidsOK aux.kids) : KidsOK (csp.parse ro aux v).1.kids := by
  unfold csp.parse
  generalize csp.directives [] [] (splitOn 59 v) = p
  obtain ⟨d, dups⟩ := p
  dsimp only
  split
  · exact hk
  · exact kidsOK_append hk (kidsOK_one rfl (inert_one rfl rfl (calm_makeList _)))

theorem hsts_directive_ok (x n v) : KidsOK (hsts.directive x n v).2 := by
  unfold hsts.directive
  repeat' first | exact kidsOK_nil | (exact kidsOK_one rfl rfl) | split | dsimp only

theorem hsts_loop_ok (ds) : ∀ x seen kids, KidsOK kids → KidsOK (hsts.loop x seen kids ds).2 := by
  induction ds with
  | nil => intro x seen kids h; exact h
  | cons d ds ih =>
    intro x seen kids h
    unfold hsts.loop
    split
    dsimp only
    split
    · exact ih _ _ _ (kidsOK_append h (kidsOK_one rfl rfl))
    · exact ih _ _ _ (kidsOK_append h (hsts_directive_ok _ _ _))

theorem hsts_parse_kids (aux v) (hk : KidsOK aux.kids) : KidsOK (hsts.parse aux v).1.kids := by
  unfold hsts.parse
  dsimp only
  refine hsts_loop_ok _ _ _ _ (kidsOK_append hk ?_)
  split
  · exact kidsOK_one rfl rfl
  · exact kidsOK_nil

theorem hsts_evaluate_emits (h : AddGood add keys1) (c hd) (hk : KidsOK hd.aux.kids) :
    Emits FieldNote (hsts.evaluate c add hd) := by
  unfold hsts.evaluate
  split
  · exact emits_pure _
  · dsimp only
    refine emits_addKids h ?_ ?_ ?_ (kidsOK_append hk ?_)
    · split <;> rfl
    · split <;> rfl
    · split <;> rfl
    · intro k hk
      simp only [List.mem_map] at hk
      obtain ⟨n, hn, rfl⟩ := hk
      revert hn
      have : ∀ n ∈ ([.HSTS_PRELOAD, .HSTS_PRELOAD_NOT_SUITABLE, .HSTS_NO_PRELOAD, .HSTS_NO_MAX_AGE, .HSTS_MAX_AGE_ZERO,
        .HSTS_SHORT_MAX_AGE, .HSTS_SUBDOMAINS, .HSTS_NO_SUBDOMAINS, .HSTS_OVER_HTTP] : List NoteId),
        covers n (keys1 ++ ([] : Dict Val).map (·.1)) = true ∧ inert n [] = true := by decide
      intro hn
      apply this
      revert hn
      generalize Hsts.ofVal hd.value = x
      generalize hd.aux.kids = kids
      unfold hsts.notesToAdd
      simp only [List.mem_append, List.mem_singleton]
      intro hn
      rcases hn with ((hn | hn) | hn) | hn
      · subst hn; repeat' split
        all_goals simp
      · revert hn; repeat' split
        all_goals simp +contextual
      · subst hn; split <;> simp
      · revert hn; split <;> simp +contextual

theorem permissions_item_ok (c f i l) (h : permissions_policy.item c f i = .ok l) : KidsOK l := by
  unfold permissions_policy.item at h
  split at h
  · cases h; exact kidsOK_nil
  · cases hu : i.unpack2 with
    | error e => simp [hu, bind, Except.bind] at h
    | ok p =>
      obtain ⟨v, w⟩ := p
      simp only [hu, bind, Except.bind] at h
      split at h
      · split at h <;> cases h
        · exact kidsOK_nil
        · exact kidsOK_one rfl rfl
      · split at h <;> cases h
        · exact kidsOK_one rfl rfl
        · exact kidsOK_nil
      · split at h <;> cases h
        exact kidsOK_one rfl rfl

theorem permissions_items_ok (c f) (items : List Val) : ∀ l, items.mapM (permissions_policy.item c f) = .ok l → KidsOK l.flatten := by
  induction items with
  | nil => intro l h; simp [pure, Except.pure] at h; subst h; exact kidsOK_nil
  | cons i is ih =>
    intro l h
    rw [List.mapM_cons] at h
    cases h1 : permissions_policy.item c f i with
    | error e => simp [h1, bind, Except.bind] at h
    | ok a =>
      cases h2 : is.mapM (permissions_policy.item c f) with
      | error e => simp [h1, h2, bind, Except.bind] at h
      | ok b =>
        simp [h1, h2, bind, Except.bind, pure, Except.pure] at h
        subst h
        exact kidsOK_append (permissions_item_ok _ _ _ _ h1) (ih _ h2)

theorem permissions_feature_ok (c f a l) (h : permissions_policy.feature c f a = .ok l) : KidsOK l := by
  have wild : ∀ b : Bool, KidsOK (if b then [(.PERMISSIONS_POLICY_WILDCARD, [(str "feature", f)])] else []) := by
    intro b; cases b
    · exact kidsOK_nil
    · exact kidsOK_one rfl rfl
  unfold permissions_policy.feature at h
  cases hu : a.unpack2 with
  | error e => simp [hu, bind, Except.bind] at h
  | ok p =>
    obtain ⟨v, w⟩ := p
    simp only [hu, bind, Except.bind] at h
    split at h
    · split at h
      · cases h
      · rename_i hm
        cases h
        exact kidsOK_append (permissions_items_ok _ _ _ _ hm) (wild _)
    · cases h
      refine kidsOK_append ?_ (wild _)
      split
      · exact kidsOK_nil
      · exact kidsOK_one rfl rfl
    · cases h
      exact kidsOK_append (kidsOK_one rfl rfl) (wild _)

theorem permissions_features_ok (c ps) : KidsOK (permissions_policy.features c ps).1 := by
  induction ps with
  | nil => exact kidsOK_nil
  | cons p ps ih =>
    unfold permissions_policy.features
    split
    · exact kidsOK_nil
    · rename_i hl
      exact kidsOK_append (permissions_feature_ok _ _ _ _ hl) ih

theorem permissions_policy_emits (h : AddGood add keys1) (c hd) : Emits FieldNote (permissions_policy.evaluate c add hd) := by
  unfold permissions_policy.evaluate
  split
  · exact emits_pure _
  · split
    · emits
    · rename_i items _
      have := permissions_features_ok c items
      generalize permissions_policy.features c items = p at this
      obtain ⟨kids, err⟩ := p
      dsimp only
      refine emits_bind (emits_addKids h rfl rfl rfl this) fun _ => ?_
      emits

/-! ### Set-Cookie, Clear-Site-Data -/

theorem clear_site_data_parse_emits (h : AddGood add keys0) (aux v) :
    Emits FieldNote (clear_site_data.parse add aux v).2 := by
  unfold clear_site_data.parse; emits

theorem processCookieAttribute_emits (h : AddGood add keys0) (n v cn at_ up t l) :
    Emits FieldNote (processCookieAttribute n v cn at_ up t add l) := by
  unfold processCookieAttribute; emits

theorem cookieAttrLoop_emits (h : AddGood add keys0) (cn up t avs) :
    ∀ seen at_ l, Emits FieldNote (cookieAttrLoop cn up t add avs seen at_ l) := by
  induction avs with
  | nil => intro _ _ _; exact emits_pure _
  | cons a avs ih =>
    intro seen at_ l
    unfold cookieAttrLoop
    repeat' first | (with_reducible exact ih _ _ _) | (with_reducible exact processCookieAttribute_emits h _ _ _ _ _ _ _) | emits_step

theorem checkPrefixes_emits (h : AddGood add keys0) (cn at_) : Emits FieldNote (checkPrefixes cn at_ add) := by
  unfold checkPrefixes; emits

theorem looseParse_emits (h : AddGood add keys0) (s up t) : Emits FieldNote (looseParse s up t add) := by
  unfold looseParse
  repeat' first | (with_reducible exact cookieAttrLoop_emits h _ _ _ _ _ _ _) | (with_reducible exact checkPrefixes_emits h _ _) | emits_step

theorem set_cookie_parse_emits (h : AddGood add keys0) (c aux v) : Emits FieldNote (set_cookie.parse c add aux v).2 := by
  unfold set_cookie.parse
  split
  · exact emits_throw _
  · intro n hn; simp at hn

theorem set_cookie_parse_notes (h : AddGood add keys0) (c aux v) (ha : ∀ n ∈ aux.notes, FieldNote n) :
    ∀ n ∈ (set_cookie.parse c add aux v).1.notes, FieldNote n := by
  unfold set_cookie.parse
  split
  · exact ha
  · intro n hn
    simp only [List.mem_append] at hn
    rcases hn with hn | hn
    · exact ha n hn
    · exact looseParse_emits h _ _ _ n hn

theorem set_cookie_evaluate_emits (h : AddGood add keys1) (hd) (ha : ∀ n ∈ hd.aux.notes, FieldNote n) :
    Emits FieldNote (set_cookie.evaluate add hd) := by
  unfold set_cookie.evaluate
  repeat' first | emits_step | exact ha

end HL.Props
