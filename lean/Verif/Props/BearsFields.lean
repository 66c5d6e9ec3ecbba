import Verif.Props.Bears

/-! # The same for the `parse` and `evaluate` methods by field class -/

namespace HL.Props
open HL.F

variable {add : AddNote} {cat : Cat}

theorem parse_bears {Q : Note → Prop} (h : UniqueKeys add.base) (c : Ctx) (hd : Handler) (hc : hd.fid = .deprecatedField ∨ hd.fid.info.category = cat) (hQ : ∀ n, Bears add cat n → Q n) (ha : Kept Q hd.aux) (v : Str) :
    Kept Q (hd.parse c add v).1 ∧ Emits (Bears add cat) (hd.parse c add v).2 := by
  unfold Handler.parse Handler.noAux lowerParse pragma.parse vary.parse x_frame_options.parse
  split
  all_goals (try dsimp only)
  all_goals (try rename_i hf)
  all_goals (try (refine ⟨ha, ?_⟩))
  all_goals first
    | (with_reducible exact emits_pure _)
    | (with_reducible exact accept_parse_bears h _ _)
    | (with_reducible exact accept_language_parse_bears h _ _)
    | (with_reducible exact accept_patch_parse_bears h _ _)
    | (with_reducible exact accept_post_parse_bears h _ _)
    | (with_reducible exact accept_ranges_parse_bears h _)
    | (with_reducible exact acac_parse_bears h _)
    | (with_reducible exact acma_parse_bears h _)
    | (with_reducible exact age_parse_bears h _)
    | (with_reducible exact alt_svc_parse_bears h _)
    | (with_reducible exact cache_control_parse_bears h _)
    | (with_reducible exact content_disposition_parse_bears h _ _)
    | (with_reducible exact content_encoding_parse_bears h _ _)
    | (with_reducible exact content_length_parse_bears h _)
    | (with_reducible exact content_range_parse_bears h _ _)
    | (with_reducible exact content_type_parse_bears h _ _)
    | (rw [← hc.resolve_left (by rw [hf]; decide), hf]; with_reducible exact date_parse_bears h _ _)
    | (with_reducible exact etag_parse_bears h _)
    | (rw [← hc.resolve_left (by rw [hf]; decide), hf]; with_reducible exact expires_parse_bears h _ _)
    | (rw [← hc.resolve_left (by rw [hf]; decide), hf]; with_reducible exact last_modified_parse_bears h _ _)
    | (with_reducible exact link_parse_bears h _ _)
    | (with_reducible exact location_parse_bears h _ _)
    | (with_reducible exact origin_parse_bears h _)
    | (with_reducible exact range_parse_bears h _)
    | (with_reducible exact server_parse_bears h _)
    | (with_reducible exact server_timing_parse_bears h _ _)
    | (rw [← hc.resolve_left (by rw [hf]; decide), hf]; with_reducible exact sunset_parse_bears h _ _)
    | (with_reducible exact tcn_parse_bears h _ _)
    | (with_reducible exact coding_parse_bears h _ _)
    | (with_reducible exact transfer_encoding_parse_bears h _ _)
    | (with_reducible exact unnecessary_parse_bears h _)
    | skip
  · refine ⟨?_, clear_site_data_parse_bears h _ _⟩
    unfold clear_site_data.parse; dsimp only; repeat' split
    all_goals exact ⟨ha.notes, ha.kids⟩
  · refine ⟨⟨?_, csp_parse_kidsFree _ _ _ ha.kids⟩, emits_pure _⟩
    unfold csp.parse
    dsimp only
    split <;> exact ha.notes
  · refine ⟨⟨?_, csp_parse_kidsFree _ _ _ ha.kids⟩, emits_pure _⟩
    unfold csp.parse
    dsimp only
    split <;> exact ha.notes
  · refine ⟨⟨set_cookie_parse_kept h hQ _ _ _ ha.notes, ?_⟩, set_cookie_parse_bears h _ _ _⟩
    unfold set_cookie.parse
    split <;> exact ha.kids
  · exact ⟨⟨ha.notes, hsts_parse_kidsFree _ _ ha.kids⟩, emits_pure _⟩

theorem evaluate_bears {Q : Note → Prop} (h : UniqueKeys add.base) (c : Ctx) (hd : Handler) (ha : Kept Q hd.aux) :
    Emits (fun n => Bears add cat n ∨ (hd.fid = .set_cookie_ ∧ Q n)) (hd.evaluate c add).2 := by
  by_cases hs : hd.fid = .set_cookie_
  · unfold Handler.evaluate Handler.keep
    rw [hs]
    exact emits_imp (fun n hn => hn.imp id fun hq => ⟨rfl, hq⟩) (set_cookie_evaluate_kept h _ ha.notes)
  refine emits_imp (P := Bears add cat) (fun n hn => .inl hn) ?_
  unfold Handler.evaluate Handler.keep
  split
  all_goals (try dsimp only)
  all_goals first
    | (with_reducible exact emits_pure _)
    | (with_reducible exact accept_ch_evaluate_bears h _)
    | (with_reducible exact acao_evaluate_bears h _ _)
    | (with_reducible exact alt_svc_evaluate_bears h _)
    | (with_reducible exact available_dictionary_evaluate_bears h _)
    | (with_reducible exact cache_control_evaluate_bears h _ _)
    | (with_reducible exact cache_group_invalidation_evaluate_bears h _ _)
    | (with_reducible exact cache_groups_evaluate_bears h _)
    | (with_reducible exact cache_status_evaluate_bears h _ _)
    | (with_reducible exact cdn_cache_control_evaluate_bears h _)
    | (with_reducible exact clear_site_data_evaluate_bears h _)
    | (with_reducible exact content_language_evaluate_bears h _)
    | (with_reducible exact content_length_evaluate_bears h _)
    | (with_reducible exact csp_evaluate_bears h _ _ ha.kids)
    | (with_reducible exact coep_bears h _ _)
    | (with_reducible exact coop_bears h _ _)
    | (with_reducible exact coepRO_bears h _ _)
    | (with_reducible exact coopRO_bears h _ _)
    | (with_reducible exact corp_evaluate_bears h _)
    | (with_reducible exact date_evaluate_bears h _ _)
    | (with_reducible exact deprecation_evaluate_bears h _ _)
    | (with_reducible exact expect_evaluate_bears h _ _)
    | (with_reducible exact last_modified_evaluate_bears h _ _)
    | (with_reducible exact link_evaluate_bears h _ _)
    | (with_reducible exact max_forwards_evaluate_bears h _ _)
    | (with_reducible exact permissions_policy_bears h _ _)
    | (with_reducible exact pragma_evaluate_bears h _)
    | (with_reducible exact proxy_status_evaluate_bears h _ _)
    | (with_reducible exact referer_evaluate_bears h _ _)
    | (with_reducible exact referrer_policy_evaluate_bears h _)
    | (with_reducible exact report_to_evaluate_bears h _)
    | (with_reducible exact reporting_endpoints_evaluate_bears h _ _)
    | (with_reducible exact server_timing_evaluate_bears h _)
    | (exact absurd ‹_› hs)
    | (with_reducible exact speculation_rules_evaluate_bears h _ _)
    | (with_reducible exact hsts_evaluate_bears h _ _ ha.kids)
    | (with_reducible exact sunset_evaluate_bears h _ _)
    | (with_reducible exact transfer_encoding_evaluate_bears h _ _)
    | (with_reducible exact use_as_dictionary_evaluate_bears h _)
    | (with_reducible exact via_evaluate_bears h _)
    | (with_reducible exact xcto_evaluate_bears h _)
    | (with_reducible exact xfo_evaluate_bears h _)
    | skip
  · unfold Emits; rw [assign_notes]; exact accept_query_evaluate_bears h _ _
  · unfold Emits; rw [appendVals_notes]; exact nel_evaluate_bears h _
  · unfold Emits; rw [assign_notes]; exact vary_evaluate_bears h _

end HL.Props
