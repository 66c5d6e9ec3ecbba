import Verif.Props.FieldEmits

/-!
# Which classes of note each field class can add

`parseOwn f` and `evalOwn f` list the classes of note `parse` and `evaluate` of the field class `f` can add; the theorems
show that they add no others.
-/

namespace HL.Props
open HL.F

variable {add : AddNote}

/-- the classes of note `parse` can add -/
def parseOwn : FieldId → List NoteId
  | .accept_ => [.MEDIA_TYPE_LONG_NAME, .MEDIA_TYPE_BAD_NAME, .PARAM_REPEATS, .PARAM_SINGLE_QUOTED, .PARAM_STAR_BAD, .PARAM_STAR_QUOTED,
      .PARAM_STAR_ERROR, .PARAM_STAR_NOCHARSET, .PARAM_STAR_CHARSET, .ACCEPT_BAD_SYNTAX, .BAD_Q_VALUE_accept]
  | .accept_encoding_ => [.PARAM_REPEATS, .PARAM_SINGLE_QUOTED, .PARAM_STAR_BAD, .PARAM_STAR_QUOTED, .PARAM_STAR_ERROR, .PARAM_STAR_NOCHARSET,
      .PARAM_STAR_CHARSET]
  | .accept_language_ => [.PARAM_REPEATS, .PARAM_SINGLE_QUOTED, .PARAM_STAR_BAD, .PARAM_STAR_QUOTED, .PARAM_STAR_ERROR, .PARAM_STAR_NOCHARSET,
      .PARAM_STAR_CHARSET, .BAD_Q_VALUE_accept_language, .ACCEPT_LANGUAGE_BAD_SYNTAX]
  | .accept_patch_ => [.MEDIA_TYPE_LONG_NAME, .MEDIA_TYPE_BAD_NAME, .PARAM_REPEATS, .PARAM_SINGLE_QUOTED, .PARAM_STAR_BAD, .PARAM_STAR_QUOTED,
      .PARAM_STAR_ERROR, .PARAM_STAR_NOCHARSET, .PARAM_STAR_CHARSET, .ACCEPT_PATCH_BAD_SYNTAX]
  | .accept_post_ => [.MEDIA_TYPE_LONG_NAME, .MEDIA_TYPE_BAD_NAME, .PARAM_REPEATS, .PARAM_SINGLE_QUOTED, .PARAM_STAR_BAD, .PARAM_STAR_QUOTED,
      .PARAM_STAR_ERROR, .PARAM_STAR_NOCHARSET, .PARAM_STAR_CHARSET, .ACCEPT_POST_BAD_SYNTAX]
  | .accept_ranges_ => [.UNKNOWN_RANGE]
  | .access_control_max_age_ => [.CORS_MAX_AGE_INVALID, .CORS_MAX_AGE_NEGATIVE]
  | .age_ => [.AGE_NOT_INT, .AGE_NEGATIVE, .AGE_LARGE]
  | .cache_control_ => [.CC_MISCAP, .CC_SHOULD_NOT_HAVE_VALUE, .CC_MAX_AGE_TOO_LARGE, .CC_BAD_VALUE_TYPE]
  | .clear_site_data_ => [.CSD_EMPTY, .CSD_UNKNOWN_VALUE]
  | .content_disposition_ => [.PARAM_REPEATS, .PARAM_SINGLE_QUOTED, .PARAM_STAR_BAD, .PARAM_STAR_QUOTED, .PARAM_STAR_ERROR, .PARAM_STAR_NOCHARSET,
      .PARAM_STAR_CHARSET, .DISPOSITION_UNKNOWN, .DISPOSITION_OMITS_FILENAME, .DISPOSITION_FILENAME_PERCENT, .DISPOSITION_FILENAME_PATH_CHAR]
  | .content_encoding_ => [.ENCODING_UNWANTED]
  | .content_length_ => [.CL_BAD_SYNTAX, .CL_TOO_LARGE]
  | .content_range_ => [.CONTENT_RANGE_MEANINGLESS, .CONTENT_RANGE_MISSING_UNIT, .CONTENT_RANGE_MISSING_SLASH, .CONTENT_RANGE_INVALID_ASTERISK,
      .CONTENT_RANGE_UNKNOWN_LENGTH, .RANGE_INVALID_INTEGER, .RANGE_MISSING_HYPHEN, .CONTENT_RANGE_UNSATISFIED_BAD_SC, .RANGE_INVALID_content_range]
  | .content_type_ => [.MEDIA_TYPE_LONG_NAME, .MEDIA_TYPE_BAD_NAME, .PARAM_REPEATS, .PARAM_SINGLE_QUOTED, .PARAM_STAR_BAD, .PARAM_STAR_QUOTED,
      .PARAM_STAR_ERROR, .PARAM_STAR_NOCHARSET, .PARAM_STAR_CHARSET]
  | .date_ => [.BAD_DATE_SYNTAX, .DATE_OBSOLETE]
  | .expires_ => [.BAD_DATE_SYNTAX, .DATE_OBSOLETE]
  | .last_modified_ => [.BAD_DATE_SYNTAX, .DATE_OBSOLETE]
  | .link_ => [.PARAM_REPEATS, .PARAM_SINGLE_QUOTED, .PARAM_STAR_BAD, .PARAM_STAR_QUOTED, .PARAM_STAR_ERROR, .PARAM_STAR_NOCHARSET,
      .PARAM_STAR_CHARSET, .LINK_REV, .LINK_BAD_ANCHOR, .LINK_BAD_TYPE]
  | .location_ => [.LOCATION_UNDEFINED, .LOCATION_NOT_ABSOLUTE]
  | .origin_ => [.ORIGIN_MULTIPLE_VALUES, .BAD_ORIGIN_SYNTAX]
  | .range_ => [.RANGE_BAD_SYNTAX, .RANGE_INVALID_range]
  | .server_ => [.SERVER_TOO_LONG]
  | .server_timing_ => [.PARAM_REPEATS, .PARAM_SINGLE_QUOTED, .PARAM_STAR_BAD, .PARAM_STAR_QUOTED, .PARAM_STAR_ERROR, .PARAM_STAR_NOCHARSET,
      .PARAM_STAR_CHARSET]
  | .sunset_ => [.BAD_DATE_SYNTAX, .DATE_OBSOLETE]
  | .tcn_ => [.UNNECESSARY_HEADER]
  | .te_ => [.PARAM_REPEATS, .PARAM_SINGLE_QUOTED, .PARAM_STAR_BAD, .PARAM_STAR_QUOTED, .PARAM_STAR_ERROR, .PARAM_STAR_NOCHARSET, .PARAM_STAR_CHARSET]
  | .transfer_encoding_ => [.PARAM_REPEATS, .PARAM_SINGLE_QUOTED, .PARAM_STAR_BAD, .PARAM_STAR_QUOTED, .PARAM_STAR_ERROR, .PARAM_STAR_NOCHARSET,
      .PARAM_STAR_CHARSET, .TRANSFER_CODING_PARAM]
  | .unnecessaryField => [.UNNECESSARY_HEADER]
  | _ => []

/-- the classes of note `evaluate` can add (for Set-Cookie, including those kept by `parse`) -/
def evalOwn : FieldId → List NoteId
  | .accept_ch_ => [.ACCEPT_CH_BAD_TYPE]
  | .accept_query_ => [.MEDIA_TYPE_LONG_NAME, .MEDIA_TYPE_BAD_NAME, .ACCEPT_QUERY_BAD_SYNTAX, .ACCEPT_QUERY_BAD_TYPE]
  | .access_control_allow_origin_ => [.CORS_ORIGIN_NULL, .CORS_ORIGIN_STAR, .CORS_ORIGIN_MATCH, .CORS_ORIGIN_MISMATCH]
  | .alt_svc_ => [.ALTSVC_CLEAR_LIST]
  | .available_dictionary_ => [.AVAILABLE_DICTIONARY_BAD_TYPE]
  | .cache_control_ => [.CC_CONFLICTING, .CC_WRONG_MESSAGE, .CC_DUP, .CHECK_SINGLE, .CHECK_ALL_ZERO, .CHECK_POST_BIGGER, .CHECK_POST_ZERO,
      .CHECK_POST_PRE]
  | .cache_group_invalidation_ => [.CACHE_GROUP_INVALIDATION_IGNORED, .CACHE_GROUP_INVALIDATION_BAD_TYPE]
  | .cache_groups_ => [.CACHE_GROUPS_BAD_TYPE]
  | .cache_status_ => [.CACHE_STATUS, .CACHE_STATUS_UNKNOWN_PARAM, .CACHE_STATUS_BAD_PARAM_VAL]
  | .cdn_cache_control_ => [.CDN_CACHE_CONTROL_PRESENT, .BAD_CDN_CC_TYPE]
  | .clear_site_data_ => [.CSD_UNQUOTED, .CSD_EMPTY, .CSD_PRESENT]
  | .content_language_ => [.CONTENT_LANGUAGE_DUP]
  | .content_length_ => [.CL_AND_TE_PRESENT]
  | .content_security_policy_ => [.CONTENT_SECURITY_POLICY]
  | .content_security_policy_report_only_ => [.CONTENT_SECURITY_POLICY]
  | .cross_origin_embedder_policy_ => [.COEP_REQUIRE_CORP, .COEP_CREDENTIALLESS, .COEP_UNSAFE_NONE, .CROSS_ORIGIN_EMBEDDER_POLICY_BAD_VALUE]
  | .cross_origin_embedder_policy_report_only_ => [.COEP_REPORT_ONLY_DUPLICATE, .COEP_REQUIRE_CORP, .COEP_CREDENTIALLESS, .COEP_UNSAFE_NONE,
      .CROSS_ORIGIN_EMBEDDER_POLICY_BAD_VALUE]
  | .cross_origin_opener_policy_ => [.COOP_SAME_ORIGIN, .COOP_SAME_ORIGIN_ALLOW_POPUPS, .COOP_UNSAFE_NONE, .CROSS_ORIGIN_OPENER_POLICY_BAD_VALUE]
  | .cross_origin_opener_policy_report_only_ => [.COOP_REPORT_ONLY_DUPLICATE, .COOP_SAME_ORIGIN, .COOP_SAME_ORIGIN_ALLOW_POPUPS, .COOP_UNSAFE_NONE,
      .CROSS_ORIGIN_OPENER_POLICY_BAD_VALUE]
  | .cross_origin_resource_policy_ => [.CORP_SAME_ORIGIN, .CORP_SAME_SITE, .CORP_CROSS_ORIGIN, .CROSS_ORIGIN_RESOURCE_POLICY_BAD_VALUE]
  | .date_ => [.AGE_PENALTY, .DATE_INCORRECT, .DATE_CORRECT]
  | .deprecation_ => [.DEPRECATION_FUTURE, .DEPRECATION_PAST, .DEPRECATION_TRUE, .DEPRECATION_BAD_TYPE]
  | .expect_ => [.EXPECT_HTTP_1_0, .EXPECT_UNKNOWN]
  | .last_modified_ => [.LM_FUTURE, .LM_PRESENT]
  | .link_ => [.LINK_BAD_HINT_TARGET, .LINK_RESOURCE_HINTS]
  | .max_forwards_ => [.MAX_FORWARDS_IGNORED]
  | .nel_ => [.NEL_BAD_STRUCTURE, .NEL_MISSING_KEY, .NEL_BAD_TYPE, .NEL_BAD_VALUE]
  | .permissions_policy_ => [.PERMISSIONS_POLICY_PRESENT]
  | .pragma_ => [.PRAGMA_OTHER]
  | .proxy_status_ => [.PROXY_STATUS, .PROXY_STATUS_UNKNOWN_PARAM, .PROXY_STATUS_BAD_PARAM_VAL]
  | .referer_ => [.REFERER_SECURE_TO_INSECURE, .REFERER_SECURE_TO_DIFFERENT_ORIGIN]
  | .referrer_policy_ => [.REFERRER_POLICY_UNKNOWN, .REFERRER_POLICY_EMPTY, .REFERRER_POLICY_MULTIPLE, .REFERRER_POLICY_UNSAFE,
      .REFERRER_POLICY_STRICT]
  | .report_to_ => [.REPORT_TO_BAD_STRUCTURE, .REPORT_TO_MISSING_KEY, .REPORT_TO_BAD_TYPE]
  | .reporting_endpoints_ => [.ENDPOINT_NOT_SECURE, .BAD_REPORTING_ENDPOINT_SYNTAX]
  | .server_timing_ => [.SERVER_TIMING_MISSING_DUR, .SERVER_TIMING_BAD_PARAM, .SERVER_TIMING_MISSING_DESC]
  | .set_cookie_ => [.SET_COOKIE_NO_NAME, .SET_COOKIE_TOO_LARGE, .SET_COOKIE_VALUE_TOO_LARGE, .SET_COOKIE_ATTRIBUTE_DUP, .SET_COOKIE_BAD_DATE,
      .SET_COOKIE_LIFETIME_TOO_LONG, .SET_COOKIE_EMPTY_MAX_AGE, .SET_COOKIE_LEADING_ZERO_MAX_AGE, .SET_COOKIE_NON_DIGIT_MAX_AGE,
      .SET_COOKIE_EMPTY_DOMAIN, .SET_COOKIE_UNKNOWN_ATTRIBUTE_VALUE, .SET_COOKIE_PRIORITY, .SET_COOKIE_VERSION, .SET_COOKIE_UNKNOWN_ATTRIBUTE,
      .SET_COOKIE_NOT_SECURE, .SET_COOKIE_PARTITIONED_NO_SECURE, .SET_COOKIE_PREFIX_SECURE_MISSING, .SET_COOKIE_PREFIX_HOST_BAD_PATH,
      .SET_COOKIE_PREFIX_HOST_BAD_DOMAIN, .SET_COOKIE_NAME_DUP, .SET_COOKIE_HARDENED]
  | .speculation_rules_ => [.SPECULATION_RULE_NOT_SECURE, .SPECULATION_RULES_BAD_TYPE]
  | .strict_transport_security_ => [.HSTS_VALID, .HSTS_INVALID]
  | .sunset_ => [.SUNSET_PAST]
  | .transfer_encoding_ => [.TRANSFER_CODING_UNWANTED, .TRANSFER_CODING_IDENTITY]
  | .use_as_dictionary_ => [.USE_AS_DICTIONARY_BAD_TYPE, .USE_AS_DICTIONARY_BAD_MATCH_DEST]
  | .vary_ => [.VARY_DUPLICATE, .VARY_ASTERISK, .VARY_COMPLEX, .VARY_USER_AGENT, .VARY_HOST, .VARY_NEGOTIATE]
  | .via_ => [.VIA_PRESENT]
  | .x_content_type_options_ => [.CONTENT_TYPE_OPTIONS, .CONTENT_TYPE_OPTIONS_UNKNOWN]
  | .x_frame_options_ => [.FRAME_OPTIONS_DENY, .FRAME_OPTIONS_SAMEORIGIN, .FRAME_OPTIONS_UNKNOWN]
  | _ => []

/-- of one of the listed classes, and about `s` -/
structure Of (s : Option Str) (L : List NoteId) (n : Note) : Prop where
  cls : L.contains n.cls = true
  subject : ∀ x, s = some x → n.subject = x

theorem own_add {s : Option Str} {L : List NoteId} {a : AddNote} {cls : NoteId} {vrs : Dict Val} {cat} (h : L.contains cls = true)
    (hs : ∀ x, s = some x → a.subject = x) : Emits (Of s L) (a.add cls vrs cat) := by
  intro n hn
  simp only [AddNote.add, List.mem_singleton] at hn
  subst hn
  exact ⟨h, hs⟩

theorem foldl_addChild_cls (kids : List (NoteId × Dict Val)) : ∀ n : Note,
    (kids.foldl (fun n k => n.addChild k.1 k.2) n).cls = n.cls ∧ (kids.foldl (fun n k => n.addChild k.1 k.2) n).subject = n.subject := by
  induction kids with
  | nil => intro n; exact ⟨rfl, rfl⟩
  | cons k ks ih => intro n; rw [List.foldl_cons]; exact ih _

theorem own_addWith {s : Option Str} {L : List NoteId} {a : AddNote} {cls : NoteId} {vrs : Dict Val} {cat kids} (h : L.contains cls = true)
    (hs : ∀ x, s = some x → a.subject = x) : Emits (Of s L) (a.addWith cls vrs cat kids) := by
  intro n hn
  simp only [AddNote.addWith, List.mem_singleton] at hn
  subst hn
  refine ⟨?_, ?_⟩
  · rw [(foldl_addChild_cls _ _).1]; exact h
  · rw [(foldl_addChild_cls _ _).2]; exact hs

/-- every one of the first list is in the second -/
def subList (a b : List NoteId) : Bool := a.all b.contains

theorem subList_mem {a b : List NoteId} (h : subList a b = true) {x} (hx : a.contains x = true) : b.contains x = true := by
  simp only [subList, List.all_eq_true] at h
  exact h x (by simpa using hx)

theorem noSubject {a : AddNote} : ∀ x, (none : Option Str) = some x → a.subject = x := by intro x h; cases h
theorem sameSubject {a : AddNote} : ∀ x, some a.subject = some x → a.subject = x := by intro x h; cases h; rfl

/-- step through the code of a check -/
macro "own_step" : tactic => `(tactic| first
  | assumption
  | with_reducible exact emits_pure _
  | with_reducible exact emits_throw _
  | with_reducible exact emits_lift _
  | ((with_reducible refine own_add ?_ ?_) <;> first | assumption | exact noSubject | exact sameSubject | rfl | (refine subList_mem (by assumption) ?_; rfl))
  | ((with_reducible refine own_addWith ?_ ?_) <;> first | assumption | exact noSubject | exact sameSubject | rfl)
  | with_reducible refine emits_bind ?_ ?_
  | with_reducible refine emits_when ?_
  | with_reducible refine emits_ite ?_ ?_
  | with_reducible refine emits_forEach ?_
  | with_reducible refine emits_mapM ?_
  | with_reducible intro _
  | split
  | dsimp only)

/-- the classes `parse_params` can add -/
def paramNotes : List NoteId := [.PARAM_REPEATS, .PARAM_SINGLE_QUOTED, .PARAM_STAR_BAD, .PARAM_STAR_QUOTED, .PARAM_STAR_ERROR, .PARAM_STAR_NOCHARSET, .PARAM_STAR_CHARSET]
/-- the classes `check_media_type` can add, besides the caller's -/
def mediaNotes : List NoteId := [.MEDIA_TYPE_LONG_NAME, .MEDIA_TYPE_BAD_NAME]

variable {s : Option Str} {L : List NoteId}

theorem mk_bad {x : NoteId} (h : L.contains x = true) : ∀ cls, some x = some cls → L.contains cls = true := by
  intro c hc; cases hc; exact h
theorem mk_nobad : ∀ cls, (none : Option NoteId) = some cls → L.contains cls = true := by
  intro c hc; cases hc

theorem checkMediaType_own (hs : ∀ x, s = some x → add.subject = x) (v bad ref w t) (hL : subList mediaNotes L = true) (hb : ∀ cls, bad = some cls → L.contains cls = true) :
    Emits (Of s L) (checkMediaType add v bad ref w t) := by
  unfold checkMediaType
  dsimp only
  generalize partition 47 v = p
  obtain ⟨a, b, c⟩ := p
  cases bad with
  | none => repeat' own_step
  | some cls =>
    have h1 := hb cls rfl
    clear hb
    repeat' own_step

theorem parseParam_own (hs : ∀ x, s = some x → add.subject = x) (hL : subList paramNotes L = true) (env ns d p) : Emits (Of s L) (parseParam env add ns d p) := by
  unfold parseParam; repeat' own_step

theorem parseParamsLoop_own (hs : ∀ x, s = some x → add.subject = x) (hL : subList paramNotes L = true) (env ns ps) :
    ∀ d, Emits (Of s L) (parseParamsLoop env add ns d ps) := by
  induction ps with
  | nil => intro d; exact emits_pure _
  | cons p ps ih => intro d; exact emits_bind (parseParam_own hs hL _ _ _ _) fun d => ih d

theorem parseParams_own (hs : ∀ x, s = some x → add.subject = x) (hL : subList paramNotes L = true) (env x ns dl) : Emits (Of s L) (parseParams env add x ns dl) :=
  parseParamsLoop_own hs hL _ _ _ _

theorem parseMediaType_own (hs : ∀ x, s = some x → add.subject = x) (env v bad ref w ns) (hL : subList mediaNotes L = true) (hL2 : subList paramNotes L = true)
    (hb : ∀ cls, bad = some cls → L.contains cls = true) : Emits (Of s L) (parseMediaType env add v bad ref w ns) := by
  unfold parseMediaType
  dsimp only
  exact emits_bind (checkMediaType_own hs _ _ _ _ _ hL hb) fun _ => emits_bind (parseParams_own hs hL2 _ _ _ _) fun _ => emits_pure _

theorem parseHttpDate_own (hs : ∀ x, s = some x → add.subject = x) (hL : subList [.BAD_DATE_SYNTAX, .DATE_OBSOLETE] L = true) (env v cat) : Emits (Of s L) (parseHttpDate env add v cat) := by
  unfold parseHttpDate; repeat' own_step

theorem checkSfParams_own (hs : ∀ x, s = some x → add.subject = x) (r known u b params) (hu : L.contains u = true) (hb : L.contains b = true) :
    Emits (Of s L) (checkSfParams r known add u b params) := by
  unfold checkSfParams
  refine emits_bind (emits_lift _) fun items => emits_bind (emits_mapM fun p => ?_) fun _ => emits_pure _
  unfold checkSfParam
  repeat' own_step

theorem tokenPolicy_own (hs : ∀ x, s = some x → add.subject = x) (ro table bad hd) (ht : ∀ p ∈ table, L.contains p.2 = true) (hb : L.contains bad = true) :
    Emits (Of s L) (tokenPolicy add ro table bad hd) := by
  unfold tokenPolicy
  refine emits_bind (emits_lift _) fun v => ?_
  dsimp only
  split
  · split
    · rename_i heq
      exact own_add (ht _ (List.mem_of_find?_eq_some heq)) hs
    · exact own_add hb hs
  · exact own_add hb hs

theorem age_parse_own (v) : Emits (Of (some add.subject) [.AGE_NOT_INT, .AGE_NEGATIVE, .AGE_LARGE]) (age.parse add v) := by
  unfold age.parse
  repeat' first | own_step

theorem cache_control_parse_own (v) : Emits (Of (some add.subject) [.CC_MISCAP, .CC_SHOULD_NOT_HAVE_VALUE, .CC_MAX_AGE_TOO_LARGE, .CC_BAD_VALUE_TYPE]) (cache_control.parse add v) := by
  unfold cache_control.parse
  repeat' first | own_step

theorem accept_parse_own (env v) : Emits (Of (some add.subject) [.MEDIA_TYPE_LONG_NAME, .MEDIA_TYPE_BAD_NAME, .PARAM_REPEATS, .PARAM_SINGLE_QUOTED, .PARAM_STAR_BAD, .PARAM_STAR_QUOTED, .PARAM_STAR_ERROR, .PARAM_STAR_NOCHARSET, .PARAM_STAR_CHARSET, .ACCEPT_BAD_SYNTAX, .BAD_Q_VALUE_accept]) (accept.parse env add v) := by
  unfold accept.parse
  repeat' first | (with_reducible exact parseMediaType_own sameSubject _ _ _ _ _ _ rfl rfl (mk_bad rfl)) | own_step

theorem accept_language_parse_own (env v) : Emits (Of (some add.subject) [.PARAM_REPEATS, .PARAM_SINGLE_QUOTED, .PARAM_STAR_BAD, .PARAM_STAR_QUOTED, .PARAM_STAR_ERROR, .PARAM_STAR_NOCHARSET, .PARAM_STAR_CHARSET, .BAD_Q_VALUE_accept_language, .ACCEPT_LANGUAGE_BAD_SYNTAX]) (accept_language.parse env add v) := by
  unfold accept_language.parse
  repeat' first | (with_reducible exact parseParams_own sameSubject rfl _ _ _ _) | own_step

theorem coding_parse_own (env v) : Emits (Of (some add.subject) [.PARAM_REPEATS, .PARAM_SINGLE_QUOTED, .PARAM_STAR_BAD, .PARAM_STAR_QUOTED, .PARAM_STAR_ERROR, .PARAM_STAR_NOCHARSET, .PARAM_STAR_CHARSET]) (codingParse env add v) := by
  unfold codingParse
  repeat' first | (with_reducible exact parseParams_own sameSubject rfl _ _ _ _) | own_step

theorem accept_patch_parse_own (env v) : Emits (Of (some add.subject) [.MEDIA_TYPE_LONG_NAME, .MEDIA_TYPE_BAD_NAME, .PARAM_REPEATS, .PARAM_SINGLE_QUOTED, .PARAM_STAR_BAD, .PARAM_STAR_QUOTED, .PARAM_STAR_ERROR, .PARAM_STAR_NOCHARSET, .PARAM_STAR_CHARSET, .ACCEPT_PATCH_BAD_SYNTAX]) (accept_patch.parse env add v) := by
  unfold accept_patch.parse
  repeat' first | (with_reducible exact parseMediaType_own sameSubject _ _ _ _ _ _ rfl rfl (mk_bad rfl)) | own_step

theorem accept_post_parse_own (env v) : Emits (Of (some add.subject) [.MEDIA_TYPE_LONG_NAME, .MEDIA_TYPE_BAD_NAME, .PARAM_REPEATS, .PARAM_SINGLE_QUOTED, .PARAM_STAR_BAD, .PARAM_STAR_QUOTED, .PARAM_STAR_ERROR, .PARAM_STAR_NOCHARSET, .PARAM_STAR_CHARSET, .ACCEPT_POST_BAD_SYNTAX]) (accept_post.parse env add v) := by
  unfold accept_post.parse
  repeat' first | (with_reducible exact parseMediaType_own sameSubject _ _ _ _ _ _ rfl rfl (mk_bad rfl)) | own_step

theorem content_type_parse_own (env v) : Emits (Of (some add.subject) [.MEDIA_TYPE_LONG_NAME, .MEDIA_TYPE_BAD_NAME, .PARAM_REPEATS, .PARAM_SINGLE_QUOTED, .PARAM_STAR_BAD, .PARAM_STAR_QUOTED, .PARAM_STAR_ERROR, .PARAM_STAR_NOCHARSET, .PARAM_STAR_CHARSET]) (content_type.parse env add v) := by
  unfold content_type.parse
  repeat' first | (with_reducible exact parseMediaType_own sameSubject _ _ _ _ _ _ rfl rfl mk_nobad) | own_step

theorem accept_ranges_parse_own (v) : Emits (Of (some add.subject) [.UNKNOWN_RANGE]) (accept_ranges.parse add v) := by
  unfold accept_ranges.parse
  repeat' first | own_step

theorem acac_parse_own (v) : Emits (Of (some add.subject) []) (access_control_allow_credentials.parse v) := by
  unfold access_control_allow_credentials.parse
  repeat' first | own_step

theorem acma_parse_own (v) : Emits (Of (some add.subject) [.CORS_MAX_AGE_INVALID, .CORS_MAX_AGE_NEGATIVE]) (access_control_max_age.parse add v) := by
  unfold access_control_max_age.parse
  repeat' first | own_step

theorem alt_svc_parse_own (v) : Emits (Of (some add.subject) []) (alt_svc.parse v) := by
  unfold alt_svc.parse
  repeat' first | own_step

theorem content_disposition_parse_own (env v) : Emits (Of (some add.subject) [.PARAM_REPEATS, .PARAM_SINGLE_QUOTED, .PARAM_STAR_BAD, .PARAM_STAR_QUOTED, .PARAM_STAR_ERROR, .PARAM_STAR_NOCHARSET, .PARAM_STAR_CHARSET, .DISPOSITION_UNKNOWN, .DISPOSITION_OMITS_FILENAME, .DISPOSITION_FILENAME_PERCENT, .DISPOSITION_FILENAME_PATH_CHAR]) (content_disposition.parse env add v) := by
  unfold content_disposition.parse
  repeat' first | (with_reducible exact parseParams_own sameSubject rfl _ _ _ _) | own_step

theorem content_encoding_parse_own (c v) : Emits (Of (some add.subject) [.ENCODING_UNWANTED]) (content_encoding.parse c add v) := by
  unfold content_encoding.parse
  repeat' first | own_step

theorem content_length_parse_own (v) : Emits (Of (some add.subject) [.CL_BAD_SYNTAX, .CL_TOO_LARGE]) (content_length.parse add v) := by
  unfold content_length.parse
  repeat' first | own_step

theorem content_range_parse_own (c v) : Emits (Of (some add.subject) [.CONTENT_RANGE_MEANINGLESS, .CONTENT_RANGE_MISSING_UNIT, .CONTENT_RANGE_MISSING_SLASH, .CONTENT_RANGE_INVALID_ASTERISK, .CONTENT_RANGE_UNKNOWN_LENGTH, .RANGE_INVALID_INTEGER, .RANGE_MISSING_HYPHEN, .CONTENT_RANGE_UNSATISFIED_BAD_SC, .RANGE_INVALID_content_range]) (content_range.parse c add v) := by
  unfold content_range.parse
  repeat' first | own_step | unfold content_range.checkStatus | unfold content_range.parseLength | unfold content_range.parseSpec | unfold intOrRaise

theorem date_parse_own (env v) : Emits (Of (some add.subject) [.BAD_DATE_SYNTAX, .DATE_OBSOLETE]) (date.parse env add v) := by
  unfold date.parse
  repeat' first | (with_reducible exact parseHttpDate_own sameSubject rfl _ _ _) | own_step

theorem expires_parse_own (env v) : Emits (Of (some add.subject) [.BAD_DATE_SYNTAX, .DATE_OBSOLETE]) (expires.parse env add v) := by
  unfold expires.parse
  repeat' first | (with_reducible exact parseHttpDate_own sameSubject rfl _ _ _) | own_step

theorem last_modified_parse_own (env v) : Emits (Of (some add.subject) [.BAD_DATE_SYNTAX, .DATE_OBSOLETE]) (last_modified.parse env add v) := by
  unfold last_modified.parse
  repeat' first | (with_reducible exact parseHttpDate_own sameSubject rfl _ _ _) | own_step

theorem sunset_parse_own (env v) : Emits (Of (some add.subject) [.BAD_DATE_SYNTAX, .DATE_OBSOLETE]) (sunset.parse env add v) := by
  unfold sunset.parse
  repeat' first | (with_reducible exact parseHttpDate_own sameSubject rfl _ _ _) | own_step

theorem etag_parse_own (v) : Emits (Of (some add.subject) []) (etag.parse v) := by
  unfold etag.parse
  repeat' first | own_step

theorem link_parse_own (c v) : Emits (Of (some add.subject) [.PARAM_REPEATS, .PARAM_SINGLE_QUOTED, .PARAM_STAR_BAD, .PARAM_STAR_QUOTED, .PARAM_STAR_ERROR, .PARAM_STAR_NOCHARSET, .PARAM_STAR_CHARSET, .LINK_REV, .LINK_BAD_ANCHOR, .LINK_BAD_TYPE]) (link.parse c add v) := by
  unfold link.parse
  repeat' first | (with_reducible exact parseParams_own sameSubject rfl _ _ _ _) | own_step

theorem location_parse_own (c v) : Emits (Of (some add.subject) [.LOCATION_UNDEFINED, .LOCATION_NOT_ABSOLUTE]) (location.parse c add v) := by
  unfold location.parse
  repeat' first | own_step

theorem origin_parse_own (v) : Emits (Of (some add.subject) [.ORIGIN_MULTIPLE_VALUES, .BAD_ORIGIN_SYNTAX]) (origin.parse add v) := by
  unfold origin.parse
  repeat' first | own_step

theorem range_parse_own (v) : Emits (Of (some add.subject) [.RANGE_BAD_SYNTAX, .RANGE_INVALID_range]) (range.parse add v) := by
  unfold range.parse
  repeat' first | own_step | unfold range.parseSpec | unfold range.parseEnd | unfold range.bad | unfold intOrRaise

theorem server_parse_own (v) : Emits (Of (some add.subject) [.SERVER_TOO_LONG]) (server.parse add v) := by
  unfold server.parse
  repeat' first | own_step

theorem server_timing_parse_own (c v) : Emits (Of (some add.subject) [.PARAM_REPEATS, .PARAM_SINGLE_QUOTED, .PARAM_STAR_BAD, .PARAM_STAR_QUOTED, .PARAM_STAR_ERROR, .PARAM_STAR_NOCHARSET, .PARAM_STAR_CHARSET]) (server_timing.parse c add v) := by
  unfold server_timing.parse
  repeat' first | (with_reducible exact parseParams_own sameSubject rfl _ _ _ _) | own_step

theorem tcn_parse_own (w v) : Emits (Of (some add.subject) [.UNNECESSARY_HEADER]) (tcn.parse add w v) := by
  unfold tcn.parse
  repeat' first | own_step

theorem transfer_encoding_parse_own (env v) : Emits (Of (some add.subject) [.PARAM_REPEATS, .PARAM_SINGLE_QUOTED, .PARAM_STAR_BAD, .PARAM_STAR_QUOTED, .PARAM_STAR_ERROR, .PARAM_STAR_NOCHARSET, .PARAM_STAR_CHARSET, .TRANSFER_CODING_PARAM]) (transfer_encoding.parse env add v) := by
  unfold transfer_encoding.parse
  repeat' first | (with_reducible exact parseParams_own sameSubject rfl _ _ _ _) | own_step

theorem unnecessary_parse_own (w) : Emits (Of (some add.subject) [.UNNECESSARY_HEADER]) (unnecessary.parse add w) := by
  unfold unnecessary.parse
  repeat' first | own_step

theorem cache_control_evaluate_own (c hd) : Emits (Of (some add.subject) [.CC_CONFLICTING, .CC_WRONG_MESSAGE, .CC_DUP, .CHECK_SINGLE, .CHECK_ALL_ZERO, .CHECK_POST_BIGGER, .CHECK_POST_ZERO, .CHECK_POST_PRE]) (cache_control.evaluate c add hd) := by
  unfold cache_control.evaluate
  repeat' first | own_step | unfold cache_control.checkDirective | unfold cache_control.checkPrePost

theorem accept_query_evaluate_own (c hd) : Emits (Of (some add.subject) [.MEDIA_TYPE_LONG_NAME, .MEDIA_TYPE_BAD_NAME, .ACCEPT_QUERY_BAD_SYNTAX, .ACCEPT_QUERY_BAD_TYPE]) (accept_query.evaluate c add hd) := by
  unfold accept_query.evaluate
  repeat' first | (with_reducible exact checkMediaType_own sameSubject _ _ _ _ _ rfl (mk_bad rfl)) | own_step | unfold accept_query.item

theorem acao_evaluate_own (c hd) : Emits (Of none [.CORS_ORIGIN_NULL, .CORS_ORIGIN_STAR, .CORS_ORIGIN_MATCH, .CORS_ORIGIN_MISMATCH]) (access_control_allow_origin.evaluate c add hd) := by
  unfold access_control_allow_origin.evaluate
  repeat' first | own_step | unfold checkAllowOrigin

theorem alt_svc_evaluate_own (hd) : Emits (Of (some add.subject) [.ALTSVC_CLEAR_LIST]) (alt_svc.evaluate add hd) := by
  unfold alt_svc.evaluate
  repeat' first | own_step

theorem available_dictionary_evaluate_own (hd) : Emits (Of (some add.subject) [.AVAILABLE_DICTIONARY_BAD_TYPE]) (available_dictionary.evaluate add hd) := by
  unfold available_dictionary.evaluate
  repeat' first | own_step

theorem cache_group_invalidation_evaluate_own (c hd) : Emits (Of (some add.subject) [.CACHE_GROUP_INVALIDATION_IGNORED, .CACHE_GROUP_INVALIDATION_BAD_TYPE]) (cache_group_invalidation.evaluate c add hd) := by
  unfold cache_group_invalidation.evaluate
  repeat' first | own_step | unfold badTypes

theorem cache_groups_evaluate_own (hd) : Emits (Of (some add.subject) [.CACHE_GROUPS_BAD_TYPE]) (cache_groups.evaluate add hd) := by
  unfold cache_groups.evaluate
  repeat' first | own_step | unfold badTypes

theorem cache_status_evaluate_own (c hd) : Emits (Of (some add.subject) [.CACHE_STATUS, .CACHE_STATUS_UNKNOWN_PARAM, .CACHE_STATUS_BAD_PARAM_VAL]) (cache_status.evaluate c add hd) := by
  unfold cache_status.evaluate
  repeat' first | (with_reducible exact checkSfParams_own sameSubject _ _ _ _ _ rfl rfl) | own_step | unfold statusList

theorem proxy_status_evaluate_own (c hd) : Emits (Of (some add.subject) [.PROXY_STATUS, .PROXY_STATUS_UNKNOWN_PARAM, .PROXY_STATUS_BAD_PARAM_VAL]) (proxy_status.evaluate c add hd) := by
  unfold proxy_status.evaluate
  repeat' first | (with_reducible exact checkSfParams_own sameSubject _ _ _ _ _ rfl rfl) | own_step | unfold statusList

theorem cdn_cache_control_evaluate_own (hd) : Emits (Of (some add.subject) [.CDN_CACHE_CONTROL_PRESENT, .BAD_CDN_CC_TYPE]) (cdn_cache_control.evaluate add hd) := by
  unfold cdn_cache_control.evaluate
  repeat' first | own_step | unfold cdn_cache_control.member

theorem clear_site_data_evaluate_own (hd) : Emits (Of (some add.subject) [.CSD_UNQUOTED, .CSD_EMPTY, .CSD_PRESENT]) (clear_site_data.evaluate add hd) := by
  unfold clear_site_data.evaluate
  repeat' first | own_step

theorem content_language_evaluate_own (hd) : Emits (Of (some add.subject) [.CONTENT_LANGUAGE_DUP]) (content_language.evaluate add hd) := by
  unfold content_language.evaluate
  repeat' first | own_step

theorem content_length_evaluate_own (c) : Emits (Of (some add.subject) [.CL_AND_TE_PRESENT]) (content_length.evaluate c add) := by
  unfold content_length.evaluate
  repeat' first | own_step

theorem corp_evaluate_own (hd) : Emits (Of (some add.subject) [.CORP_SAME_ORIGIN, .CORP_SAME_SITE, .CORP_CROSS_ORIGIN, .CROSS_ORIGIN_RESOURCE_POLICY_BAD_VALUE]) (corp.evaluate add hd) := by
  unfold corp.evaluate
  repeat' first | own_step

theorem date_evaluate_own (c hd) : Emits (Of none [.AGE_PENALTY, .DATE_INCORRECT, .DATE_CORRECT]) (date.evaluate c add hd) := by
  unfold date.evaluate
  repeat' first | own_step

theorem deprecation_evaluate_own (c hd) : Emits (Of (some add.subject) [.DEPRECATION_FUTURE, .DEPRECATION_PAST, .DEPRECATION_TRUE, .DEPRECATION_BAD_TYPE]) (deprecation.evaluate c add hd) := by
  unfold deprecation.evaluate
  repeat' first | own_step

theorem expect_evaluate_own (c hd) : Emits (Of (some add.subject) [.EXPECT_HTTP_1_0, .EXPECT_UNKNOWN]) (expect.evaluate c add hd) := by
  unfold expect.evaluate
  repeat' first | own_step

theorem last_modified_evaluate_own (c hd) : Emits (Of (some add.subject) [.LM_FUTURE, .LM_PRESENT]) (last_modified.evaluate c add hd) := by
  unfold last_modified.evaluate
  repeat' first | own_step

theorem link_evaluate_own (c hd) : Emits (Of (some add.subject) [.LINK_BAD_HINT_TARGET, .LINK_RESOURCE_HINTS]) (link.evaluate c add hd) := by
  unfold link.evaluate
  repeat' first | own_step

theorem max_forwards_evaluate_own (c hd) : Emits (Of (some add.subject) [.MAX_FORWARDS_IGNORED]) (max_forwards.evaluate c add hd) := by
  unfold max_forwards.evaluate
  repeat' first | own_step

theorem nel_evaluate_own (hd) : Emits (Of (some add.subject) [.NEL_BAD_STRUCTURE, .NEL_MISSING_KEY, .NEL_BAD_TYPE, .NEL_BAD_VALUE]) (nel.evaluate add hd) := by
  unfold nel.evaluate
  repeat' first | own_step | unfold nel.policy | unfold nel.member | unfold nel.fraction

theorem pragma_evaluate_own (hd) : Emits (Of (some add.subject) [.PRAGMA_OTHER]) (pragma.evaluate add hd) := by
  unfold pragma.evaluate
  repeat' first | own_step

theorem referer_evaluate_own (c hd) : Emits (Of (some add.subject) [.REFERER_SECURE_TO_INSECURE, .REFERER_SECURE_TO_DIFFERENT_ORIGIN]) (referer.evaluate c add hd) := by
  unfold referer.evaluate
  repeat' first | own_step

theorem referrer_policy_evaluate_own (hd) : Emits (Of (some add.subject) [.REFERRER_POLICY_UNKNOWN, .REFERRER_POLICY_EMPTY, .REFERRER_POLICY_MULTIPLE, .REFERRER_POLICY_UNSAFE, .REFERRER_POLICY_STRICT]) (referrer_policy.evaluate add hd) := by
  unfold referrer_policy.evaluate
  repeat' first | own_step

theorem report_to_evaluate_own (hd) : Emits (Of (some add.subject) [.REPORT_TO_BAD_STRUCTURE, .REPORT_TO_MISSING_KEY, .REPORT_TO_BAD_TYPE]) (report_to.evaluate add hd) := by
  unfold report_to.evaluate
  repeat' first | own_step | unfold report_to.endpoint

theorem reporting_endpoints_evaluate_own (c hd) : Emits (Of (some add.subject) [.ENDPOINT_NOT_SECURE, .BAD_REPORTING_ENDPOINT_SYNTAX]) (reporting_endpoints.evaluate c add hd) := by
  unfold reporting_endpoints.evaluate
  repeat' first | own_step

theorem server_timing_evaluate_own (hd) : Emits (Of (some add.subject) [.SERVER_TIMING_MISSING_DUR, .SERVER_TIMING_BAD_PARAM, .SERVER_TIMING_MISSING_DESC]) (server_timing.evaluate add hd) := by
  unfold server_timing.evaluate
  repeat' first | own_step

theorem speculation_rules_evaluate_own (c hd) : Emits (Of (some add.subject) [.SPECULATION_RULE_NOT_SECURE, .SPECULATION_RULES_BAD_TYPE]) (speculation_rules.evaluate c add hd) := by
  unfold speculation_rules.evaluate
  repeat' first | own_step

theorem sunset_evaluate_own (c hd) : Emits (Of (some add.subject) [.SUNSET_PAST]) (sunset.evaluate c add hd) := by
  unfold sunset.evaluate
  repeat' first | own_step

theorem transfer_encoding_evaluate_own (c hd) : Emits (Of (some add.subject) [.TRANSFER_CODING_UNWANTED, .TRANSFER_CODING_IDENTITY]) (transfer_encoding.evaluate c add hd) := by
  unfold transfer_encoding.evaluate
  repeat' first | own_step

theorem use_as_dictionary_evaluate_own (hd) : Emits (Of (some add.subject) [.USE_AS_DICTIONARY_BAD_TYPE, .USE_AS_DICTIONARY_BAD_MATCH_DEST]) (use_as_dictionary.evaluate add hd) := by
  unfold use_as_dictionary.evaluate
  repeat' first | own_step | unfold use_as_dictionary.member | unfold use_as_dictionary.checkType

theorem vary_evaluate_own (hd) : Emits (Of (some add.subject) [.VARY_DUPLICATE, .VARY_ASTERISK, .VARY_COMPLEX, .VARY_USER_AGENT, .VARY_HOST, .VARY_NEGOTIATE]) (vary.evaluate add hd) := by
  unfold vary.evaluate
  repeat' first | own_step

theorem via_evaluate_own (hd) : Emits (Of (some add.subject) [.VIA_PRESENT]) (via.evaluate add hd) := by
  unfold via.evaluate
  repeat' first | own_step

theorem xcto_evaluate_own (hd) : Emits (Of (some add.subject) [.CONTENT_TYPE_OPTIONS, .CONTENT_TYPE_OPTIONS_UNKNOWN]) (x_content_type_options.evaluate add hd) := by
  unfold x_content_type_options.evaluate
  repeat' first | own_step

theorem xfo_evaluate_own (hd) : Emits (Of (some add.subject) [.FRAME_OPTIONS_DENY, .FRAME_OPTIONS_SAMEORIGIN, .FRAME_OPTIONS_UNKNOWN]) (x_frame_options.evaluate add hd) := by
  unfold x_frame_options.evaluate
  repeat' first | own_step

theorem accept_ch_evaluate_own (hd) : Emits (Of (some add.subject) [.ACCEPT_CH_BAD_TYPE]) (accept_ch.evaluate add hd) := by
  unfold accept_ch.evaluate
  refine emits_bind (emits_lift _) fun items => ?_
  induction items with
  | nil => exact emits_pure _
  | cons i is ih => unfold accept_ch.evaluate.go; repeat' own_step


theorem tokenPolicy_table_own {table : List (Str × NoteId)} (h : subList (table.map (·.2)) L = true) : ∀ p ∈ table, L.contains p.2 = true := by
  intro p hp
  exact subList_mem h (by simpa using ⟨p.1, hp⟩)

theorem coep_own (ro hd) : Emits (Of (some add.subject) [.COEP_REQUIRE_CORP, .COEP_CREDENTIALLESS, .COEP_UNSAFE_NONE, .CROSS_ORIGIN_EMBEDDER_POLICY_BAD_VALUE]) (coep.evaluate add ro hd) :=
  tokenPolicy_own sameSubject _ _ _ _ (by decide) rfl
theorem coop_own (ro hd) : Emits (Of (some add.subject) [.COOP_SAME_ORIGIN, .COOP_SAME_ORIGIN_ALLOW_POPUPS, .COOP_UNSAFE_NONE, .CROSS_ORIGIN_OPENER_POLICY_BAD_VALUE]) (coop.evaluate add ro hd) :=
  tokenPolicy_own sameSubject _ _ _ _ (by decide) rfl
theorem coepRO_own (c hd) : Emits (Of (some add.subject) [.COEP_REPORT_ONLY_DUPLICATE, .COEP_REQUIRE_CORP, .COEP_CREDENTIALLESS, .COEP_UNSAFE_NONE, .CROSS_ORIGIN_EMBEDDER_POLICY_BAD_VALUE]) (coepRO.evaluate c add hd) := by
  unfold coepRO.evaluate coep.evaluate
  repeat' first | exact tokenPolicy_own sameSubject _ _ _ _ (by decide) rfl | own_step
theorem coopRO_own (c hd) : Emits (Of (some add.subject) [.COOP_REPORT_ONLY_DUPLICATE, .COOP_SAME_ORIGIN, .COOP_SAME_ORIGIN_ALLOW_POPUPS, .COOP_UNSAFE_NONE, .CROSS_ORIGIN_OPENER_POLICY_BAD_VALUE]) (coopRO.evaluate c add hd) := by
  unfold coopRO.evaluate coop.evaluate
  repeat' first | exact tokenPolicy_own sameSubject _ _ _ _ (by decide) rfl | own_step

theorem csp_evaluate_own (ro hd) : Emits (Of (some add.subject) [.CONTENT_SECURITY_POLICY]) (csp.evaluate add ro hd) := by
  unfold csp.evaluate
  repeat' own_step

theorem csp_parse_own (ro aux v) : Emits (Of (some add.subject) []) (csp.parse ro aux v).2 := by
  unfold csp.parse
  generalize csp.directives [] [] (splitOn 59 v) = p
  obtain ⟨d, dups⟩ := p
  exact emits_pure _

theorem hsts_parse_own (aux v) : Emits (Of (some add.subject) []) (hsts.parse aux v).2 := by
  unfold hsts.parse
  exact emits_pure _

theorem hsts_evaluate_own (c hd) : Emits (Of (some add.subject) [.HSTS_VALID, .HSTS_INVALID]) (hsts.evaluate c add hd) := by
  unfold hsts.evaluate
  split
  · exact emits_pure _
  · dsimp only
    refine own_addWith ?_ sameSubject
    split <;> rfl

theorem permissions_policy_own (c hd) : Emits (Of (some add.subject) [.PERMISSIONS_POLICY_PRESENT]) (permissions_policy.evaluate c add hd) := by
  unfold permissions_policy.evaluate
  split
  · exact emits_pure _
  · split
    · repeat' own_step
    · rename_i items _
      generalize permissions_policy.features c items = p
      obtain ⟨kids, err⟩ := p
      dsimp only
      repeat' own_step

theorem clear_site_data_parse_own (aux v) : Emits (Of (some add.subject) [.CSD_EMPTY, .CSD_UNKNOWN_VALUE]) (clear_site_data.parse add aux v).2 := by
  unfold clear_site_data.parse; repeat' own_step

/-- what `loose_parse` can add -/
def cookieNotes : List NoteId := [.SET_COOKIE_NO_NAME, .SET_COOKIE_TOO_LARGE, .SET_COOKIE_VALUE_TOO_LARGE, .SET_COOKIE_ATTRIBUTE_DUP, .SET_COOKIE_BAD_DATE, .SET_COOKIE_LIFETIME_TOO_LONG, .SET_COOKIE_EMPTY_MAX_AGE, .SET_COOKIE_LEADING_ZERO_MAX_AGE, .SET_COOKIE_NON_DIGIT_MAX_AGE, .SET_COOKIE_EMPTY_DOMAIN, .SET_COOKIE_UNKNOWN_ATTRIBUTE_VALUE, .SET_COOKIE_PRIORITY, .SET_COOKIE_VERSION, .SET_COOKIE_UNKNOWN_ATTRIBUTE, .SET_COOKIE_NOT_SECURE, .SET_COOKIE_PARTITIONED_NO_SECURE, .SET_COOKIE_PREFIX_SECURE_MISSING, .SET_COOKIE_PREFIX_HOST_BAD_PATH, .SET_COOKIE_PREFIX_HOST_BAD_DOMAIN]

theorem processCookieAttribute_own (n v cn at_ up t l) : Emits (Of (some add.subject) cookieNotes) (processCookieAttribute n v cn at_ up t add l) := by
  unfold processCookieAttribute; repeat' own_step

theorem cookieAttrLoop_own (cn up t avs) : ∀ seen at_ l, Emits (Of (some add.subject) cookieNotes) (cookieAttrLoop cn up t add avs seen at_ l) := by
  induction avs with
  | nil => intro _ _ _; exact emits_pure _
  | cons a avs ih =>
    intro seen at_ l
    unfold cookieAttrLoop
    repeat' first | (with_reducible exact ih _ _ _) | (with_reducible exact processCookieAttribute_own _ _ _ _ _ _ _) | own_step

theorem checkPrefixes_own (cn at_) : Emits (Of (some add.subject) cookieNotes) (checkPrefixes cn at_ add) := by
  unfold checkPrefixes; repeat' own_step

theorem looseParse_own (s up t) : Emits (Of (some add.subject) cookieNotes) (looseParse s up t add) := by
  unfold looseParse
  repeat' first | (with_reducible exact cookieAttrLoop_own _ _ _ _ _ _ _) | (with_reducible exact checkPrefixes_own _ _) | own_step

/-- what `evaluate` of `Set-Cookie` finds in its `aux` notes -/
def AuxOwn (f : FieldId) (a : Aux) : Prop := ∀ n ∈ a.notes, f = .set_cookie_ ∧ cookieNotes.contains n.cls = true

theorem set_cookie_parse_own (c aux v) : Emits (Of (some add.subject) []) (set_cookie.parse c add aux v).2 := by
  unfold set_cookie.parse
  split
  · exact emits_throw _
  · intro n hn; simp at hn

theorem set_cookie_parse_aux (c aux v) (ha : AuxOwn .set_cookie_ aux) : AuxOwn .set_cookie_ (set_cookie.parse c add aux v).1 := by
  unfold set_cookie.parse
  split
  · exact ha
  · intro n hn
    simp only [List.mem_append] at hn
    rcases hn with hn | hn
    · exact ha n hn
    · exact ⟨rfl, (looseParse_own _ _ _ n hn).cls⟩

theorem set_cookie_evaluate_own (hd) (ha : AuxOwn .set_cookie_ hd.aux) : Emits (Of none (evalOwn .set_cookie_)) (set_cookie.evaluate add hd) := by
  have h1 : ∀ n ∈ hd.aux.notes, Of none (evalOwn .set_cookie_) n := fun n hn => ⟨subList_mem (by rfl) (ha n hn).2, by intro x h; cases h⟩
  unfold set_cookie.evaluate
  repeat' first | own_step | exact h1

theorem own_mono {α} {L L' : List NoteId} {w : W α} (h : Emits (Of s L) w) (hs : subList L L' = true) : Emits (Of s L') w :=
  fun n hn => ⟨subList_mem hs (h n hn).cls, (h n hn).subject⟩

/-- **`parse`** adds only notes of the classes listed for the field class -/
theorem Handler.parse_own (c : Ctx) (h : Handler) (v : Str) : Emits (Of (some add.subject) (parseOwn h.fid)) (h.parse c add v).2 := by
  unfold Handler.parse
  split <;> rename_i hf
  · rw [hf]; exact own_mono (accept_parse_own _ _) rfl
  · rw [hf]; exact own_mono (coding_parse_own _ _) rfl
  · rw [hf]; exact own_mono (accept_language_parse_own _ _) rfl
  · rw [hf]; exact own_mono (accept_patch_parse_own _ _) rfl
  · rw [hf]; exact own_mono (accept_post_parse_own _ _) rfl
  · rw [hf]; exact own_mono (accept_ranges_parse_own _) rfl
  · rw [hf]; exact own_mono (acac_parse_own _) rfl
  · exact own_mono (emits_pure _ : Emits (Of _ []) _) rfl
  · rw [hf]; exact own_mono (acma_parse_own _) rfl
  · exact own_mono (emits_pure _ : Emits (Of _ []) _) rfl
  · rw [hf]; exact own_mono (age_parse_own _) rfl
  · rw [hf]; exact own_mono (alt_svc_parse_own _) rfl
  · rw [hf]; exact own_mono (cache_control_parse_own _) rfl
  · rw [hf]; exact own_mono (clear_site_data_parse_own _ _) rfl
  · rw [hf]; exact own_mono (content_disposition_parse_own _ _) rfl
  · rw [hf]; exact own_mono (content_encoding_parse_own _ _) rfl
  · exact own_mono (emits_pure _ : Emits (Of _ []) _) rfl
  · rw [hf]; exact own_mono (content_length_parse_own _) rfl
  · rw [hf]; exact own_mono (content_range_parse_own _ _) rfl
  · rw [hf]; exact own_mono (csp_parse_own _ _ _) rfl
  · rw [hf]; exact own_mono (csp_parse_own _ _ _) rfl
  · rw [hf]; exact own_mono (content_type_parse_own _ _) rfl
  · exact own_mono (emits_pure _ : Emits (Of _ []) _) rfl
  · rw [hf]; exact own_mono (date_parse_own _ _) rfl
  · rw [hf]; exact own_mono (etag_parse_own _) rfl
  · rw [hf]; exact own_mono (expires_parse_own _ _) rfl
  · exact own_mono (emits_pure _ : Emits (Of _ []) _) rfl
  · rw [hf]; exact own_mono (last_modified_parse_own _ _) rfl
  · rw [hf]; exact own_mono (link_parse_own _ _) rfl
  · rw [hf]; exact own_mono (location_parse_own _ _) rfl
  · rw [hf]; exact own_mono (origin_parse_own _) rfl
  · exact own_mono (emits_pure _ : Emits (Of _ []) _) rfl
  · rw [hf]; exact own_mono (range_parse_own _) rfl
  · exact own_mono (emits_pure _ : Emits (Of _ []) _) rfl
  · rw [hf]; exact own_mono (server_parse_own _) rfl
  · rw [hf]; exact own_mono (server_timing_parse_own _ _) rfl
  · rw [hf]; exact own_mono (set_cookie_parse_own _ _ _) rfl
  · rw [hf]; exact own_mono (hsts_parse_own _ _) rfl
  · rw [hf]; exact own_mono (sunset_parse_own _ _) rfl
  · rw [hf]; exact own_mono (tcn_parse_own _ _) rfl
  · rw [hf]; exact own_mono (coding_parse_own _ _) rfl
  · rw [hf]; exact own_mono (transfer_encoding_parse_own _ _) rfl
  · exact own_mono (emits_pure _ : Emits (Of _ []) _) rfl
  · exact own_mono (emits_pure _ : Emits (Of _ []) _) rfl
  · exact own_mono (emits_pure _ : Emits (Of _ []) _) rfl
  · rw [hf]; exact own_mono (unnecessary_parse_own _) rfl
  · exact emits_pure _

/-- all of it about the field, except for `Date`, `Set-Cookie` and `Access-Control-Allow-Origin` -/
theorem Handler.evaluate_here (c : Ctx) (h : Handler) (hd : h.fid ≠ .date_) (hs : h.fid ≠ .set_cookie_)
    (hc : h.fid ≠ .access_control_allow_origin_) :
    Emits (Of (some add.subject) (evalOwn h.fid)) (h.evaluate c add).2 := by
  have assign : ∀ {L} (w : W Val), Emits (Of (some add.subject) L) w → Emits (Of (some add.subject) L) (h.assign w).2 := by
    intro L w hw
    unfold Handler.assign
    split <;> exact hw
  have vals : ∀ {L} (w : W (List Val)), Emits (Of (some add.subject) L) w → Emits (Of (some add.subject) L) (h.appendVals w).2 := by
    intro L w hw
    unfold Handler.appendVals
    split <;> exact hw
  unfold Handler.evaluate
  split <;> rename_i hf
  · rw [hf]; exact own_mono (accept_ch_evaluate_own _) rfl
  · rw [hf]; exact assign _ (own_mono (accept_query_evaluate_own _ _) rfl)
  · exact absurd hf hc
  · rw [hf]; exact own_mono (alt_svc_evaluate_own _) rfl
  · rw [hf]; exact own_mono (available_dictionary_evaluate_own _) rfl
  · rw [hf]; exact own_mono (cache_control_evaluate_own _ _) rfl
  · rw [hf]; exact own_mono (cache_group_invalidation_evaluate_own _ _) rfl
  · rw [hf]; exact own_mono (cache_groups_evaluate_own _) rfl
  · rw [hf]; exact own_mono (cache_status_evaluate_own _ _) rfl
  · rw [hf]; exact own_mono (cdn_cache_control_evaluate_own _) rfl
  · rw [hf]; exact own_mono (clear_site_data_evaluate_own _) rfl
  · rw [hf]; exact own_mono (content_language_evaluate_own _) rfl
  · rw [hf]; exact own_mono (content_length_evaluate_own _) rfl
  · rw [hf]; exact own_mono (csp_evaluate_own _ _) rfl
  · rw [hf]; exact own_mono (csp_evaluate_own _ _) rfl
  · rw [hf]; exact own_mono (coep_own _ _) rfl
  · rw [hf]; exact own_mono (coepRO_own _ _) rfl
  · rw [hf]; exact own_mono (coop_own _ _) rfl
  · rw [hf]; exact own_mono (coopRO_own _ _) rfl
  · rw [hf]; exact own_mono (corp_evaluate_own _) rfl
  · exact absurd hf hd
  · rw [hf]; exact own_mono (deprecation_evaluate_own _ _) rfl
  · rw [hf]; exact own_mono (expect_evaluate_own _ _) rfl
  · rw [hf]; exact own_mono (last_modified_evaluate_own _ _) rfl
  · rw [hf]; exact own_mono (link_evaluate_own _ _) rfl
  · rw [hf]; exact own_mono (max_forwards_evaluate_own _ h) rfl
  · rw [hf]; exact vals _ (own_mono (nel_evaluate_own _) rfl)
  · rw [hf]; exact own_mono (permissions_policy_own _ _) rfl
  · rw [hf]; exact own_mono (pragma_evaluate_own _) rfl
  · rw [hf]; exact own_mono (proxy_status_evaluate_own _ _) rfl
  · rw [hf]; exact own_mono (referer_evaluate_own _ _) rfl
  · rw [hf]; exact own_mono (referrer_policy_evaluate_own _) rfl
  · rw [hf]; exact own_mono (report_to_evaluate_own _) rfl
  · rw [hf]; exact own_mono (reporting_endpoints_evaluate_own _ _) rfl
  · rw [hf]; exact own_mono (server_timing_evaluate_own _) rfl
  · exact absurd hf hs
  · rw [hf]; exact own_mono (speculation_rules_evaluate_own _ _) rfl
  · rw [hf]; exact own_mono (hsts_evaluate_own _ _) rfl
  · rw [hf]; exact own_mono (sunset_evaluate_own _ _) rfl
  · rw [hf]; exact own_mono (transfer_encoding_evaluate_own _ _) rfl
  · rw [hf]; exact own_mono (use_as_dictionary_evaluate_own _) rfl
  · rw [hf]; exact assign _ (own_mono (vary_evaluate_own _) rfl)
  · rw [hf]; exact own_mono (via_evaluate_own _) rfl
  · rw [hf]; exact own_mono (xcto_evaluate_own _) rfl
  · rw [hf]; exact own_mono (xfo_evaluate_own _) rfl
  · exact emits_pure _

theorem own_weak {α} {L : List NoteId} {w : W α} (h : Emits (Of s L) w) : Emits (Of none L) w :=
  fun n hn => ⟨(h n hn).cls, by intro x h; cases h⟩

/-- **`evaluate`** adds only notes of the classes listed for the field class -/
theorem Handler.evaluate_own (c : Ctx) (h : Handler) (ha : AuxOwn h.fid h.aux) : Emits (Of none (evalOwn h.fid)) (h.evaluate c add).2 := by
  by_cases hd : h.fid = .date_
  · unfold Handler.evaluate
    rw [hd]
    exact own_mono (date_evaluate_own _ _) rfl
  · by_cases hs : h.fid = .set_cookie_
    · rw [hs] at ha
      unfold Handler.evaluate
      rw [hs]
      exact set_cookie_evaluate_own _ ha
    · by_cases hc : h.fid = .access_control_allow_origin_
      · unfold Handler.evaluate
        rw [hc]
        exact own_mono (acao_evaluate_own _ _) rfl
      · exact own_weak (Handler.evaluate_here c h hd hs hc)

end HL.Props
