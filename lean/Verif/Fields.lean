import Verif.Fields.Caching
import Verif.Fields.Negotiation
import Verif.Fields.Cors
import Verif.Fields.Security
import Verif.Fields.Cookies
import Verif.Fields.Reporting
import Verif.Fields.Misc

/-! # Method dispatch: `self.parse`, `self.evaluate`, `self.post_check` for each field class -/

namespace HL

/-- run a `parse` that keeps no scratch state -/
def Handler.noAux (h : Handler) (w : W Val) : Aux × W Val := (h.aux, w)

/-- `self.parse(field_value, add_note)` (field/parsers/*.py; classes without a `parse` of their own inherit
the identity, list_field.py:15-20, singleton_field.py:20-25, broken_field.py:20-23).  Returns the handler's
scratch attributes and the value. -/
def Handler.parse (c : Ctx) (add : AddNote) (h : Handler) (v : Str) : Aux × W Val :=
  match h.fid with
  | .accept_ => h.noAux (F.accept.parse c.env add v)
  | .accept_encoding_ => h.noAux (F.codingParse c.env add v)
  | .accept_language_ => h.noAux (F.accept_language.parse c.env add v)
  | .accept_patch_ => h.noAux (F.accept_patch.parse c.env add v)
  | .accept_post_ => h.noAux (F.accept_post.parse c.env add v)
  | .accept_ranges_ => h.noAux (F.accept_ranges.parse add v)
  | .access_control_allow_credentials_ => h.noAux (F.access_control_allow_credentials.parse v)
  | .access_control_allow_headers_ => h.noAux (F.lowerParse v)
  | .access_control_max_age_ => h.noAux (F.access_control_max_age.parse add v)
  | .access_control_request_headers_ => h.noAux (F.lowerParse v)
  | .age_ => h.noAux (F.age.parse add v)
  | .alt_svc_ => h.noAux (F.alt_svc.parse v)
  | .cache_control_ => h.noAux (F.cache_control.parse add v)
  | .clear_site_data_ => F.clear_site_data.parse add h.aux v
  | .content_disposition_ => h.noAux (F.content_disposition.parse c.env add v)
  | .content_encoding_ => h.noAux (F.content_encoding.parse c add v)
  | .content_language_ => h.noAux (F.lowerParse v)
  | .content_length_ => h.noAux (F.content_length.parse add v)
  | .content_range_ => h.noAux (F.content_range.parse c add v)
  | .content_security_policy_ => F.csp.parse {} h.aux v
  | .content_security_policy_report_only_ => F.csp.parse F.cspReportOnly h.aux v
  | .content_type_ => h.noAux (F.content_type.parse c.env add v)
  | .cookie_ => h.noAux (pure (F.cookie.parse v))
  | .date_ => h.noAux (F.date.parse c.env add v)
  | .etag_ => h.noAux (F.etag.parse v)
  | .expires_ => h.noAux (F.expires.parse c.env add v)
  | .keep_alive_ => h.noAux (pure (F.keep_alive.parse v))
  | .last_modified_ => h.noAux (F.last_modified.parse c.env add v)
  | .link_ => h.noAux (F.link.parse c add v)
  | .location_ => h.noAux (F.location.parse c add v)
  | .origin_ => h.noAux (F.origin.parse add v)
  | .pragma_ => h.noAux (F.pragma.parse v)
  | .range_ => h.noAux (F.range.parse add v)
  | .referrer_policy_ => h.noAux (F.lowerParse v)
  | .server_ => h.noAux (F.server.parse add v)
  | .server_timing_ => h.noAux (F.server_timing.parse c add v)
  | .set_cookie_ => F.set_cookie.parse c add h.aux v
  | .strict_transport_security_ => F.hsts.parse h.aux v
  | .sunset_ => h.noAux (F.sunset.parse c.env add v)
  | .tcn_ => h.noAux (F.tcn.parse add h.wireName v)
  | .te_ => h.noAux (F.codingParse c.env add v)
  | .transfer_encoding_ => h.noAux (F.transfer_encoding.parse c.env add v)
  | .vary_ => h.noAux (F.vary.parse v)
  | .x_frame_options_ => h.noAux (F.x_frame_options.parse v)
  | .deprecatedField => h.noAux (pure .none)
  | .unnecessaryField => h.noAux (F.unnecessary.parse add h.wireName)
  | _ => h.noAux (pure (.str v))

/-- run an `evaluate` that changes nothing -/
def Handler.keep (h : Handler) (w : W Unit) : Handler × W Unit := (h, w)

/-- run an `evaluate` that assigns `self.value` -/
def Handler.assign (h : Handler) (w : W Val) : Handler × W Unit :=
  match w.res with
  | .ok v => ({ h with value := v }, ⟨w.notes, .ok ()⟩)
  | .error e => (h, ⟨w.notes, .error e⟩)

/-- run NEL's `evaluate`: `_clean_policies` grows (on an exception the partial growth is not modelled; the
only reader is `post_check`, which does not run then) -/
def Handler.appendVals (h : Handler) (w : W (List Val)) : Handler × W Unit :=
  match w.res with
  | .ok vs => ({ h with aux := { h.aux with vals := h.aux.vals ++ vs } }, ⟨w.notes, .ok ()⟩)
  | .error e => (h, ⟨w.notes, .error e⟩)

/-- `self.evaluate(add_note)` (field/parsers/*.py; classes without one do nothing, field/__init__.py:110-114) -/
def Handler.evaluate (c : Ctx) (add : AddNote) (h : Handler) : Handler × W Unit :=
  match h.fid with
  | .accept_ch_ => h.keep (F.accept_ch.evaluate add h)
  | .accept_query_ => h.assign (F.accept_query.evaluate c add h)
  | .access_control_allow_origin_ => h.keep (F.access_control_allow_origin.evaluate c add h)
  | .alt_svc_ => h.keep (F.alt_svc.evaluate add h)
  | .available_dictionary_ => h.keep (F.available_dictionary.evaluate add h)
  | .cache_control_ => h.keep (F.cache_control.evaluate c add h)
  | .cache_group_invalidation_ => h.keep (F.cache_group_invalidation.evaluate c add h)
  | .cache_groups_ => h.keep (F.cache_groups.evaluate add h)
  | .cache_status_ => h.keep (F.cache_status.evaluate c add h)
  | .cdn_cache_control_ => h.keep (F.cdn_cache_control.evaluate add h)
  | .clear_site_data_ => h.keep (F.clear_site_data.evaluate add h)
  | .content_language_ => h.keep (F.content_language.evaluate add h)
  | .content_length_ => h.keep (F.content_length.evaluate c add)
  | .content_security_policy_ => h.keep (F.csp.evaluate add {} h)
  | .content_security_policy_report_only_ => h.keep (F.csp.evaluate add F.cspReportOnly h)
  | .cross_origin_embedder_policy_ => h.keep (F.coep.evaluate add {} h)
  | .cross_origin_embedder_policy_report_only_ => h.keep (F.coepRO.evaluate c add h)
  | .cross_origin_opener_policy_ => h.keep (F.coop.evaluate add {} h)
  | .cross_origin_opener_policy_report_only_ => h.keep (F.coopRO.evaluate c add h)
  | .cross_origin_resource_policy_ => h.keep (F.corp.evaluate add h)
  | .date_ => h.keep (F.date.evaluate c add h)
  | .deprecation_ => h.keep (F.deprecation.evaluate c add h)
  | .expect_ => h.keep (F.expect.evaluate c add h)
  | .last_modified_ => h.keep (F.last_modified.evaluate c add h)
  | .link_ => h.keep (F.link.evaluate c add h)
  | .max_forwards_ => h.keep (F.max_forwards.evaluate c add h)
  | .nel_ => h.appendVals (F.nel.evaluate add h)
  | .permissions_policy_ => h.keep (F.permissions_policy.evaluate c add h)
  | .pragma_ => h.keep (F.pragma.evaluate add h)
  | .proxy_status_ => h.keep (F.proxy_status.evaluate c add h)
  | .referer_ => h.keep (F.referer.evaluate c add h)
  | .referrer_policy_ => h.keep (F.referrer_policy.evaluate add h)
  | .report_to_ => h.keep (F.report_to.evaluate add h)
  | .reporting_endpoints_ => h.keep (F.reporting_endpoints.evaluate c add h)
  | .server_timing_ => h.keep (F.server_timing.evaluate add h)
  | .set_cookie_ => h.keep (F.set_cookie.evaluate add h)
  | .speculation_rules_ => h.keep (F.speculation_rules.evaluate c add h)
  | .strict_transport_security_ => h.keep (F.hsts.evaluate c add h)
  | .sunset_ => h.keep (F.sunset.evaluate c add h)
  | .transfer_encoding_ => h.keep (F.transfer_encoding.evaluate c add h)
  | .use_as_dictionary_ => h.keep (F.use_as_dictionary.evaluate add h)
  | .vary_ => h.assign (F.vary.evaluate add h)
  | .via_ => h.keep (F.via.evaluate add h)
  | .x_content_type_options_ => h.keep (F.x_content_type_options.evaluate add h)
  | .x_frame_options_ => h.keep (F.x_frame_options.evaluate add h)
  | _ => (h, pure ())

/-- notes appended at the end -/
def appendW (notes : List Note) (w : W Unit) : List Note × Except Exn Unit := (notes ++ w.notes, w.res)

/-- `self.post_check(add_note)` on the message's list of notes (field/__init__.py:116-119 does nothing) -/
def Handler.postCheck (c : Ctx) (add : AddNote) (h : Handler) (notes : List Note) :
    List Note × Except Exn Unit :=
  match h.fid with
  | .accept_ch_ => appendW notes (F.accept_ch.postCheck c add h)
  | .available_dictionary_ => appendW notes (F.available_dictionary.postCheck c add)
  | .content_encoding_ => appendW notes (F.content_encoding.postCheck c add)
  | .content_security_policy_ => F.csp.postCheck c add {} h notes
  | .content_security_policy_report_only_ => F.csp.postCheck c add F.cspReportOnly h notes
  | .cross_origin_embedder_policy_ =>
    appendW notes (F.tokenPolicyPostCheck c add {} .COEP_REPORT_TO_MISSING h)
  | .cross_origin_embedder_policy_report_only_ =>
    appendW notes (F.tokenPolicyPostCheck c add F.coxpReportOnly .COEP_REPORT_TO_MISSING h)
  | .cross_origin_opener_policy_ =>
    appendW notes (F.tokenPolicyPostCheck c add {} .COOP_REPORT_TO_MISSING h)
  | .cross_origin_opener_policy_report_only_ =>
    appendW notes (F.tokenPolicyPostCheck c add F.coxpReportOnly .COOP_REPORT_TO_MISSING h)
  | .nel_ => appendW notes (F.nel.postCheck c add h)
  | _ => (notes, .ok ())

end HL
