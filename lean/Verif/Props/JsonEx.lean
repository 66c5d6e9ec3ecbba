import Verif.Props.JsonThm
import Verif.Props.ServiceEx
/-! Non-vacuity of C95–C98. -/
namespace HL.Props
open HL

/-- C95: a description, an unknown parameter and a value that isn't right -/
example : outcome structEnv [(str "Cache-Status", str "a;hit, b;fwd=miss;foo=1;ttl=x")] =
    (true, [(.CACHE_STATUS_UNKNOWN_PARAM, str "field-cache-status", []), (.CACHE_STATUS_BAD_PARAM_VAL, str "field-cache-status", []), (.CACHE_STATUS, str "field-cache-status", [])]) ∧
    outcome structEnv [(str "Proxy-Status", str "p;error=dns_timeout;next-hop=5")] =
    (true, [(.PROXY_STATUS_BAD_PARAM_VAL, str "field-proxy-status", []), (.PROXY_STATUS, str "field-proxy-status", [])]) := ⟨by decide +kernel, by decide +kernel⟩

/-- how they are described -/
example : (processSection structEnv none false [(str "Cache-Status", str "a;hit;ttl=5;fwd=stale;key=\"k\";foo=1")] (fresh structEnv .response none false false)).1.notes.filterMap
      (fun x => if x.cls = .CACHE_STATUS then dget x.vars (str "status") else none) =
    [.str (str "**a**:\n* The response was served from the cache.\n* The response's remaining time-to-live was 5 seconds.\n* The cache contained a stale response.\n* The cache key was `k`.\n* `foo`: `1`")] := by decide +kernel

/-- a cache that says `hit=?0` isn't described: `evaluate` raises (F46) -/
example : (outcome structEnv [(str "Cache-Status", str "a;hit=?0")]).1 = false := by decide +kernel

/-- Structured Fields with inner lists, for the example -/
def innerEnv : Env := { structEnv with
  sfParse := fun ty s => if ty = str "dictionary" then .ok (ofEntries [
      (str "camera", .token (str "*"), .dict []), (str "fullscreen", .token (str "*"), .dict []), (str "usb", .bool true, .dict []),
      (str "payment", .list [.tuple [.token (str "self"), .dict []], .tuple [.str (str "self"), .dict []], .tuple [.token (str "foo"), .dict []], .tuple [.int 5, .dict []], .tuple [.str (str "https://a"), .dict []]], .dict [])]) []
    else .error [] [] }

theorem innerEnv_dicts : DictShape innerEnv := by
  intro s v dups h
  injection h with h1 h2
  exact ⟨_, h1.symm⟩

/-- C96 -/
example : outcome innerEnv [(str "Permissions-Policy", str "x")] =
    (true, [(.PERMISSIONS_POLICY_PRESENT, str "field-permissions-policy", [.PERMISSIONS_POLICY_WILDCARD, .PERMISSIONS_POLICY_INVALID_VALUE,
      .PERMISSIONS_POLICY_QUOTED_KEYWORD, .PERMISSIONS_POLICY_UNKNOWN_TOKEN, .PERMISSIONS_POLICY_INVALID_ITEM_TYPE])]) := by decide +kernel

/-- some JSON, for the examples -/
def jsonEnv : Env := { structEnv with
  jsonLoads := fun s => if s = str "[bad]" then .decodeError [] else .ok (.list [
    Val.ofDict [(str "report_to", .str (str "a")), (str "max_age", .int 5), (str "success_fraction", .num (1/2)), (str "endpoints", .list [Val.ofDict [(str "url", .str (str "/"))], .int 3, Val.ofDict []])],
    Val.ofDict [(str "report_to", .int 1), (str "failure_fraction", .int 2), (str "success_fraction", .num 2), (str "include_subdomains", .none), (str "endpoints", .none)], .int 7]) }

theorem jsonEnv_json : JsonShape jsonEnv := by
  intro s v h
  unfold jsonEnv at h
  dsimp only at h
  split at h
  · exact nomatch h
  · injection h with h; exact ⟨_, h.symm⟩

/-- C97 -/
example : outcome jsonEnv [(str "NEL", str "x")] =
    (true, [(.NEL_BAD_TYPE, str "field-nel", []), (.NEL_MISSING_KEY, str "field-nel", []), (.NEL_BAD_TYPE, str "field-nel", []), (.NEL_BAD_VALUE, str "field-nel", []), (.NEL_BAD_VALUE, str "field-nel", []),
      (.NEL_BAD_STRUCTURE, str "field-nel", [])]) ∧
    (outcome jsonEnv [(str "Report-To", str "x")]).2.map (·.1) =
    [.FIELD_DEPRECATED, .REPORT_TO_BAD_STRUCTURE, .REPORT_TO_MISSING_KEY, .REPORT_TO_MISSING_KEY, .REPORT_TO_BAD_TYPE, .REPORT_TO_BAD_STRUCTURE] := ⟨by decide +kernel, by decide +kernel⟩

/-- C98 -/
example : outcome structEnv [(str "Accept-Query", str "text/plain, \"a/*\", \"*/b\", 5, \"a\"")] =
    (true, [(.ACCEPT_QUERY_BAD_SYNTAX, str "field-accept-query", []), (.ACCEPT_QUERY_BAD_TYPE, str "field-accept-query", []), (.ACCEPT_QUERY_BAD_SYNTAX, str "field-accept-query", [])]) := by decide +kernel

end HL.Props
