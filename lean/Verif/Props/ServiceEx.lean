import Verif.Props.StructuredThm
import Verif.Props.ParamEx
/-! Non-vacuity of C84–C88, and a link whose target is cut short (C86). -/
namespace HL.Props
open HL

/-- a bare Item, for the examples: `"text"`, `@date`, `:bytes:`, a number, `?0`, `?1` or a token -/
def toyBare : Str → Val
  | 34 :: s => .str s.dropLast
  | 64 :: s => .date ((s.foldl (fun a c => 10 * a + (c - 48)) 0 : Nat) : Int)
  | 58 :: s => .bytes s.dropLast
  | [63, 48] => .bool false
  | [63, 49] => .bool true
  | s => if s ≠ [] ∧ (s.all fun c => decide (48 ≤ c) && decide (c ≤ 57)) then .int ((s.foldl (fun a c => 10 * a + (c - 48)) 0 : Nat) : Int) else .token s

/-- a bare Item with parameters, separated by semicolons -/
def toyItem (s : Str) : Val × Val :=
  match splitOn 59 s with
  | [] => (.token [], .dict [])
  | b :: ps => (toyBare b, Val.ofDict (ps.map fun p => match split1 61 p with | some (k, v) => (k, toyBare v) | none => (p, .bool true)))

/-- Structured Fields whose members are separated by white space (and commas), and a URL parser that finds the scheme -/
def structEnv : Env := { toyEnv with
  sfParse := fun ty s =>
    let ws := words (s.map fun c => if c = 44 then 32 else c)
    if ty = str "item" then (if ws.length = 1 then let p := toyItem s; .ok (.tuple [p.1, p.2]) [] else .error [] [])
    else if ty = str "list" then .ok (ofMembers (ws.map toyItem)) []
    else .ok (ofEntries (ws.map fun w => match split1 61 w with | some (k, v) => (k, toyItem v) | none => (w, .bool true, .dict []))) []
  urlsplit := fun s => .ok ⟨match split1 58 s with | some (a, _) => a | none => [], [], s, [], []⟩ }

theorem structEnv_items : ItemShape structEnv := by
  intro s v dups h
  unfold structEnv at h
  dsimp only at h
  rw [if_pos rfl] at h
  split at h
  · injection h with h1 h2; exact ⟨_, _, h1.symm⟩
  · exact nomatch h

theorem structEnv_lists : ListShape structEnv := by
  intro s v dups h
  unfold structEnv at h
  dsimp only at h
  rw [if_neg (by decide), if_pos rfl] at h
  injection h with h1 h2
  exact ⟨_, h1.symm⟩

theorem structEnv_dicts : DictShape structEnv := by
  intro s v dups h
  unfold structEnv at h
  dsimp only at h
  rw [if_neg (by decide), if_neg (by decide)] at h
  injection h with h1 h2
  exact ⟨_, h1.symm⟩

theorem structEnv_schemes (base s : Str) : ∃ sch, schemeOf structEnv base s = some sch := ⟨_, rfl⟩

/-- C84 -/
example : outcome toyEnv [(str "Server-Timing", str "db;dur=1.5;desc=x, b"), (str "server-timing", str "c;desc=y;dur=z")] =
    (true, [(.SERVER_TIMING_MISSING_DUR, str "field-server-timing", []), (.SERVER_TIMING_MISSING_DESC, str "field-server-timing", []),
      (.SERVER_TIMING_BAD_PARAM, str "field-server-timing", [])]) := by decide +kernel

/-- C85 -/
example : outcome toyEnv [(str "Alt-Svc", str "clear, h2=" ++ [34] ++ str ":443" ++ [34])] =
    (true, [(.ALTSVC_CLEAR_LIST, str "field-alt-svc", [])]) := by decide +kernel

/-- C86 -/
example : outcome structEnv [(str "Link", str "</x>; rel=preload, <ftp:y>; rel=preconnect; rev=made, </z>; type=foo; anchor=/b")] =
    (true, [(.LINK_REV, str "offset-0", []), (.BAD_SYNTAX_DETAILED, str "offset-0", []), (.LINK_BAD_TYPE, str "offset-0", []), (.LINK_BAD_HINT_TARGET, str "field-link", []), (.LINK_RESOURCE_HINTS, str "field-link", [])]) := by decide +kernel

/-- a semicolon in the target of a link cuts it short: `</a;b>` is taken to link to `/`, and `b>` to be a parameter -/
theorem C86_semicolon : linkTarget (str "</a;b>; rel=preload") = str "/" := by decide

/-- C87: a request that accepts `br` -/
def acceptingRequest : Msg := (processSection toyEnv none false [(str "Accept-Encoding", str "br;q=0.5, GZip")] (fresh toyEnv .request none false false)).1

example : (processSection toyEnv none false [(str "Accept-Encoding", str "br;q=0.5, GZip")] (fresh toyEnv .request none false false)).2 = .ok () ∧
    codingsOf [(str "Accept-Encoding", str "br;q=0.5, GZip")] (str "accept-encoding") = [str "br", str "gzip"] ∧
    (processSection toyEnv (some acceptingRequest) false [(str "Content-Encoding", str "Br, foo"), (str "content-encoding", str "gzip")] (fresh toyEnv .response none false false)).1.notes.map
      (fun x => (x.cls, x.subject, dget x.vars (str "coding"))) = [(.ENCODING_UNWANTED, str "offset-0", some (.str (str "foo")))] := by
  refine ⟨by decide +kernel, by decide +kernel, by decide +kernel⟩

/-- C88 -/
example : outcome structEnv [(str "Reporting-Endpoints", str "a=\"https://x/\", b=\"HTTP://y/\", c=d"), (str "Speculation-Rules", str "\"/r\", 5, \"ftp:x\"")] =
    (true, [(.ENDPOINT_NOT_SECURE, str "field-reporting-endpoints", []), (.BAD_REPORTING_ENDPOINT_SYNTAX, str "field-reporting-endpoints", []),
      (.SPECULATION_RULES_BAD_TYPE, str "field-speculation-rules", []), (.SPECULATION_RULE_NOT_SECURE, str "field-speculation-rules", [])]) := by decide +kernel

end HL.Props
