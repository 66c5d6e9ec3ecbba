import Verif.Props.ParamNotes
import Verif.Props.PostThm
import Verif.Props.CspThm

/-!
# What is recorded of each field (C118, C119)

`headers.parsed` (and `trailers.parsed`) hold, for each name, what the code that uses httplint reads.  C118 is on fields
without parameters, C119 on those whose elements have parameters.  (Numbers: C54; dates: C52; Cache-Control: C56; Vary: C57;
HSTS: C58; Set-Cookie: C59; Range and Content-Range: C63; Origin and Access-Control-Max-Age: C92; Content-Type: C116.)
-/

namespace HL.Props
open HL.F Syntax

section
variable {env : Env} {related : Option Msg} {t : Bool} {ls : List Line} {m m' : Msg}

/-! ### generalities -/

theorem Processed.list_of (P : Processed env related t ls m m') (hu : Unpadded ls) {f : FieldId} (hk : f.info.kind = .list) (hf : f ≠ .vary_) (hv : f.validIn m.kind = true)
    (g : Str → Val) (hg : ∀ x, parseText ⟨env, m, related⟩ f x = .ok (g x)) {n : Str} (hn : n ∈ namesFor f ls) :
    dget (m'.section t).parsed n = some (.list ((elementsOf ls n).map g)) := by
  rw [P.recorded hu (f := f) (by intro e; subst e; exact nomatch hk) hv (fun v => ?_) hn, valueOf_list hk g hg]
  · unfold elementsOf
    rw [List.map_map]
    rfl
  · unfold evaluated
    split
    · exact absurd rfl hf
    · exact nomatch hk
    · rfl

theorem Processed.single_of (P : Processed env related t ls m m') (hu : Unpadded ls) {f : FieldId} (hk : f.info.kind = .singleton) (hv : f.validIn m.kind = true)
    {g : Val} {n : Str} (hg : parseText ⟨env, m, related⟩ f (textOf ls n) = .ok g) (hn : n ∈ namesFor f ls) :
    dget (m'.section t).parsed n = some g := by
  rw [P.singleton hu hk (by intro e; subst e; exact nomatch hk) hn hv, hg]
  rfl

/-! ### fields recorded as they are sent -/

/-- the lists whose elements are recorded as they are -/
def listsAsSent : List FieldId := [.access_control_allow_methods_, .access_control_expose_headers_, .allow_, .authentication_info_, .connection_, .expect_, .if_match_,
  .if_none_match_, .proxy_authenticate_, .proxy_authentication_info_, .server_, .set_cookie2_, .tcn_, .trailer_, .upgrade_, .via_, .warning_, .www_authenticate_,
  .x_cache_, .x_cache_lookup_, .x_content_type_options_]

/-- the lists whose elements are recorded in lower case -/
def listsLowered : List FieldId := [.accept_ranges_, .access_control_allow_headers_, .access_control_request_headers_, .content_encoding_, .content_language_, .pragma_, .referrer_policy_]

/-- the fields with one value that is recorded as it is -/
def textsAsSent : List FieldId := [.access_control_, .access_control_allow_origin_, .access_control_request_method_, .authorization_, .connectiox_, .content_base_,
  .content_location_, .content_md5_, .content_transfer_encoding_, .cross_origin_resource_policy_, .cteonnt_length_, .from_field_, .host_, .if_modified_since_, .if_range_,
  .if_unmodified_since_, .max_forwards_, .mime_version_, .p3p_, .proxy_authorization_, .referer_, .retry_after_, .soapaction_, .user_agent_, .x_pad_]

/-- **C118** (lists) each element is recorded, in order, as it was sent -/
theorem C118_lists (P : Processed env related t ls m m') (hu : Unpadded ls) {f : FieldId} (hf : f ∈ listsAsSent) (hv : f.validIn m.kind = true) {n : Str}
    (hn : n ∈ namesFor f ls) : dget (m'.section t).parsed n = some (.list ((elementsOf ls n).map .str)) := by
  have hk : ∀ f ∈ listsAsSent, f.info.kind = .list ∧ f ≠ .vary_ := by decide
  refine P.list_of hu (hk f hf).1 (hk f hf).2 hv _ (fun x => ?_) hn
  have hs : (server.parse ⟨[], [], []⟩ x).res = .ok (.str x) := by
    unfold server.parse
    rw [W.bind_ok when_res]
    rfl
  simp only [listsAsSent, List.mem_cons, List.not_mem_nil, or_false] at hf
  rcases hf with rfl | rfl | rfl | rfl | rfl | rfl | rfl | rfl | rfl | rfl | rfl | rfl | rfl | rfl | rfl | rfl | rfl | rfl | rfl | rfl | rfl
  all_goals first
    | exact hs
    | rfl

/-- **C118** (one value) the text of the first line is recorded -/
theorem C118_texts (P : Processed env related t ls m m') (hu : Unpadded ls) {f : FieldId} (hf : f ∈ textsAsSent) (hv : f.validIn m.kind = true) {n : Str}
    (hn : n ∈ namesFor f ls) : dget (m'.section t).parsed n = some (.str (textOf ls n)) := by
  have hk : ∀ f ∈ textsAsSent, f.info.kind = .singleton := by decide
  refine P.single_of hu (hk f hf) hv ?_ hn
  simp only [textsAsSent, List.mem_cons, List.not_mem_nil, or_false] at hf
  rcases hf with rfl | rfl | rfl | rfl | rfl | rfl | rfl | rfl | rfl | rfl | rfl | rfl | rfl | rfl | rfl | rfl | rfl | rfl | rfl | rfl | rfl | rfl | rfl | rfl | rfl <;> rfl

/-- what a processed section's parsers did not complain about with an exception other than `ValueError` -/
theorem Processed.value_errors (P : Processed env related t ls m m') {f : FieldId} (hk : f.info.kind = .list) (hv : f.validIn m.kind = true) {n : Str}
    (hn : n ∈ namesFor f ls) {x : Str} (hx : x ∈ (valuesOf ls n).flatMap splitListField) {e : Exn} (he : parseText ⟨env, m, related⟩ f (strip x) = .error e) :
    e.isValueError = true := by
  have hc := (mem_namesFor.1 hn).2
  have h1 := P.ok
  unfold processSection at h1
  split at h1
  · simp at h1
  · rename_i m2 heq
    have hcl := processLines_clean (P.linting.ready t) (Ext.refl t m) heq
    obtain ⟨v, hv', hx⟩ := List.mem_flatMap.1 hx
    unfold valuesOf at hv'
    obtain ⟨l, hl, rfl⟩ := List.mem_map.1 hv'
    obtain ⟨hl, hln⟩ := List.mem_filter.1 hl
    have hnm : lineKey l.1 = n := beq_iff_eq.1 hln
    have hcc : classOf (decodeName l.1) = f := by
      rw [← hc, ← hnm]; exact classOf_lower (lower_lower _).symm
    have hce := hcl l hl (by
      unfold accepted
      rw [hcc, hv, Bool.true_and]
      cases ht : isToken (strip (decodeName l.1)) with
      | true => rfl
      | false => rw [classOf_notToken ht] at hcc; rw [← hcc] at hk; exact nomatch hk) (by rw [hcc]; exact hk)
    rw [hcc] at hce
    exact hce x hx e he

/-- **C118** (lists of words) each element is recorded, in order, in lower case -/
theorem C118_lowered (P : Processed env related t ls m m') (hu : Unpadded ls) {f : FieldId} (hf : f ∈ listsLowered) (hv : f.validIn m.kind = true) {n : Str}
    (hn : n ∈ namesFor f ls) : dget (m'.section t).parsed n = some (.list ((elementsOf ls n).map fun e => .str (lower e))) := by
  by_cases hce : f = .content_encoding_
  · subst hce
    rw [P.recorded hu (f := .content_encoding_) (by decide) hv (fun _ => rfl) hn]
    have hok : ∀ x ∈ (valuesOf ls n).flatMap splitListField, parseText ⟨env, m, related⟩ .content_encoding_ (strip x) = .ok (.str (lower (strip x))) := by
      intro x hx
      rcases contentEncoding_res ⟨env, m, related⟩ (strip x) with h | ⟨e, h, h'⟩
      · exact h
      · rw [P.value_errors rfl hv hn hx h] at h'; exact nomatch h'
    unfold valueOf lineValue
    show some (Val.list _) = _
    congr 2
    unfold elementsOf
    rw [List.map_map]
    generalize (valuesOf ls n).flatMap splitListField = xs at hok
    induction xs with
    | nil => rfl
    | cons x xs ih =>
      rw [List.filterMap_cons, hok x (by simp)]
      exact congrArg _ (ih fun y hy => hok y (by simp [hy]))
  · have hk : ∀ f ∈ listsLowered, f.info.kind = .list ∧ f ≠ .vary_ := by decide
    refine P.list_of hu (hk f hf).1 (hk f hf).2 hv _ (fun x => ?_) hn
    have hs : (accept_ranges.parse ⟨[], [], []⟩ x).res = .ok (.str (lower x)) := by
      unfold accept_ranges.parse
      dsimp only
      rw [W.bind_ok when_res]
      rfl
    simp only [listsLowered, List.mem_cons, List.not_mem_nil, or_false] at hf
    rcases hf with rfl | rfl | rfl | rfl | rfl | rfl | rfl
    all_goals first
      | exact absurd rfl hce
      | exact hs
      | rfl

/-! ### fields with a form of their own -/

/-- **C118** `ETag`: whether it is weak, and the tag without its quotation marks -/
theorem C118_etag (P : Processed env related t ls m m') (hu : Unpadded ls) (hv : FieldId.validIn .etag_ m.kind = true) {n : Str} (hn : n ∈ namesFor .etag_ ls) :
    (∀ tag, textOf ls n = str "\"" ++ tag ++ str "\"" → 34 ∉ tag → 92 ∉ tag → dget (m'.section t).parsed n = some (.tuple [.bool false, .str tag])) ∧
    (∀ tag, textOf ls n = str "W/\"" ++ tag ++ str "\"" → 34 ∉ tag → 92 ∉ tag → dget (m'.section t).parsed n = some (.tuple [.bool true, .str tag])) ∧
    dget (m'.section t).parsed n = some (if startsWith (str "W/") (textOf ls n) then .tuple [.bool true, .str (unquoteString ((textOf ls n).drop 2))]
      else .tuple [.bool false, .str (unquoteString (textOf ls n))]) := by
  have key : dget (m'.section t).parsed n = some (if startsWith (str "W/") (textOf ls n) then .tuple [.bool true, .str (unquoteString ((textOf ls n).drop 2))]
      else .tuple [.bool false, .str (unquoteString (textOf ls n))]) := by
    refine P.single_of hu rfl hv ?_ hn
    show (etag.parse _).res = _
    unfold etag.parse
    split
    · rename_i r h; rw [h]; rfl
    · rename_i h
      rw [if_neg]
      · rfl
      · intro hs
        match hh : textOf ls n, hs with
        | [], hs => exact nomatch hs
        | [a], hs => simp [startsWith] at hs
        | a :: b :: r, hs =>
          simp [startsWith] at hs
          exact h r (by rw [hh, ← hs.1, ← hs.2])
  have hq : ∀ tag : Str, 34 ∉ tag → 92 ∉ tag → unquoteString (34 :: tag ++ [34]) = tag := by
    intro tag h1 h2
    have : quote tag = tag := by
      unfold quote
      induction tag with
      | nil => rfl
      | cons c tag ih =>
        rw [List.flatMap_cons, if_neg (by simp at h1 h2; omega), ih (by simp_all) (by simp_all)]
        rfl
    have h := C49_roundtrip tag
    rwa [this] at h
  refine ⟨fun tag h h1 h2 => ?_, fun tag h h1 h2 => ?_, key⟩
  · rw [key, h, if_neg (by simp [startsWith])]
    exact congrArg (fun x => some (Val.tuple [.bool false, .str x])) (hq tag h1 h2)
  · rw [key, h, if_pos (by simp [startsWith])]
    exact congrArg (fun x => some (Val.tuple [.bool true, .str x])) (hq tag h1 h2)

/-- **C118** `X-Frame-Options`: the text, in upper case -/
theorem C118_frame_options (P : Processed env related t ls m m') (hu : Unpadded ls) (hv : FieldId.validIn .x_frame_options_ m.kind = true) {n : Str}
    (hn : n ∈ namesFor .x_frame_options_ ls) : dget (m'.section t).parsed n = some (.str (upper (textOf ls n))) :=
  P.single_of hu rfl hv rfl hn

/-- **C118** `Access-Control-Allow-Credentials`: `true`, exactly so, or nothing -/
theorem C118_credentials (P : Processed env related t ls m m') (hu : Unpadded ls) (hv : FieldId.validIn .access_control_allow_credentials_ m.kind = true) {n : Str}
    (hn : n ∈ namesFor .access_control_allow_credentials_ ls) :
    dget (m'.section t).parsed n = some (if textOf ls n = str "true" then .str (str "true") else .none) := by
  rw [P.singleton hu rfl (by decide) hn hv]
  show some (((access_control_allow_credentials.parse (textOf ls n)).res).toOption.getD Val.none) = _
  unfold access_control_allow_credentials.parse
  split <;> rfl

/-- **C118** `Alt-Svc`: the elements that are `clear` or have a `=` -/
theorem C118_alt_svc (P : Processed env related t ls m m') (hu : Unpadded ls) (hv : FieldId.validIn .alt_svc_ m.kind = true) {n : Str}
    (hn : n ∈ namesFor .alt_svc_ ls) :
    dget (m'.section t).parsed n = some (.list (((elementsOf ls n).filter fun e => e == str "clear" || e.contains 61).map .str)) := by
  rw [P.recorded hu (f := .alt_svc_) (by decide) hv (fun _ => rfl) hn]
  unfold valueOf lineValue
  show some (Val.list _) = _
  congr 2
  unfold elementsOf
  generalize (valuesOf ls n).flatMap splitListField = xs
  induction xs with
  | nil => rfl
  | cons x xs ih =>
    rw [List.filterMap_cons, List.map_cons, List.filter_cons, ih]
    have hp : parseText ⟨env, m, related⟩ .alt_svc_ (strip x) = (alt_svc.parse (strip x)).res := rfl
    rw [hp]
    unfold alt_svc.parse
    by_cases h1 : strip x = str "clear"
    · rw [if_pos h1, h1]; rfl
    · rw [if_neg h1, show (strip x == str "clear") = false from beq_eq_false_iff_ne.2 h1]
      cases (strip x).contains 61 <;> rfl

/-- **C118** `Keep-Alive`: name in lower case and value, without quotation marks, of each element -/
theorem C118_keep_alive (P : Processed env related t ls m m') (hu : Unpadded ls) (hv : FieldId.validIn .keep_alive_ m.kind = true) {n : Str}
    (hn : n ∈ namesFor .keep_alive_ ls) :
    dget (m'.section t).parsed n = some (.list ((elementsOf ls n).map fun e =>
      .tuple [.str (lower (beforeC 61 e)), if 61 ∈ e then .str (unquoteString (afterC 61 e)) else .none])) := by
  refine P.list_of hu rfl (by decide) hv _ (fun x => ?_) hn
  show Except.ok (keep_alive.parse x) = _
  unfold keep_alive.parse
  rw [split1_eq]
  by_cases h : 61 ∈ x
  · rw [if_pos h, if_pos h]; rfl
  · rw [if_neg h, if_neg h]
    have : beforeC 61 x = x := by
      unfold beforeC; exact takeWhile_none h
    rw [this]

/-- **C118** `Clear-Site-Data`: each element, without its quotation marks if it has them -/
theorem C118_clear_site_data (P : Processed env related t ls m m') (hu : Unpadded ls) (hv : FieldId.validIn .clear_site_data_ m.kind = true) {n : Str}
    (hn : n ∈ namesFor .clear_site_data_ ls) :
    dget (m'.section t).parsed n = some (.list ((elementsOf ls n).map fun e => .str ((between? e).getD e))) := by
  refine P.list_of hu rfl (by decide) hv _ (fun x => ?_) hn
  have hb : (if (decide (x.length ≥ 2) && x.head? == some 34 && x.getLast? == some 34) = true then (x.drop 1).dropLast else x) = (between? x).getD x := by
    unfold between?
    by_cases h : 2 ≤ x.length ∧ x.head? = some 34 ∧ x.getLast? = some 34
    · rw [if_pos h, if_pos (by simpa [and_assoc] using h)]; rfl
    · rw [if_neg h, if_neg (by simpa [and_assoc] using h)]; rfl
  show ((clear_site_data.parse ⟨[], [], []⟩ _ x).2).res = _
  unfold clear_site_data.parse
  dsimp only
  rw [hb]
  split
  · rfl
  · rw [W.bind_ok when_res]; rfl

/-- **C118** `Content-Security-Policy` and `-Report-Only`: for each policy the directives in force, by name in lower case -/
theorem C118_csp (P : Processed env related t ls m m') (hu : Unpadded ls) {f : FieldId} (hf : f ∈ [FieldId.content_security_policy_, .content_security_policy_report_only_])
    (hv : f.validIn m.kind = true) {n : Str} (hn : n ∈ namesFor f ls) :
    dget (m'.section t).parsed n = some (.list ((elementsOf ls n).map fun e => Val.ofDict ((inForce (cspDirectives e)).map fun d => (d.1, .str d.2)))) := by
  simp only [List.mem_cons, List.not_mem_nil, or_false] at hf
  rcases hf with rfl | rfl
  all_goals
    refine P.list_of hu rfl (by decide) hv _ (fun x => ?_) hn
    show ((csp.parse _ _ x).2).res = _
    rw [csp_parse_eq]
    rfl

/-- **C118** `Location`: the text.  (A reference that `urljoin` refuses is not recorded; any other exception of it would be raised.) -/
theorem C118_location (P : Processed env related t ls m m') (hu : Unpadded ls) (hv : FieldId.validIn .location_ m.kind = true) {n : Str}
    (hn : n ∈ namesFor .location_ ls) :
    dget (m'.section t).parsed n = some (if rfc3986.URI.spaced false (textOf ls n) || (env.urljoin m.baseUri (textOf ls n)).toOption.isSome then .str (textOf ls n) else .none) := by
  rw [P.singleton hu rfl (by decide) hn hv]
  show some (((location.parse ⟨env, m, related⟩ ⟨[], [], []⟩ (textOf ls n)).res).toOption.getD Val.none) = _
  unfold location.parse
  rw [W.bind_ok when_res]
  cases h : rfc3986.URI.spaced false (textOf ls n) with
  | true => rfl
  | false => cases hj : env.urljoin m.baseUri (textOf ls n) <;> rfl

/-! ### elements with parameters -/

/-- the parameters of a text as a dictionary: by name in lower case, in the order in which the names appear, each with the last value given -/
def paramDict (env : Env) (ns : NoStar) (s : Str) : Dict Val := (paramsOf env ns s).foldl (fun d p => dset d p.1 (.str p.2)) []

theorem params_res (env : Env) (add : AddNote) (s : Str) (ns : NoStar) : (parseParams env add s ns).res = .ok (paramDict env ns s) := by
  obtain ⟨e, hps⟩ := pieces_split _ (pieces_are s (delimRE 59))
  have hl := loop_does env add ns _ [] [] hps rfl
  rw [← e, List.nil_append] at hl
  exact hl.res

/-- each parameter has the last value given to its name -/
theorem C119_params (env : Env) (ns : NoStar) (s k : Str) : dget (paramDict env ns s) k = (paramOf env ns s k).map .str := by
  obtain ⟨d, hd, hg, _⟩ := params_heard env ⟨[], [], []⟩ s ns [] (by simp)
  have := hd.res
  rw [params_res] at this
  injection this with this
  rw [this]
  exact hg k

theorem parseMedia_res (env : Env) (add : AddNote) (v : Str) (b : Option NoteId) (r : Option Str) (wild : Bool) (ns : NoStar) :
    (parseMediaType env add v b r wild ns).res = .ok (lower (strip (beforeC 59 v)), paramDict env ns (afterC 59 v)) := by
  rw [parseMedia_eq, W.bind_ok (media_res ..)]
  show (parseParams env add (afterC 59 v) ns >>= _ : W _).res = _
  rw [W.bind_ok (params_res ..)]
  rfl

/-- the parameters of `Link` that have no extended form -/
def linkPlain : NoStar := .names [str "rel", str "rev", str "anchor", str "hreflang", str "type", str "media"]

/-- the lists whose elements are recorded as a pair: how the part before the first `;` is, and which parameters have no extended form -/
def pairLists : List (FieldId × (Str → Str) × NoStar) :=
  [(.accept_encoding_, lower, .names [str "q"]), (.te_, lower, .names [str "q"]), (.transfer_encoding_, lower, .all),
   (.accept_patch_, fun h => lower (strip h), .none), (.accept_post_, fun h => lower (strip h), .none),
   (.server_timing_, strip, .names [str "desc"]), (.link_, fun h => ((strip h).drop 1).dropLast, linkPlain)]

/-- **C119** (pairs) of each element are recorded what comes before the first `;` (in lower case; of a link, what is between
the first and the last character) and the parameters -/
theorem C119_pairs (P : Processed env related t ls m m') (hu : Unpadded ls) {f : FieldId} {head : Str → Str} {ns : NoStar} (hf : (f, head, ns) ∈ pairLists)
    (hv : f.validIn m.kind = true) {n : Str} (hn : n ∈ namesFor f ls) :
    dget (m'.section t).parsed n = some (.list ((elementsOf ls n).map fun e =>
      .tuple [.str (head (beforeC 59 e)), Val.ofDict (paramDict env ns (afterC 59 e))])) := by
  have hcoding : ∀ v ns, (do
      let d ← parseParams env ⟨[], [], []⟩ (afterC 59 v) ns
      return Val.tuple [.str (lower (beforeC 59 v)), Val.ofDict d] : W Val).res = .ok (.tuple [.str (lower (beforeC 59 v)), Val.ofDict (paramDict env ns (afterC 59 v))]) := by
    intro v ns
    rw [W.bind_ok (params_res ..)]
    rfl
  simp only [pairLists, List.mem_cons, List.not_mem_nil, or_false, Prod.mk.injEq] at hf
  rcases hf with ⟨rfl, rfl, rfl⟩ | ⟨rfl, rfl, rfl⟩ | ⟨rfl, rfl, rfl⟩ | ⟨rfl, rfl, rfl⟩ | ⟨rfl, rfl, rfl⟩ | ⟨rfl, rfl, rfl⟩ | ⟨rfl, rfl, rfl⟩
  all_goals refine P.list_of hu rfl (by decide) hv _ (fun v => ?_) hn
  · show (codingParse env ⟨[], [], []⟩ v).res = _
    unfold codingParse
    rw [splitSemi_eq]
    exact hcoding v _
  · show (codingParse env ⟨[], [], []⟩ v).res = _
    unfold codingParse
    rw [splitSemi_eq]
    exact hcoding v _
  · show (transfer_encoding.parse env ⟨[], [], []⟩ v).res = _
    unfold transfer_encoding.parse
    rw [splitSemi_eq]
    dsimp only
    rw [W.bind_ok (params_res ..)]
    dsimp only
    rw [W.bind_ok when_res]
    rfl
  · show (accept_patch.parse env ⟨[], [], []⟩ v).res = _
    unfold accept_patch.parse
    rw [W.bind_ok (parseMedia_res ..)]
    rfl
  · show (accept_post.parse env ⟨[], [], []⟩ v).res = _
    unfold accept_post.parse
    rw [W.bind_ok (parseMedia_res ..)]
    rfl
  · show (server_timing.parse ⟨env, m, related⟩ ⟨[], [], []⟩ v).res = _
    unfold server_timing.parse
    rw [splitSemi_eq]
    dsimp only
    rw [W.bind_ok (params_res ..)]
    rfl
  · show (link.parse ⟨env, m, related⟩ ⟨[], [], []⟩ v).res = _
    unfold link.parse
    rw [splitSemi_eq]
    dsimp only
    rw [W.bind_ok (params_res ..)]
    have hg := C119_params env linkPlain (afterC 59 v) (str "rev")
    generalize paramOf env linkPlain (afterC 59 v) (str "rev") = w at hg
    unfold linkPlain at hg ⊢
    generalize paramDict env _ (afterC 59 v) = d at hg ⊢
    dsimp only
    cases w with
    | none =>
      rw [show dget d (str "rev") = none from hg]
      dsimp only
      cases nonEmptyParam d (str "anchor") <;> cases nonEmptyParam d (str "type") <;> dsimp only
      · rfl
      · rw [W.bind_ok when_res]; rfl
      · rw [W.bind_ok when_res]; rfl
      · rw [W.bind_ok when_res]; dsimp only; rw [W.bind_ok when_res]; rfl
    | some r =>
      rw [show dget d (str "rev") = some (.str r) from hg]
      dsimp only
      rw [W.bind_ok (show (W.lift (env.render.toStr (.str r))).res = .ok r from rfl)]
      dsimp only
      rw [W.bind_ok (a := ()) rfl]
      cases nonEmptyParam d (str "anchor") <;> cases nonEmptyParam d (str "type") <;> dsimp only
      · rfl
      · rw [W.bind_ok when_res]; rfl
      · rw [W.bind_ok when_res]; rfl
      · rw [W.bind_ok when_res]; dsimp only; rw [W.bind_ok when_res]; rfl

/-- **C119** `Content-Disposition`: the disposition in lower case and the parameters -/
theorem C119_disposition (P : Processed env related t ls m m') (hu : Unpadded ls) (hv : FieldId.validIn .content_disposition_ m.kind = true) {n : Str}
    (hn : n ∈ namesFor .content_disposition_ ls) :
    dget (m'.section t).parsed n = some (.tuple [.str (lower (beforeC 59 (textOf ls n))), Val.ofDict (paramDict env .none (afterC 59 (textOf ls n)))]) := by
  refine P.single_of hu rfl hv ?_ hn
  show (content_disposition.parse env ⟨[], [], []⟩ (textOf ls n)).res = _
  unfold content_disposition.parse
  rw [splitSemi_eq]
  dsimp only
  rw [W.bind_ok (params_res ..)]
  dsimp only
  rw [W.bind_ok when_res]
  dsimp only
  rw [W.bind_ok when_res]
  dsimp only
  rw [W.bind_ok when_res]
  dsimp only
  rw [W.bind_ok when_res]
  rfl

/-! ### weights -/

/-- the weight of an element of `Accept` or `Accept-Language`: the number its last `q` stands for, if it is given in at most five characters and is
between 0 and 1 -/
def weightNumber (env : Env) (e : Str) : Option Rat :=
  match weightOf env e with
  | some s => if s.length ≤ 5 then (match pyFloat s with | some q => if 0 ≤ q ∧ q ≤ 1 then some q else none | none => none) else none
  | none => none

/-- a weight as it is recorded -/
def numberVal : Option Rat → Val
  | some q => .num q
  | none => .none

theorem qValue_weight (s : Str) : qValue (.str s) = (if s.length ≤ 5 then (match pyFloat s with | some q => if 0 ≤ q ∧ q ≤ 1 then some q else none | none => none) else none) := by
  unfold qValue
  dsimp only
  by_cases h : s.length ≤ 5
  · rw [if_pos h, if_neg (by omega)]
    cases pyFloat s <;> rfl
  · rw [if_neg h, if_pos (by omega)]

/-- **C119** `Accept`: the media range in lower case, its parameters but for the weight, and the weight -/
theorem C119_accept (P : Processed env related t ls m m') (hu : Unpadded ls) (hv : FieldId.validIn .accept_ m.kind = true) {n : Str} (hn : n ∈ namesFor .accept_ ls) :
    dget (m'.section t).parsed n = some (.list ((elementsOf ls n).map fun e =>
      .tuple [.str (lower (strip (beforeC 59 e))), Val.ofDict ((paramDict env (.names [str "q"]) (afterC 59 e)).filter fun p => p.1 != str "q"), numberVal (weightNumber env e)])) := by
  refine P.list_of hu rfl (by decide) hv _ (fun v => ?_) hn
  show (accept.parse env ⟨[], [], []⟩ v).res = _
  unfold accept.parse
  rw [W.bind_ok (parseMedia_res ..)]
  dsimp only
  have hg := C119_params env (.names [str "q"]) (afterC 59 v) (str "q")
  unfold weightNumber weightOf
  cases hq : paramOf env (.names [str "q"]) (afterC 59 v) (str "q") with
  | none =>
    rw [hq] at hg
    rw [show dget (paramDict env (.names [str "q"]) (afterC 59 v)) (str "q") = none from hg]
    have hnf : (paramDict env (.names [str "q"]) (afterC 59 v)).filter (fun p => p.1 != str "q") = paramDict env (.names [str "q"]) (afterC 59 v) := by
      rw [List.filter_eq_self]
      intro p hp
      have := dget_eq_none.1 hg
      rw [bne_iff_ne]
      intro e
      exact this (List.mem_map.2 ⟨p, hp, e⟩)
    rw [hnf]
    rfl
  | some s =>
    rw [hq] at hg
    rw [show dget (paramDict env (.names [str "q"]) (afterC 59 v)) (str "q") = some (.str s) from hg]
    dsimp only
    rw [← qValue_weight]
    cases qValue (.str s) <;> rfl

/-- **C119** `Accept-Language`: the language range in lower case and the weight -/
theorem C119_accept_language (P : Processed env related t ls m m') (hu : Unpadded ls) (hv : FieldId.validIn .accept_language_ m.kind = true) {n : Str}
    (hn : n ∈ namesFor .accept_language_ ls) :
    dget (m'.section t).parsed n = some (.list ((elementsOf ls n).map fun e => .tuple [.str (lower (beforeC 59 e)), numberVal (weightNumber env e)])) := by
  refine P.list_of hu rfl (by decide) hv _ (fun v => ?_) hn
  show (accept_language.parse env ⟨[], [], []⟩ v).res = _
  unfold accept_language.parse
  rw [splitSemi_eq]
  dsimp only
  rw [W.bind_ok (params_res ..)]
  dsimp only
  have hg := C119_params env (.names [str "q"]) (afterC 59 v) (str "q")
  unfold weightNumber weightOf
  cases hq : paramOf env (.names [str "q"]) (afterC 59 v) (str "q") with
  | none =>
    rw [hq] at hg
    rw [show dget (paramDict env (.names [str "q"]) (afterC 59 v)) (str "q") = none from hg]
    rw [W.bind_ok (show (pure none : W (Option Rat)).res = .ok none from rfl)]
    dsimp only
    rw [W.bind_ok when_res]
    rfl
  | some s =>
    rw [hq] at hg
    rw [show dget (paramDict env (.names [str "q"]) (afterC 59 v)) (str "q") = some (.str s) from hg]
    dsimp only
    rw [← qValue_weight]
    cases qValue (.str s) with
    | some q =>
      dsimp only
      rw [W.bind_ok (show (pure (some q) : W (Option Rat)).res = .ok (some q) from rfl)]
      dsimp only
      rw [W.bind_ok when_res]
      rfl
    | none =>
      dsimp only
      rw [W.bind_ok (a := none) rfl]
      dsimp only
      rw [W.bind_ok when_res]
      rfl

theorem numbers1 : ∀ a, a < 10 → qValue (.str [48, 46, 48 + a]) = some ((a : Rat) / 10) := by decide +kernel

theorem numbers2 : ∀ a, a < 10 → ∀ b, b < 10 → qValue (.str [48, 46, 48 + a, 48 + b]) = some (((10 * a + b : Nat) : Rat) / 100) := by decide +kernel

theorem numbers3 : ∀ a, a < 10 → ∀ b, b < 10 → ∀ c, c < 10 → qValue (.str [48, 46, 48 + a, 48 + b, 48 + c]) = some (((100 * a + 10 * b + c : Nat) : Rat) / 1000) := by decide +kernel

theorem numbers0 : ∀ l ∈ [str "1.", str "1.0", str "1.00", str "1.000", str "1"], qValue (.str l) = some 1 := by decide +kernel

theorem weight_number {e s : Str} (h : weightOf env e = some s) : weightNumber env e = qValue (.str s) := by
  unfold weightNumber
  rw [h, qValue_weight]

/-- **C119** (weights) a weight that RFC 9110 allows is recorded as the number it stands for: one half is `.5`, not a text -/
theorem C119_weights (env : Env) (e : Str) :
    (∀ a : Nat, a < 10 → weightOf env e = some (str "0." ++ [48 + a]) → weightNumber env e = some ((a : Rat) / 10)) ∧
    (∀ a b : Nat, a < 10 → b < 10 → weightOf env e = some (str "0." ++ [48 + a, 48 + b]) → weightNumber env e = some (((10 * a + b : Nat) : Rat) / 100)) ∧
    (∀ a b c : Nat, a < 10 → b < 10 → c < 10 → weightOf env e = some (str "0." ++ [48 + a, 48 + b, 48 + c]) → weightNumber env e = some (((100 * a + 10 * b + c : Nat) : Rat) / 1000)) ∧
    (∀ w ∈ [str "1", str "1.", str "1.0", str "1.00", str "1.000"], weightOf env e = some w → weightNumber env e = some 1) ∧
    (∀ w ∈ [str "0", str "0."], weightOf env e = some w → weightNumber env e = some 0) ∧
    (weightOf env e = none → weightNumber env e = none) ∧ (∀ w, weightOf env e = some w → ¬ WeightOk w → weightNumber env e = none) := by
  refine ⟨fun a h hw => ?_, fun a b ha hb hw => ?_, fun a b c ha hb hc hw => ?_, fun w h hw => ?_, fun w h hw => ?_, fun h => ?_, fun w hw h => ?_⟩
  · rw [weight_number hw]; exact numbers1 a h
  · rw [weight_number hw]; exact numbers2 a ha b hb
  · rw [weight_number hw]; exact numbers3 a ha b hb c hc
  · rw [weight_number hw]; exact numbers0 w (by simp only [List.mem_cons, List.not_mem_nil, or_false] at h ⊢; rcases h with h | h | h | h | h <;> simp [h])
  · rw [weight_number hw]
    have : ∀ w ∈ [str "0", str "0."], qValue (.str w) = some 0 := by decide +kernel
    exact this w h
  · unfold weightNumber; rw [h]
  · rw [weight_number hw]
    rw [← qValue_some] at h
    cases hq : qValue (.str w) with
    | none => rfl
    | some q => rw [hq] at h; exact absurd rfl h

/-- a media range given as a token or a text, in lower case -/
def loweredRange : Val → Val
  | .token s => .token (lower s)
  | .str s => .str (lower s)
  | v => v

/-- **C119** `Accept-Query`: each member of the Structured List, the range in lower case, with its parameters; `None` if it is not a list -/
theorem C119_accept_query (P : Processed env related t ls m m') (hu : Unpadded ls) (hk : m.kind = .response) (hi : ListShape env) {n : Str} (hn : n ∈ namesFor .accept_query_ ls) :
    dget (m'.section t).parsed n = some (match listOf env ls n with
      | some l => .list (l.map fun x => .tuple [loweredRange x.1, x.2])
      | none => .none) := by
  obtain ⟨hn, hc⟩ := mem_namesFor.1 hn
  have hok : okName m.kind n = true := by rw [okName_class hc (by decide), hk]; rfl
  rw [section_values P.linting P.new hu P.ok, if_pos hn]
  unfold fieldValue
  rw [if_pos hok, hc]
  have hl : lineValue ⟨env, m, related⟩ .accept_query_ (valuesOf ls n) = _ := list_value (related := related) (m := m) (f := .accept_query_) rfl hi n
  rw [hl]
  cases listOf env ls n with
  | none => rfl
  | some l =>
    show some (afterCheck .accept_query_ (.list _)) = _
    unfold afterCheck
    rw [if_neg (by simp)]
    show some (Val.list ((l.map _).map rangeLower)) = _
    rw [List.map_map]
    congr 2
    refine List.map_congr_left fun x _ => ?_
    obtain ⟨v, p⟩ := x
    cases v with
    | atom a => cases a <;> rfl
    | _ => rfl

/-- **C118** (deprecated and unneeded fields that httplint has no reader for) a `None` is recorded for each element, whatever it is -/
theorem C118_unread (P : Processed env related t ls m m') (hu : Unpadded ls) {f : FieldId} (hf : f = .deprecatedField ∨ f = .unnecessaryField) {n : Str}
    (hn : n ∈ namesFor f ls) : dget (m'.section t).parsed n = some (.list ((elementsOf ls n).map fun _ => .none)) := by
  rcases hf with rfl | rfl
  all_goals exact P.list_of hu rfl (by decide) (by cases m.kind <;> rfl) _ (fun x => rfl) hn

end

/-! ### examples -/

/-- what a processed section records -/
def recordings (env : Env) (kind : MsgKind) (ls : List Line) : Bool × Dict Val :=
  let r := processSection env none false ls (fresh env kind none false false)
  (match r.2 with | .ok _ => true | .error _ => false, r.1.headers.parsed)

example : recordings toyEnv .request [(str "Accept", str "Text/HTML; level=1; q=0.5, */*"), (str "Accept-Encoding", str "GZIP;q=1, br"), (str "Accept-Language", str "en-GB; q=2"),
      (str "If-Match", str "\"a\""), (str "Host", str "example.com"), (str "Access-Control-Request-Headers", str "X-A, x-b")] =
    (true, [(str "accept", .list [.tuple [.str (str "text/html"), Val.ofDict [(str "level", .str (str "1"))], .num (1 / 2)], .tuple [.str (str "*/*"), Val.ofDict [], .none]]),
      (str "accept-encoding", .list [.tuple [.str (str "gzip"), Val.ofDict [(str "q", .str (str "1"))]], .tuple [.str (str "br"), Val.ofDict []]]),
      (str "accept-language", .list [.tuple [.str (str "en-gb"), .none]]), (str "if-match", .list [.str (str "\"a\"")]), (str "host", .str (str "example.com")),
      (str "access-control-request-headers", .list [.str (str "x-a"), .str (str "x-b")])]) := by kernel_rfl

example : recordings toyEnv .response [(str "ETag", str "W/\"x\""), (str "Link", str "<a>; rel=next, <b>;REV=x"), (str "Content-Disposition", str "Attachment; filename=\"a b\""),
      (str "Alt-Svc", str "clear, h2=\":443\", x"), (str "Keep-Alive", str "Timeout=\"5\", x"), (str "Clear-Site-Data", str "\"cache\", *"), (str "X-Frame-Options", str "deny"),
      (str "Content-Security-Policy", str "Default-Src 'self'; img-src  *; default-src x"), (str "X-Powered-By", str "PHP")] =
    (true, [(str "etag", .tuple [.bool true, .str (str "x")]),
      (str "link", .list [.tuple [.str (str "a"), Val.ofDict [(str "rel", .str (str "next"))]], .tuple [.str (str "b"), Val.ofDict [(str "rev", .str (str "x"))]]]),
      (str "content-disposition", .tuple [.str (str "attachment"), Val.ofDict [(str "filename", .str (str "a b"))]]),
      (str "alt-svc", .list [.str (str "clear"), .str (str "h2=\":443\"")]),
      (str "keep-alive", .list [.tuple [.str (str "timeout"), .str (str "5")], .tuple [.str (str "x"), .none]]),
      (str "clear-site-data", .list [.str (str "cache"), .str (str "*")]), (str "x-frame-options", .str (str "DENY")),
      (str "content-security-policy", .list [Val.ofDict [(str "default-src", .str (str "'self'")), (str "img-src", .str (str "*"))]]), (str "x-powered-by", .list [.none])]) := by kernel_rfl

/-- RFC 9110's entity tags have no escapes, but the code takes a backslash for one: two different tags are recorded as the same -/
example : recordings toyEnv .response [(str "ETag", str "\"a\\b\"")] = recordings toyEnv .response [(str "ETag", str "\"ab\"")] := by kernel_rfl

/-- the hypotheses of the theorems are met -/
example : Processed toyEnv none false [(str "Accept", str "a/b;q=0.5")] (fresh toyEnv .request none false false)
    (processSection toyEnv none false [(str "Accept", str "a/b;q=0.5")] (fresh toyEnv .request none false false)).1 ∧
    FieldId.validIn .accept_ .request = true ∧ Unpadded [(str "Accept", str "a/b;q=0.5")] ∧ namesFor .accept_ [(str "Accept", str "a/b;q=0.5")] = [str "accept"] :=
  ⟨⟨⟨_, ⟨.request, none, false, false, none, [], rfl⟩, .inl rfl⟩, rfl, by
    have : (processSection toyEnv none false [(str "Accept", str "a/b;q=0.5")] (fresh toyEnv .request none false false)).2 = .ok () := by kernel_rfl
    exact Prod.ext rfl this⟩, rfl, by unfold Unpadded; decide +kernel, by decide +kernel⟩

end HL.Props
