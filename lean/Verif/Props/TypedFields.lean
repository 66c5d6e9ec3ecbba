import Verif.Props.Total
import Verif.Props.CorsThm
import Verif.Props.ContentThm
import Verif.Props.ParamsThm

/-!
# What the recorded values of some fields look like

`Origin`, `Allow` and `Content-Type`: the hypotheses of C42, C45, C46 and C47 about recorded values are met by every message whose
field names were sent without white space around them.
-/

namespace HL.Props

section
variable {env : Env} {m : Msg}

/-- an origin that was recorded has a text -/
theorem origin_parsed {v : Val} (h : ParsedBy env .origin_ v) : ∃ o, originText v = some o := by
  obtain ⟨c, add, h, s, _, hf, hr⟩ := h
  unfold Handler.parse at hr
  rw [hf] at hr
  replace hr : (F.origin.parse add s).res = .ok v := hr
  unfold F.origin.parse at hr
  split at hr
  · cases hr; exact ⟨_, rfl⟩
  · dsimp only at hr
    obtain ⟨_, _, h2⟩ := W.bind_res_ok hr
    split at h2
    · split at h2
      · cases h2; exact ⟨_, rfl⟩
      · split at h2
        · cases h2; exact ⟨_, rfl⟩
        · exact nomatch h2
    · obtain ⟨_, _, h3⟩ := W.bind_res_ok h2
      exact nomatch h3

/-- **C45** (applicability) if the request had an `Origin`, its recorded value has a text. -/
theorem C45_origin_text (hr : Reachable env m) (hk : m.kind = .request) (hs : TidyNames m.headers) {v : Val}
    (hd : dget m.headers.parsed (str "origin") = some v) : ∃ o, originText v = some o := by
  have hc : classOf (str "origin") = .origin_ := by decide +kernel
  have ht := recorded_typed hr false hs hd (by rw [hc, hk]; rfl)
  unfold Typed at ht
  rw [hc] at ht
  rcases ht with ⟨rfl, _⟩ | ht
  · exact ⟨_, rfl⟩
  · exact origin_parsed ht

theorem allow_parsed {v : Val} (h : ParsedBy env .allow_ v) : ∃ s, v = .str s := by
  obtain ⟨c, add, h, s, _, hf, hr⟩ := h
  unfold Handler.parse at hr
  rw [hf] at hr
  cases hr
  exact ⟨_, rfl⟩

theorem allow_list (hT : TypedHeaders env m) (hk : m.kind = .response) :
    dget m.headers.parsed (str "allow") = none ∨ ∃ allow : List Str, dget m.headers.parsed (str "allow") = some (.list (allow.map .str)) := by
  cases hd : dget m.headers.parsed (str "allow") with
  | none => exact .inl rfl
  | some v =>
    have hc : classOf (str "allow") = .allow_ := by decide +kernel
    have ht := hT _ _ hd (by rw [hc, hk]; rfl)
    unfold Typed at ht
    rw [hc] at ht
    obtain ⟨vs, rfl, hvs⟩ := ht
    obtain ⟨ns, rfl, _⟩ := list_of (fun s : Str => Val.str s) (fun _ => True) vs fun x hx => let ⟨s, e⟩ := allow_parsed (hvs x hx); ⟨s, e, trivial⟩
    exact .inr ⟨ns, rfl⟩

/-- **C42** (applicability) `Allow` is recorded as a list of names, or not at all. -/
theorem C42_allow_list (hr : Reachable env m) (hk : m.kind = .response) (hs : TidyNames m.headers) :
    dget m.headers.parsed (str "allow") = none ∨ ∃ allow : List Str, dget m.headers.parsed (str "allow") = some (.list (allow.map .str)) :=
  allow_list (typed_headers hr hs) hk

theorem contentType_parsed {v : Val} (h : ParsedBy env .content_type_ v) :
    ∃ t params, v = .tuple [.str t, .dict params] ∧ ∃ cs : Option Str, (Val.dict params).get (str "charset") = cs.map .str := by
  obtain ⟨c, add, h, s, _, hf, hr⟩ := h
  unfold Handler.parse at hr
  rw [hf] at hr
  replace hr : (F.content_type.parse c.env add s).res = .ok v := hr
  obtain ⟨p, hp, h2⟩ := W.bind_res_ok hr
  cases h2
  unfold parseMediaType at hp
  dsimp only at hp
  obtain ⟨_, _, h3⟩ := W.bind_res_ok hp
  obtain ⟨d, hd, h4⟩ := W.bind_res_ok h3
  cases h4
  obtain ⟨l, rfl⟩ := params_str hd
  refine ⟨_, _, rfl, dget l (str "charset"), ?_⟩
  show (Val.ofDict _).get _ = _
  unfold Val.get
  rw [Val.entries_ofDict, dget_map]

/-- a Content-Type is never refused -/
theorem contentType_total : ¬CanRefuse env .content_type_ := by
  rintro ⟨c, add, h, s, e, _, hf, hr, _⟩
  unfold Handler.parse at hr
  rw [hf] at hr
  replace hr : (F.content_type.parse c.env add s).res = .error e := hr
  have : Returns (F.content_type.parse c.env add s) := .bind (mediaType_return ..) fun _ _ => .pure _
  obtain ⟨v, hv⟩ := this
  rw [hv] at hr
  cases hr

theorem content_type_pair (hT : TypedHeaders env m) :
    dget m.headers.parsed (str "content-type") = none ∨ ∃ t cs, ContentType m t cs := by
  cases hd : dget m.headers.parsed (str "content-type") with
  | none => exact .inl rfl
  | some v =>
    refine .inr ?_
    have hc : classOf (str "content-type") = .content_type_ := by decide +kernel
    have ht := hT _ _ hd (by rw [hc]; cases m.kind <;> rfl)
    unfold Typed at ht
    rw [hc] at ht
    rcases ht with ⟨_, ht⟩ | ht
    · exact absurd ht contentType_total
    · obtain ⟨t, ps, rfl, cs, hcs⟩ := contentType_parsed ht
      exact ⟨t, cs, ps, hd, hcs⟩

/-- **C46**, **C47** (applicability) `Content-Type` is not recorded, or recorded as a type and parameters. -/
theorem C46_content_type (hr : Reachable env m) (hs : TidyNames m.headers) :
    dget m.headers.parsed (str "content-type") = none ∨ ∃ t cs, ContentType m t cs := content_type_pair (typed_headers hr hs)

end

end HL.Props
