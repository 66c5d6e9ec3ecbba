import Verif.Props.Typing
import Verif.Props.CachingEx

/-!
# The facts of C33 - C40 exist for every response
-/

namespace HL.Props

section
variable {env : Env} {m : Msg} {related : Option Msg}

theorem age_parsed {v : Val} (h : ParsedBy env .age_ v) : ∃ n, v = .int n := by
  obtain ⟨c, add, h, s, _, hf, hr⟩ := h
  unfold Handler.parse at hr
  rw [hf] at hr
  replace hr : (F.age.parse add s).res = .ok v := hr
  unfold F.age.parse at hr
  split at hr
  · exact nomatch hr
  · rename_i n _
    split at hr
    · exact nomatch hr
    · obtain ⟨_, _, h2⟩ := W.bind_res_ok hr
      cases h2; exact ⟨n, rfl⟩

theorem date_parsed {v : Val} (h : ParsedBy env .date_ v) : ∃ n, v = .int n := by
  obtain ⟨c, add, h, s, _, hf, hr⟩ := h
  unfold Handler.parse at hr
  rw [hf] at hr
  replace hr : (F.date.parse c.env add s).res = .ok v := hr
  obtain ⟨n, _, h2⟩ := W.bind_res_ok hr
  cases h2; exact ⟨n, rfl⟩

theorem expires_parsed {v : Val} (h : ParsedBy env .expires_ v) : ∃ n, v = .int n := by
  obtain ⟨c, add, h, s, _, hf, hr⟩ := h
  unfold Handler.parse at hr
  rw [hf] at hr
  replace hr : (F.expires.parse c.env add s).res = .ok v := hr
  obtain ⟨n, _, h2⟩ := W.bind_res_ok hr
  cases h2; exact ⟨n, rfl⟩

/-- a directive of Cache-Control: its name and value, an integer where one is required -/
theorem cc_parsed {v : Val} (h : ParsedBy env .cache_control_ v) :
    ∃ p : Str × Val, v = .tuple [.str p.1, p.2] ∧ (p.1 = str "max-age" ∨ p.1 = str "s-maxage" → ∃ n, p.2 = .int n) := by
  obtain ⟨c, add, h, s, _, hf, hr⟩ := h
  unfold Handler.parse at hr
  rw [hf] at hr
  replace hr : (F.cache_control.parse add s).res = .ok v := hr
  unfold F.cache_control.parse at hr
  generalize (match split1 61 s with | some (a, b) => (a, some b) | none => (s, none) : Str × Option Str) = nv at hr
  obtain ⟨name, val⟩ := nv
  dsimp only at hr
  obtain ⟨_, _, h2⟩ := W.bind_res_ok hr
  have hc : ∀ l, l = str "max-age" ∨ l = str "s-maxage" → ∃ i, F.ccInfo l = some i ∧ i.conv = .int := by
    rintro l (rfl | rfl) <;> exact ⟨_, rfl, rfl⟩
  split at h2
  · rename_i hn
    cases h2
    refine ⟨(_, _), rfl, fun hl => ?_⟩
    obtain ⟨i, hi, _⟩ := hc _ hl
    exact nomatch hi.symm.trans hn
  · rename_i info hi
    split at h2
    · rename_i hcv
      obtain ⟨_, _, h3⟩ := W.bind_res_ok h2
      cases h3
      refine ⟨(_, _), rfl, fun hl => ?_⟩
      obtain ⟨i, hi', hc'⟩ := hc _ hl
      have := Option.some.inj (hi'.symm.trans hi)
      subst this
      exact nomatch hc'.symm.trans hcv
    · rename_i hcv
      cases h2
      refine ⟨(_, _), rfl, fun hl => ?_⟩
      obtain ⟨i, hi', hc'⟩ := hc _ hl
      have := Option.some.inj (hi'.symm.trans hi)
      subst this
      exact nomatch hc'.symm.trans hcv
    · split at h2
      · obtain ⟨_, _, h3⟩ := W.bind_res_ok h2
        cases h3
        exact ⟨(_, _), rfl, fun _ => ⟨_, rfl⟩⟩
      · obtain ⟨_, _, h3⟩ := W.bind_res_ok h2
        exact nomatch h3

/-- a list each element of which is the image of something -/
theorem list_of {α β : Type} (g : α → β) (P : α → Prop) : ∀ vs : List β, (∀ x ∈ vs, ∃ a, x = g a ∧ P a) → ∃ as : List α, vs = as.map g ∧ ∀ a ∈ as, P a
  | [], _ => ⟨[], rfl, by simp⟩
  | x :: xs, h => by
    obtain ⟨a, ha, hp⟩ := h x (by simp)
    obtain ⟨as, has, hps⟩ := list_of g P xs fun y hy => h y (by simp [hy])
    refine ⟨a :: as, by rw [ha, has]; rfl, ?_⟩
    intro b hb
    rcases List.mem_cons.1 hb with rfl | hb
    · exact hp
    · exact hps b hb

theorem hasInt_exists (hT : TypedHeaders env m) (name : Str) {f : FieldId} (hc : classOf name = f) (hk : f.info.kind = .singleton)
    (hv : f.validIn m.kind = true) (hp : ∀ v, ParsedBy env f v → ∃ n, v = .int n) : ∃ o, HasInt m name o := by
  cases hd : dget m.headers.parsed name with
  | none => exact ⟨_, .absent hd⟩
  | some v =>
    have ht := hT _ _ hd (by rw [hc]; exact hv)
    unfold Typed at ht
    rw [hc, hk] at ht
    rcases ht with ⟨rfl, _⟩ | ht
    · exact ⟨_, .invalid hd⟩
    · obtain ⟨n, rfl⟩ := hp v ht
      exact ⟨_, .valid n hd⟩

open Classical in
theorem facts_exist (hT : TypedHeaders env m) (hk : m.kind = .response) : ∃ f, FactsOf m related f := by
  have hv : ∀ f : FieldId, f ∈ [FieldId.age_, .date_, .expires_, .cache_control_, .vary_] → f.validIn m.kind = true := by rw [hk]; decide
  obtain ⟨age, hage⟩ := hasInt_exists hT (str "age") (f := .age_) (by decide +kernel) rfl (hv _ (by simp)) fun _ => age_parsed
  obtain ⟨date, hdate⟩ := hasInt_exists hT (str "date") (f := .date_) (by decide +kernel) rfl (hv _ (by simp)) fun _ => date_parsed
  obtain ⟨exp, hexp⟩ := hasInt_exists hT (str "expires") (f := .expires_) (by decide +kernel) rfl (hv _ (by simp)) fun _ => expires_parsed
  have hcc : ∃ ds : List (Str × Val), ((dget m.headers.parsed (str "cache-control") = none ∧ ds = []) ∨
      dget m.headers.parsed (str "cache-control") = some (.list (ds.map fun p => .tuple [.str p.1, p.2]))) ∧
      ∀ p ∈ ds, p.1 = str "max-age" ∨ p.1 = str "s-maxage" → ∃ n, p.2 = .int n := by
    cases hd : dget m.headers.parsed (str "cache-control") with
    | none => exact ⟨[], .inl ⟨rfl, rfl⟩, by simp⟩
    | some v =>
      have hc : classOf (str "cache-control") = .cache_control_ := by decide +kernel
      have ht := hT _ _ hd (by rw [hc]; exact hv _ (by simp))
      unfold Typed at ht
      rw [hc] at ht
      obtain ⟨vs, rfl, hvs⟩ := ht
      obtain ⟨ds, rfl, hds⟩ := list_of (fun p : Str × Val => Val.tuple [.str p.1, p.2]) _ vs fun x hx => cc_parsed (hvs x hx)
      exact ⟨ds, .inr rfl, hds⟩
  have hvary : ∃ ns : List Str, (dget m.headers.parsed (str "vary") = none ∧ ns = []) ∨ dget m.headers.parsed (str "vary") = some (.list (ns.map .str)) := by
    cases hd : dget m.headers.parsed (str "vary") with
    | none => exact ⟨[], .inl ⟨rfl, rfl⟩⟩
    | some v =>
      have hc : classOf (str "vary") = .vary_ := by decide +kernel
      have ht := hT _ _ hd (by rw [hc]; exact hv _ (by simp))
      unfold Typed at ht
      rw [hc] at ht
      obtain ⟨vs, rfl, hvs⟩ := ht
      obtain ⟨ns, rfl, _⟩ := list_of (fun s : Str => Val.str s) (fun _ => True) vs fun x hx => let ⟨s, e⟩ := vary_parsed (hvs x hx); ⟨s, e, trivial⟩
      exact ⟨ns, .inr rfl⟩
  obtain ⟨ds, hds, hint⟩ := hcc
  obtain ⟨ns, hns⟩ := hvary
  exact ⟨{ directives := ds, vary := ns, age := age, date := date, expires := exp, expiresSent := decide (Sent m (str "expires")),
           validator := decide (∃ n ∈ [str "last-modified", str "etag"], ∃ v, dget m.headers.parsed n = some v ∧ v ≠ .none),
           status := m.statusCode, method := related.bind (·.method),
           authorized := decide (∃ r, related = some r ∧ Sent r (str "authorization")),
           requestTime := related.bind (·.startTime), responseTime := m.startTime },
    ⟨hds, hint, hns, hage, hdate, hexp, decide_eq_true_iff, decide_eq_true_iff, rfl, rfl, decide_eq_true_iff, rfl, rfl⟩⟩

/-- **C33 - C40** (applicability) every response whose field names were sent without white space around them has facts -/
theorem C33_facts (hr : Reachable env m) (hk : m.kind = .response) (hs : TidyNames m.headers) : ∃ f, FactsOf m related f :=
  facts_exist (typed_headers hr hs) hk

end

end HL.Props
