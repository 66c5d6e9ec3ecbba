import Verif.Props.Facts
import Verif.Props.ParamsThm

/-!
# Which checks can raise, and what

`Tame`: whatever is raised is a `ValueError` (which the callers of `parse` catch).  `Returns`: nothing is raised.
-/

namespace HL.Props

/-- raises nothing but `ValueError` -/
def Tame {α} (w : W α) : Prop := ∀ e, w.res = .error e → e.isValueError = true

/-- returns normally -/
def Returns {α} (w : W α) : Prop := ∃ a, w.res = .ok a

theorem Returns.tame {α} {w : W α} (h : Returns w) : Tame w := by
  obtain ⟨a, ha⟩ := h
  intro e he
  rw [ha] at he
  cases he

theorem Tame.pure {α} (a : α) : Tame (pure a : W α) := by intro e he; cases he
theorem Tame.ret {α} (ns : List Note) (a : α) : Tame (⟨ns, .ok a⟩ : W α) := by intro e he; cases he
theorem Tame.throw {α} : Tame (W.throw .valueError : W α) := by intro e he; cases he; rfl
theorem Tame.add (a : AddNote) (c vs k) : Tame (a.add c vs k) := by intro e he; cases he
theorem Tame.bind {α β} {x : W α} {f : α → W β} (h : Tame x) (hf : ∀ a, x.res = .ok a → Tame (f a)) : Tame (x >>= f) := by
  intro e he
  cases hx : x.res with
  | error e' => rw [W.bind_err hx] at he; cases he; exact h _ hx
  | ok a => rw [W.bind_ok hx] at he; exact hf a hx e he
theorem Tame.ite {α} {c : Prop} [Decidable c] {x y : W α} (hx : c → Tame x) (hy : ¬c → Tame y) : Tame (if c then x else y) := by
  split
  · exact hx ‹_›
  · exact hy ‹_›
theorem Tame.when {b : Bool} {x : W Unit} (h : b = true → Tame x) : Tame (W.when b x) := by
  unfold W.when
  split
  · exact h ‹_›
  · exact .pure ()
theorem Tame.lift {α} {r : Except Exn α} (h : ∀ e, r = .error e → e.isValueError = true) : Tame (W.lift r) := h
theorem Tame.mapM {α β} (f : α → W β) : ∀ l : List α, (∀ a ∈ l, Tame (f a)) → Tame (l.mapM f)
  | [], _ => by rw [List.mapM_nil]; exact .pure _
  | x :: xs, h => by
    rw [List.mapM_cons]
    refine .bind (h x (by simp)) fun b _ => .bind (Tame.mapM f xs fun a ha => h a (by simp [ha])) fun bs _ => .pure _
theorem Tame.forEach {α} (f : α → W Unit) : ∀ l : List α, (∀ a ∈ l, Tame (f a)) → Tame (W.forEach l f)
  | [], _ => .pure _
  | x :: xs, h => .bind (h x (by simp)) fun _ _ => Tame.forEach f xs fun a ha => h a (by simp [ha])

theorem Returns.pure {α} (a : α) : Returns (pure a : W α) := ⟨a, rfl⟩
theorem Returns.ret {α} (ns : List Note) (a : α) : Returns (⟨ns, .ok a⟩ : W α) := ⟨a, rfl⟩
theorem Returns.add (a : AddNote) (c vs k) : Returns (a.add c vs k) := ⟨(), rfl⟩
theorem Returns.addWith (a : AddNote) (c vs k l) : Returns (a.addWith c vs k l) := ⟨(), rfl⟩
theorem Returns.bind {α β} {x : W α} {f : α → W β} (h : Returns x) (hf : ∀ a, x.res = .ok a → Returns (f a)) : Returns (x >>= f) := by
  obtain ⟨a, ha⟩ := h
  obtain ⟨b, hb⟩ := hf a ha
  exact ⟨b, by rw [W.bind_ok ha]; exact hb⟩
theorem Returns.ite {α} {c : Prop} [Decidable c] {x y : W α} (hx : c → Returns x) (hy : ¬c → Returns y) : Returns (if c then x else y) := by
  split
  · exact hx ‹_›
  · exact hy ‹_›
theorem Returns.when {b : Bool} {x : W Unit} (h : b = true → Returns x) : Returns (W.when b x) := by
  unfold W.when
  split
  · exact h ‹_›
  · exact .pure ()
theorem Returns.lift {α} {r : Except Exn α} (h : ∃ a, r = .ok a) : Returns (W.lift r) := h
theorem Returns.mapM {α β} (f : α → W β) : ∀ l : List α, (∀ a ∈ l, Returns (f a)) → Returns (l.mapM f)
  | [], _ => by rw [List.mapM_nil]; exact .pure _
  | x :: xs, h => by
    rw [List.mapM_cons]
    refine .bind (h x (by simp)) fun b _ => .bind (Returns.mapM f xs fun a ha => h a (by simp [ha])) fun bs _ => .pure _
theorem Returns.forEach {α} (f : α → W Unit) : ∀ l : List α, (∀ a ∈ l, Returns (f a)) → Returns (W.forEach l f)
  | [], _ => .pure _
  | x :: xs, h => .bind (h x (by simp)) fun _ _ => Returns.forEach f xs fun a ha => h a (by simp [ha])

/-- break a computation up: what is left are calls of other functions -/
macro "tame" : tactic => `(tactic| repeat' first
  | with_reducible exact Tame.pure _
  | with_reducible exact Tame.add _ _ _ _
  | with_reducible exact Tame.throw
  | with_reducible exact Returns.pure _
  | with_reducible exact Returns.add _ _ _ _
  | with_reducible exact Returns.addWith _ _ _ _ _
  | ((with_reducible apply Tame.when); intro _)
  | ((with_reducible apply Returns.when); intro _)
  | ((with_reducible apply Tame.bind); rotate_left; intro _ _)
  | ((with_reducible apply Returns.bind); rotate_left; intro _ _)
  | ((with_reducible apply Tame.ite); all_goals intro _)
  | ((with_reducible apply Returns.ite); all_goals intro _)
  | dsimp only
  | split)

theorem params_return (env : Env) (add : AddNote) (s : Str) (ns : NoStar) (d : Nat) : Returns (parseParams env add s ns d) := C50_total env add s ns d

theorem media_return (add v b r w t) : Returns (checkMediaType add v b r w t) := by
  unfold checkMediaType
  tame

theorem mediaType_return (env add v b r w ns) : Returns (parseMediaType env add v b r w ns) := by
  unfold parseMediaType
  tame <;> first | exact params_return .. | exact media_return ..

theorem httpDate_tame (env add v k) : Tame (parseHttpDate env add v k) := by
  unfold parseHttpDate
  tame <;>
  (refine .lift fun e he => ?_
   unfold timegm at he
   split at he
   · cases he; rfl
   · cases he)

section
variable {env : Env}

theorem dset_map {α β : Type} (g : α → β) (d : Dict α) (k : Str) (v : α) :
    dset (d.map fun p => (p.1, g p.2)) k (g v) = (dset d k v).map fun p => (p.1, g p.2) := by
  induction d with
  | nil => rfl
  | cons p d ih =>
    obtain ⟨k', v'⟩ := p
    simp only [List.map_cons, dset]
    by_cases h : k' = k
    · rw [if_pos h, if_pos h]; rfl
    · rw [if_neg h, if_neg h, ih]; rfl

theorem dget_map {α β : Type} (g : α → β) (d : Dict α) (k : Str) : dget (d.map fun p => (p.1, g p.2)) k = (dget d k).map g := by
  induction d with
  | nil => rfl
  | cons p d ih =>
    unfold dget at *
    rw [List.map_cons, List.find?_cons, List.find?_cons]
    cases h : p.1 == k with
    | true => rfl
    | false => exact ih

/-- parameters are a dictionary of strings -/
theorem params_str {add : AddNote} {s : Str} {ns : NoStar} {delim : Nat} {d : Dict Val} (h : (parseParams env add s ns delim).res = .ok d) :
    ∃ l : Dict Str, d = l.map fun p => (p.1, .str p.2) := by
  obtain ⟨ps, e, hps⟩ := list_of (fun p : Str × Str => p.1 ++ [61] ++ p.2) (fun p => IsTok p.1 ∧ (IsTok p.2 ∨ IsQuoted p.2)) _
    (fun x hx => let ⟨k, v, h1, h2⟩ := pieces_are s (delimRE delim) x hx; ⟨(k, v), h1, h2⟩)
  unfold parseParams at h
  rw [e, (loop_does env add ns ps [] [] hps rfl).res] at h
  cases h
  generalize valued env ns ([] ++ ps) = l
  have : ∀ (l : List (Str × Str)) (a : Dict Str), ∃ l' : Dict Str,
      l.foldl (fun d p => dset d p.1 (Val.str p.2)) (a.map fun p => (p.1, .str p.2)) = l'.map fun p => (p.1, .str p.2) := by
    intro l
    induction l with
    | nil => intro a; exact ⟨a, rfl⟩
    | cons p l ih =>
      intro a
      obtain ⟨l', h⟩ := ih (dset a p.1 p.2)
      refine ⟨l', ?_⟩
      rw [← h, List.foldl_cons]
      congr 1
      exact dset_map Val.str a p.1 p.2
  exact this l []

end

/-- what the libraries raise -/
structure Library (env : Env) : Prop where
  urlsplit : ∀ s e, env.urlsplit s = .error e → e.isValueError = true
  urljoin : ∀ a b e, env.urljoin a b = .error e → e.isValueError = true

theorem pyIntR_tame (s : Str) : Tame (F.intOrRaise s) := by
  unfold F.intOrRaise
  tame

section
variable {env : Env}

theorem coding_parsed {f : FieldId} (hf : f = .accept_encoding_ ∨ f = .te_) {v : Val} (h : ParsedBy env f v) : ∃ s d, v = .tuple [.str s, .dict d] := by
  obtain ⟨c, add, h, s, _, hf', hr⟩ := h
  have : (F.codingParse c.env add s).res = .ok v := by
    unfold Handler.parse at hr
    rw [hf'] at hr
    rcases hf with rfl | rfl <;> exact hr
  unfold F.codingParse at this
  dsimp only at this
  obtain ⟨d, _, h2⟩ := W.bind_res_ok this
  cases h2
  exact ⟨_, _, rfl⟩

/-- the recorded codings a request accepts -/
theorem codings_list {r : Msg} (hT : TypedHeaders env r) (hk : r.kind = .request) {n : Str} {f : FieldId} (hc : classOf n = f)
    (hf : f = .accept_encoding_ ∨ f = .te_) :
    ∃ l, (dget r.headers.parsed n).getD (.list []) = .list l ∧ ∀ x ∈ l, ∃ s d, x = .tuple [.str s, .dict d] := by
  cases hd : dget r.headers.parsed n with
  | none => exact ⟨[], rfl, by simp⟩
  | some w =>
    have := hT _ _ hd (by rw [hc, hk]; rcases hf with rfl | rfl <;> rfl)
    unfold Typed at this
    rw [hc] at this
    have : ListOf env f w := by rcases hf with rfl | rfl <;> exact this
    obtain ⟨l, rfl, hl⟩ := this
    exact ⟨l, rfl, fun x hx => coding_parsed hf (hl x hx)⟩

theorem content_encoding_return {c : Ctx} (hrel : ∀ r, c.related = some r → TypedHeaders c.env r) (add v) : Returns (F.content_encoding.parse c add v) := by
  unfold F.content_encoding.parse
  split
  · rename_i req _ hreq
    by_cases hk : req.kind = .request
    · rw [if_pos hk]
      obtain ⟨l, hl, hx⟩ := codings_list (hrel req hreq) hk (n := str "accept-encoding") (f := .accept_encoding_) (by decide +kernel) (.inl rfl)
      dsimp only
      rw [hl]
      tame
      · refine .mapM _ _ fun a ha => ?_
        rename_i items hi
        cases hi
        obtain ⟨s, d, rfl⟩ := hx a ha
        exact ⟨_, rfl⟩
      · exact ⟨_, rfl⟩
    · rw [if_neg hk]; tame
  · tame

theorem cookieAttribute_tame (n v cn attrs u now add l) : Tame (F.processCookieAttribute n v cn attrs u now add l) := by
  unfold F.processCookieAttribute
  tame

theorem cookieLoop_tame (cn u now add) : ∀ (avs seen : List Str) (attrs : F.Attrs) (l : Bool), Tame (F.cookieAttrLoop cn u now add avs seen attrs l)
  | [], _, _, _ => .pure _
  | _ :: avs, _, _, _ => by
    unfold F.cookieAttrLoop
    tame
    · exact cookieLoop_tame cn u now add avs _ _ _
    · exact cookieAttribute_tame _ _ _ _ _ _ _ _

theorem checkPrefixes_return (n attrs add) : Returns (F.checkPrefixes n attrs add) := by
  unfold F.checkPrefixes
  tame
  exact .forEach _ _ fun _ _ => .when fun _ => .add ..

theorem looseParse_tame (s u now add) : Tame (F.looseParse s u now add) := by
  unfold F.looseParse
  tame
  · exact (checkPrefixes_return ..).tame
  · exact cookieLoop_tame _ _ _ _ _ _ _ _

theorem contentRange_length_tame (add s) : Tame (F.content_range.parseLength add s) := by
  unfold F.content_range.parseLength
  tame
  exact pyIntR_tame _

theorem contentRange_spec_tame (add s) : Tame (F.content_range.parseSpec add s) := by
  unfold F.content_range.parseSpec
  tame <;> exact pyIntR_tame _

theorem range_end_tame (add s p) : Tame (F.range.parseEnd add s p) := by
  unfold F.range.parseEnd F.range.bad
  tame
  exact pyIntR_tame _

theorem range_spec_tame (add s) : Tame (F.range.parseSpec add s) := by
  unfold F.range.parseSpec F.range.bad
  tame <;> exact range_end_tame _ _ _

/-- **C07** (the parsers) whatever the text, a field parser returns, or refuses the value with `ValueError`, which its caller
catches. -/
theorem parse_tame {c : Ctx} (hl : Library c.env) (hrel : ∀ r, c.related = some r → TypedHeaders c.env r) (add : AddNote) (h : Handler) (v : Str) :
    Tame (h.parse c add v).2 := by
  unfold Handler.parse
  split
  all_goals try unfold Handler.noAux
  all_goals try dsimp only
  · unfold F.accept.parse; tame <;> first | exact (params_return ..).tame | exact (mediaType_return ..).tame | exact (media_return ..).tame
  · unfold F.codingParse; tame <;> exact (params_return ..).tame
  · unfold F.accept_language.parse; tame <;> exact (params_return ..).tame
  · unfold F.accept_patch.parse; tame <;> exact (mediaType_return ..).tame
  · unfold F.accept_post.parse; tame <;> exact (mediaType_return ..).tame
  · unfold F.accept_ranges.parse; tame
  · unfold F.access_control_allow_credentials.parse; tame
  · exact .pure _
  · unfold F.access_control_max_age.parse; tame
  · exact .pure _
  · unfold F.age.parse; tame
  · unfold F.alt_svc.parse; tame
  · unfold F.cache_control.parse; tame
  · unfold F.clear_site_data.parse; tame
  · unfold F.content_disposition.parse; tame <;> exact (params_return ..).tame
  · exact (content_encoding_return hrel ..).tame
  · exact .pure _
  · unfold F.content_length.parse; tame
  · unfold F.content_range.parse F.content_range.checkStatus; tame <;> first | exact contentRange_length_tame _ _ | exact contentRange_spec_tame _ _
  · exact .pure _
  · exact .pure _
  · unfold F.content_type.parse; tame <;> exact (mediaType_return ..).tame
  · exact .pure _
  · unfold F.date.parse; tame; exact httpDate_tame _ _ _ _
  · unfold F.etag.parse; tame
  · unfold F.expires.parse; tame; exact httpDate_tame _ _ _ _
  · exact .pure _
  · unfold F.last_modified.parse; tame; exact httpDate_tame _ _ _ _
  · unfold F.link.parse; tame
    · rename_i d hd x r hr
      obtain ⟨l, rfl⟩ := params_str hd
      rw [dget_map] at hr
      obtain ⟨s, _, rfl⟩ := Option.map_eq_some_iff.1 hr
      exact .lift fun e he => by cases he
    · exact (params_return ..).tame
  · unfold F.location.parse; tame; exact .lift fun e he => hl.urljoin _ _ _ he
  · unfold F.origin.parse; tame
  · exact .pure _
  · unfold F.range.parse F.range.bad; tame; exact .mapM _ _ fun _ _ => range_spec_tame _ _
  · exact .pure _
  · unfold F.server.parse; tame
  · unfold F.server_timing.parse; tame; exact (params_return ..).tame
  · unfold F.set_cookie.parse
    split
    · rename_i e he; intro e' he'; cases he'; exact hl.urlsplit _ _ he
    · intro e he
      rename_i u _
      replace he : (F.looseParse v u.path c.msg.startTime add).res.map F.cookieVal = .error e := he
      cases hr : (F.looseParse v u.path c.msg.startTime add).res with
      | error e' => rw [hr] at he; cases he; exact looseParse_tame _ _ _ _ _ hr
      | ok x => rw [hr] at he; cases he
  · exact .pure _
  · unfold F.sunset.parse; tame; exact httpDate_tame _ _ _ _
  · unfold F.tcn.parse; tame
  · unfold F.codingParse; tame <;> exact (params_return ..).tame
  · unfold F.transfer_encoding.parse; tame <;> exact (params_return ..).tame
  · exact .pure _
  · exact .pure _
  · exact .pure _
  · unfold F.unnecessary.parse; tame
  · exact .pure _

end

end HL.Props
