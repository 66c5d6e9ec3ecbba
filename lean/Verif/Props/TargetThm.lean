import Verif.Props.AbnfThm
import Verif.Props.Topline

/-!
# C124: which request targets are reported
-/

set_option maxRecDepth 4000

namespace HL.Props
open HL.RE HL.Syntax Lng

/-! ### specification -/

/-- what comes before `::` in an address: nothing -/
def noGroups : Nat → Abnf.Lang := fun _ _ => False

/-- RFC 3986 without addresses with `::`, `v` addresses, user information and empty paths -/
def plainReading : Abnf.Reading := { Abnf.rfc with userinfo := fun _ => False, groups := noGroups, v := fun _ => False, pathEmpty := fun _ => False }

/-- `s` is in `A` but for white space around it -/
def Spaced (A : Abnf.Lang) (s : Str) : Prop := ∃ a b z, s = a ++ b ++ z ∧ AllSpace a ∧ A b ∧ AllSpace z

/-! ### letter case -/

/-- the expression, with the classes that letter case matters for made sensitive to it -/
def caseFixed : RE → RE
  | .eps => .eps
  | .cset neg rs => if (List.range 256).all (fun c => csetHas true neg rs c == csetHas false neg rs c) then .cset neg rs else .sens (.cset neg rs)
  | .seq a b => .seq (caseFixed a) (caseFixed b)
  | .alt a b => .alt (caseFixed a) (caseFixed b)
  | .rep lo hi l r => .rep lo hi l (caseFixed r)
  | .sens r => .sens r

theorem caseFixed_lang (r : RE) : ∀ s, (caseFixed r).L true s ↔ r.L false s := by
  induction r with
  | eps => intro s; exact .rfl
  | cset neg rs =>
    intro s
    unfold caseFixed
    split
    · rename_i h
      have : ∀ c, csetHas true neg rs c = csetHas false neg rs c := by
        intro c
        by_cases hc : c < 256
        · rw [List.all_eq_true] at h
          simpa using h c (by simpa using hc)
        · simp only [csetHas, big_variants hc, if_true, List.any_cons, List.any_nil, Bool.or_false]
          rfl
      simp only [RE.L, this]
    · exact .rfl
  | seq a b iha ihb => intro s; simp only [caseFixed, RE.L, iha, ihb]
  | alt a b iha ihb => intro s; simp only [caseFixed, RE.L, iha, ihb]
  | rep lo hi l r ih => intro s; simp only [caseFixed, RE.L, ih]
  | sens r ih => intro s; exact .rfl

/-! ### the grammar of targets -/

abbrev tg : Abnf.Reading := Abnf.target

def tIPvFuture : RE := seqs [.sens (lit (str "v")), plus rfc5234.HEXDIG, ch 46, plus (alts [rfc3986.unreserved, rfc3986.sub_delims, ch 58])]
def tIPliteral : RE := seqs [ch 91, alts [rfc3986.IPv6address, tIPvFuture], ch 93]
def tHost : RE := alts [tIPliteral, rfc3986.IPv4address, rfc3986.reg_name]
def tHierPart : RE := alts [seqs [lit (str "//"), opt (seqs [rfc3986.userinfo, ch 64]), tHost, opt (seqs [ch 58, rfc3986.port]), rfc3986.path_abempty],
  rfc3986.path_absolute, rfc3986.path_rootless, rfc3986.path_empty]
def tURI : RE := seqs [rfc5234.ALPHA, star (alts [rfc5234.ALPHA, rfc5234.DIGIT, ch 43, ch 45, ch 46]), ch 58, tHierPart, opt (seqs [ch 63, rfc3986.query]),
  opt (seqs [ch 35, rfc3986.query])]

theorem tURI_fixed : caseFixed rfc3986.URI = tURI := by decide +kernel

theorem t_ipv6 : Abnf.IPv6address tg = Abnf.IPv6address hl := rfl
theorem t_future : tIPvFuture.L true = Abnf.IPvFuture tg := by
  have : tg.v = Abnf.exactly (str "v") := rfl
  lng [tIPvFuture, Abnf.IPvFuture, this, exactly_lang, unreserved_lang, sub_delims_lang]
theorem t_literal : tIPliteral.L true = Abnf.IPliteral tg := by
  lng [tIPliteral, Abnf.IPliteral, t_future, t_ipv6, ipv6_lang]
theorem t_host : tHost.L true = Abnf.host tg := by
  lng [tHost, Abnf.host, t_literal, ipv4_lang, reg_name_lang]
theorem t_hier : tHierPart.L true = Abnf.hierPart tg := by
  have h1 : tg.userinfo = hl.userinfo := rfl
  have h2 : tg.pathEmpty = hl.pathEmpty := rfl
  lng [tHierPart, Abnf.hierPart, Abnf.authority, Abnf.hostPort, t_host, h1, h2, userinfo_lang, port_lang, path_abempty_lang, path_absolute_lang,
    path_rootless_lang, path_empty_lang]
theorem t_uri : tURI.L true = Abnf.URI tg := by
  lng [tURI, Abnf.URI, Abnf.absoluteURI, Abnf.scheme, t_hier, query_lang]

/-- **C124** the grammar that the target of a request is checked against is RFC 3986's `URI`, read in the way of `Abnf.target` -/
theorem C124_grammar : rfc3986.URI.L false = Abnf.URI Abnf.target := by
  funext s
  rw [eq_iff_iff, ← caseFixed_lang, tURI_fixed, t_uri]

theorem isUri_iff (uri : Str) : IsUri uri ↔ Spaced (Abnf.URI Abnf.target) uri := by
  unfold IsUri Spaced
  rw [C124_grammar]

/-! ### nothing else is taken -/

theorem groups_mono (n : Nat) : ∀ s, tg.groups n s → Abnf.rfc.groups n s := by
  have some' : ∀ A : Abnf.Lang, ∀ s, A s → Abnf.opt A s := fun A s h => Mem.some h
  intro s h
  match n, h with
  | 0, h => exact some' _ s h
  | 1, h =>
    refine some' _ s ?_
    obtain ⟨a, b, rfl, ha, hb⟩ := (h : Abnf.cat [Abnf.h16c, Abnf.h16] s)
    exact ⟨a, b, rfl, Mem.one ha, hb⟩
  | n + 2, h =>
    refine some' _ s ?_
    obtain ⟨a, b, rfl, ⟨ps, rfl, h1, h2, h3⟩, hb⟩ := (h : Abnf.cat [Abnf.times (n + 2) Abnf.h16c, Abnf.h16] s)
    exact ⟨ps.flatten, b, rfl, ⟨ps, rfl, Nat.zero_le _, h2, h3⟩, hb⟩

/-- a reading of RFC 3986 that takes less than another (an empty path may be read as a rootless one) -/
structure Less (R S : Abnf.Reading) : Prop where
  userinfo : ∀ s, R.userinfo s → S.userinfo s
  groups : ∀ n s, R.groups n s → S.groups n s
  v : ∀ s, R.v s → S.v s
  pathEmpty : ∀ s, R.pathEmpty s → Abnf.pathRootless s ∨ S.pathEmpty s

theorem uri_mono {R S : Abnf.Reading} (h : Less R S) : ∀ s, Abnf.URI R s → Abnf.URI S s := by
  have h1 := h.userinfo
  have h2 := h.groups
  have h3 := h.v
  have ip6 : ∀ s, Abnf.IPv6address R s → Abnf.IPv6address S s := by
    lng [Abnf.IPv6address]
    repeat' first | exact h2 _ | exact fun _ h => h | apply or2_mono | apply sq_mono
  have host : ∀ s, Abnf.host R s → Abnf.host S s := by
    lng [Abnf.host, Abnf.IPliteral, Abnf.IPvFuture]
    repeat' first | exact ip6 | exact h3 | exact fun _ h => h | apply or2_mono | apply sq_mono
  have hier : ∀ s, Abnf.hierPart R s → Abnf.hierPart S s := by
    have auth : ∀ s, Abnf.cat [Abnf.word (str "//"), Abnf.authority R, Abnf.pathAbempty] s → Abnf.cat [Abnf.word (str "//"), Abnf.authority S, Abnf.pathAbempty] s := by
      lng [Abnf.authority, Abnf.hostPort]
      repeat' first | exact host | exact h1 | exact fun _ h => h | apply sq_mono | apply rep_mono
    unfold Abnf.hierPart
    simp only [alt_cons, alt_one]
    rintro s (hs | hs | hs | hs)
    · exact .inl (auth s hs)
    · exact .inr (.inl hs)
    · exact .inr (.inr (.inl hs))
    · rcases h.pathEmpty s hs with hs | hs
      · exact .inr (.inr (.inl hs))
      · exact .inr (.inr (.inr hs))
  unfold Abnf.URI Abnf.absoluteURI
  lng []
  repeat' first | exact hier | exact fun _ h => h | apply sq_mono

theorem target_less : Less Abnf.target Abnf.rfc where
  userinfo s h := Mem.many h
  groups := groups_mono
  v := exactly_mono _
  pathEmpty s h := by
    refine .inl ?_
    obtain ⟨a, b, rfl, ha, c, d, rfl, hc, hd⟩ := (h : Abnf.cat [Abnf.pchar, Abnf.word (str "0")] s)
    have : Abnf.pchar c := ⟨_, List.mem_cons_self, Abnf.DIGIT, by simp, 48, by
      rcases c with _ | ⟨x, _ | ⟨y, c⟩⟩ <;> simp [Abnf.word, lower, lowerC] at hc ⊢
      split at hc
      · omega
      · exact hc, by decide⟩
    subst hd
    exact ⟨a ++ c, [], by simp, ⟨[a, c], by simp, by simp, by simp, by simp [ha, this]⟩, [], [], rfl, Mem.no, rfl⟩

theorem plain_less : Less plainReading Abnf.target where
  userinfo _ h := nomatch h
  groups _ _ h := nomatch h
  v _ h := nomatch h
  pathEmpty _ h := nomatch h

theorem spaced_mono {A B : Abnf.Lang} (h : ∀ s, A s → B s) {s : Str} : Spaced A s → Spaced B s := by
  rintro ⟨a, b, z, e, ha, hb, hz⟩; exact ⟨a, b, z, e, ha, h b hb, hz⟩

/-- **C124** everything that is taken is a URI, but for white space around it -/
theorem C124_only_uris (uri : Str) (h : Spaced (Abnf.URI Abnf.target) uri) : Spaced (Abnf.URI Abnf.rfc) uri :=
  spaced_mono (uri_mono target_less) h

/-- **C124** every URI that has no user information, no address in brackets that is a `v` one or has `::`, and no empty path (unless after an
authority) is taken -/
theorem C124_plain_uris (uri : Str) (h : Spaced (Abnf.URI plainReading) uri) : Spaced (Abnf.URI Abnf.target) uri :=
  spaced_mono (uri_mono plain_less) h

/-- **C124** when the conversion of the target to a URI succeeds with `uri`, one URI_BAD_SYNTAX is added iff `uri` isn't a URI (in the way of
`Abnf.target`) with or without white space around it; so there is one for whatever is not a URI of RFC 3986, and none for the plain ones -/
theorem C124_reported (env : Env) (method iri version : Str) (m : Msg) (hk : m.kind = .request) (uri : Str)
    (hu : env.iriToUri (utf8Replace iri) = .ok uri) :
    ∃ m' added, m.requestTopline env method iri version = (m', .ok ()) ∧ m'.notes = m.notes ++ added ∧
      (∀ n ∈ added, n.cls = .URI_BAD_SYNTAX → n.subject = str "uri") ∧
      (Spaced (Abnf.URI Abnf.target) uri → ∀ n ∈ added, n.cls ≠ .URI_BAD_SYNTAX) ∧
      (¬ Spaced (Abnf.URI Abnf.target) uri → (added.filter fun n => n.cls == .URI_BAD_SYNTAX).length = 1) ∧
      (¬ Spaced (Abnf.URI Abnf.rfc) uri → (added.filter fun n => n.cls == .URI_BAD_SYNTAX).length = 1) ∧
      (Spaced (Abnf.URI plainReading) uri → ∀ n ∈ added, n.cls ≠ .URI_BAD_SYNTAX) := by
  obtain ⟨m', u, he, -, -, ha, -, ⟨added, e, hs⟩, -, -⟩ := (C48_request_line env method iri version m hk).1 uri hu
  rw [isUri_iff] at ha
  have yes : ¬ Spaced (Abnf.URI Abnf.target) uri → (added.filter fun n => n.cls == .URI_BAD_SYNTAX).length = 1 := by
    intro h
    rcases ha with ⟨_, n, hn, ha⟩ | ⟨hp, _⟩
    · unfold ofClass at ha
      rw [e, List.filter_append] at ha
      rw [List.append_cancel_left ha]
      rfl
    · exact absurd h hp
  have no : Spaced (Abnf.URI Abnf.target) uri → ∀ n ∈ added, n.cls ≠ .URI_BAD_SYNTAX := by
    intro h n hn hc
    rcases ha with ⟨hp, _⟩ | ⟨_, ha⟩
    · exact hp h
    · unfold ofClass at ha
      rw [e, List.filter_append] at ha
      have : added.filter (fun n => n.cls == .URI_BAD_SYNTAX) = [] := List.append_cancel_left (ha.trans (List.append_nil _).symm)
      have hm : n ∈ added.filter (fun n => n.cls == .URI_BAD_SYNTAX) := List.mem_filter.2 ⟨hn, by simpa using hc⟩
      rw [this] at hm
      exact nomatch hm
  exact ⟨m', added, he, e, fun n hn _ => (hs n hn).1, no, yes, fun h => yes fun h' => h (C124_only_uris uri h'), fun h => no (C124_plain_uris uri h)⟩

/-! ### URIs that are reported -/

/-- user information of more than a character, a compressed address, an empty path, and a large V -/
def refusedUris : List Str := [str "a://me@b", str "a://[::1]", str "about:", str "a://[V1.b]"]

theorem authority_uri {s : Str} (h : Abnf.cat [Abnf.word (str "//"), Abnf.authority Abnf.rfc, Abnf.pathAbempty] s) :
    Abnf.URI Abnf.rfc (str "a:" ++ s) := by
  refine Mem.cat (s.length + 2) ?_ ?_
  · rw [show (str "a:" ++ s).take (s.length + 2) = str "a:" ++ s from List.take_of_length_le (by simp [str])]
    exact Mem.cat 1 (Mem.cat 1 Mem.chr (Mem.last Mem.no)) (Mem.cat 1 rfl (Mem.cat s.length (by
      show Abnf.hierPart _ (s.take s.length)
      rw [List.take_length]
      exact Mem.nth 0 h) (by
      show Abnf.cat _ (s.drop s.length)
      rw [List.drop_length]
      exact Mem.last Mem.no)))
  · rw [show (str "a:" ++ s).drop (s.length + 2) = [] from List.drop_of_length_le (by simp [str])]
    exact Mem.last Mem.no

/-- **C124** some URIs of RFC 3986 are reported -/
theorem C124_refused : ∀ u ∈ refusedUris, Abnf.URI Abnf.rfc u ∧ ¬ Spaced (Abnf.URI Abnf.target) u := by
  intro u hu
  constructor
  · simp only [refusedUris, List.mem_cons, List.not_mem_nil, or_false] at hu
    have letter : ∀ c, ((65 ≤ c && c ≤ 90) || (97 ≤ c && c ≤ 122)) = true → ∀ As, Abnf.alt (Abnf.unreserved :: As) [c] :=
      fun c h As => ⟨_, List.mem_cons_self, Abnf.ALPHA, List.mem_cons_self, c, rfl, h⟩
    rcases hu with rfl | rfl | rfl | rfl
    · refine authority_uri (s := str "//me@b") (Mem.cat 2 rfl (Mem.cat 4 (Mem.cat 3 (Mem.some (Mem.cat 2 ?_ (Mem.last rfl))) (Mem.last
        (Mem.cat 1 (Mem.nth 2 (Mem.many (letter 98 rfl _))) (Mem.last Mem.no)))) (Mem.last Mem.no)))
      refine ⟨[str "m", str "e"], rfl, by decide, by simp, ?_⟩
      intro p hp
      rcases List.mem_cons.1 hp with rfl | hp
      · exact letter 109 rfl _
      · rw [List.mem_singleton.1 hp]
        exact letter 101 rfl _
    · exact authority_uri (s := str "//[::1]") (Mem.cat 2 rfl (Mem.cat 5 (Mem.cat 0 Mem.no (Mem.last loopback)) (Mem.last Mem.no)))
    · exact Mem.cat 6 (Mem.cat 5 (Mem.cat 1 Mem.chr (Mem.last ⟨[str "b", str "o", str "u", str "t"], rfl, by decide, by simp, by
        intro p hp
        have : ∃ c, p = [c] ∧ ((65 ≤ c && c ≤ 90) || (97 ≤ c && c ≤ 122)) = true := by
          simp only [List.mem_cons, List.not_mem_nil, or_false] at hp
          rcases hp with rfl | rfl | rfl | rfl <;> exact ⟨_, rfl, rfl⟩
        obtain ⟨c, rfl, hc⟩ := this
        exact Mem.nth 0 ⟨c, rfl, hc⟩⟩)) (Mem.cat 1 rfl (Mem.cat 0 (Mem.nth 3 rfl) (Mem.last Mem.no)))) (Mem.last Mem.no)
    · refine authority_uri (s := str "//[V1.b]") (Mem.cat 2 rfl (Mem.cat 6 (Mem.cat 0 Mem.no (Mem.last (Mem.cat 6 (Mem.nth 0
        (Mem.cat 1 rfl (Mem.cat 4 (Mem.nth 1 (Mem.cat 1 rfl (Mem.cat 1 (Mem.many Mem.chr) (Mem.cat 1 rfl (Mem.last (Mem.many (letter 98 rfl _))))))) (Mem.last rfl))))
        (Mem.last Mem.no)))) (Mem.last Mem.no)))
  · rw [← isUri_iff, show IsUri u ↔ _ from (spaced_iff _ u).symm]
    revert u
    decide +kernel

/-- non-vacuity: a plain URI with white space around it is taken; something that isn't a URI is reported -/
example : Spaced (Abnf.URI plainReading) (str " a://b/c?d#e ") ∧ ¬ IsUri (str "a://b/c d") ∧ ¬ IsUri (str "/c") := by
  refine ⟨⟨str " ", str "a://b/c?d#e", str " ", rfl, by unfold AllSpace; decide, ?_, by unfold AllSpace; decide⟩, ?_, ?_⟩
  · have letter : ∀ c, ((65 ≤ c && c ≤ 90) || (97 ≤ c && c ≤ 122)) = true → ∀ As, Abnf.alt (Abnf.unreserved :: As) [c] :=
      fun c h As => ⟨_, List.mem_cons_self, Abnf.ALPHA, List.mem_cons_self, c, rfl, h⟩
    refine Mem.cat 9 (Mem.cat 1 (Mem.cat 1 Mem.chr (Mem.last Mem.no)) (Mem.cat 1 rfl (Mem.cat 5 (Mem.nth 0 (Mem.cat 2 rfl (Mem.cat 1 ?_ ?_))) ?_))) ?_
    · exact Mem.cat 0 Mem.no (Mem.last (Mem.cat 1 (Mem.nth 2 (Mem.many (letter 98 rfl _))) (Mem.last Mem.no)))
    · exact Mem.last (Mem.many (Mem.cat 1 rfl (Mem.last (Mem.many (letter 99 rfl _)))))
    · exact Mem.last (Mem.some (Mem.cat 1 rfl (Mem.last (Mem.many (Mem.nth 0 (letter 100 rfl _))))))
    · exact Mem.last (Mem.some (Mem.cat 1 rfl (Mem.last (Mem.many (Mem.nth 0 (letter 101 rfl _))))))
  · rw [show IsUri _ ↔ _ from (spaced_iff _ _).symm]; decide +kernel
  · rw [show IsUri _ ↔ _ from (spaced_iff _ _).symm]; decide +kernel

end HL.Props
