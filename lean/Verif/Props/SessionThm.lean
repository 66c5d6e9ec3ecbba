import Verif.Props.SessionTotal
import Verif.Props.CharsetName

/-!
# C07: sessions

`process_request_topline`, `process_response_topline`, `process_headers`, `feed_content` and `finish_content` return, for
every sequence of such calls on a new linter in which header lines are given at most once and trailer lines at most
once, and in which no line belongs to one of the fields of `Perilous`.
-/

namespace HL.Props

section
variable {env : Env}

/-- nothing about the header section, the trailer section, the kind, the time or the caching verdict differs -/
structure Steady (m m' : Msg) : Prop where
  headers : m'.headers = m.headers
  trailers : m'.trailers = m.trailers
  kind : m'.kind = m.kind
  startTime : m'.startTime = m.startTime
  caching : m'.caching = m.caching

theorem Steady.refl (m : Msg) : Steady m m := ⟨rfl, rfl, rfl, rfl, rfl⟩
theorem Steady.trans {a b c : Msg} (h : Steady a b) (k : Steady b c) : Steady a c :=
  ⟨k.headers.trans h.headers, k.trailers.trans h.trailers, k.kind.trans h.kind, k.startTime.trans h.startTime, k.caching.trans h.caching⟩

theorem setUri_returns (hC : Contract env) (iri : Str) (m : Msg) : ∃ m', m.setUri env iri = (m', .ok ()) ∧ Steady m m' := by
  unfold Msg.setUri
  dsimp only
  split
  · rename_i e he
    rw [if_pos (hC.iriToUri _ _ he)]
    exact ⟨_, rfl, rfl, rfl, rfl, rfl, rfl⟩
  · exact ⟨_, rfl, rfl, rfl, rfl, rfl, rfl⟩

theorem requestTopline_returns (hC : Contract env) (me i v : Str) (m : Msg) : ∃ m', m.requestTopline env me i v = (m', .ok ()) ∧ Steady m m' := by
  unfold Msg.requestTopline
  split
  · exact ⟨_, rfl, .refl _⟩
  · obtain ⟨m', e, h⟩ := setUri_returns hC (utf8Replace i) { m with method := some (asciiReplace me) }
    rw [e]
    exact ⟨_, rfl, h.headers, h.trailers, h.kind, h.startTime, h.caching⟩

theorem responseTopline_returns (v s : Str) (p : Option Str) (m : Msg) : ∃ m', m.responseTopline v s p = (m', .ok ()) ∧ Steady m m' := by
  unfold Msg.responseTopline
  split
  · exact ⟨_, rfl, .refl _⟩
  · dsimp only
    have : ∀ x : Option Int, Steady m (match x with
        | some n => { m with version := asciiReplace v, statusCodeStr := some (asciiReplace s), statusCode := some n }
        | none => ({ m with version := asciiReplace v, statusCodeStr := some (asciiReplace s) } : Msg).addNotes
            [(Msg.adder { m with version := asciiReplace v, statusCodeStr := some (asciiReplace s) } (str "status")).mk1 .STATUS_CODE_NON_NUMERIC]) := by
      intro x
      cases x <;> exact ⟨rfl, rfl, rfl, rfl, rfl⟩
    cases p with
    | none => exact ⟨_, rfl, this _⟩
    | some p =>
      dsimp only
      split
      · exact ⟨_, rfl, this _⟩
      · exact ⟨_, rfl, (this _).headers, (this _).trailers, (this _).kind, (this _).startTime, (this _).caching⟩

theorem sinks_steady : ∀ (out : List Str) (m : Msg), Steady m (out.foldl Msg.sink m)
  | [], m => .refl m
  | x :: out, m => Steady.trans (b := m.sink x) ⟨rfl, rfl, rfl, rfl, rfl⟩ (sinks_steady out (m.sink x))

theorem feed_returns (chunk : Str) (m : Msg) (hT : TypedHeaders env m) : ∃ m', m.feedContent env chunk = (m', .ok ()) ∧ Steady m m' := by
  have hdec : ∀ m1 : Msg, Steady m m1 → ∃ p, m1.decoders = .ok p := by
    intro m1 h1
    unfold Msg.decoders
    split
    · exact ⟨_, rfl⟩
    · rw [h1.headers]
      rcases codings_recorded hT with h | ⟨l, h⟩ <;> rw [h]
      · exact ⟨_, rfl⟩
      · exact ⟨_, rfl⟩
  unfold Msg.feedContent
  dsimp only
  split
  · exact ⟨_, rfl, rfl, rfl, rfl, rfl, rfl⟩
  · unfold Msg.decodeFeed
    split
    · exact ⟨_, rfl, rfl, rfl, rfl, rfl, rfl⟩
    · obtain ⟨p, hp⟩ := hdec { m with contentLength := m.contentLength + chunk.length, hashed := m.hashed ++ chunk } ⟨rfl, rfl, rfl, rfl, rfl⟩
      rw [hp]
      dsimp only
      refine ⟨_, rfl, ?_⟩
      have h := sinks_steady (feedPipe ⟨env, m.defaults, m.contentLength + chunk.length⟩ p.length p chunk).out
        (Msg.addNotes { m with contentLength := m.contentLength + chunk.length, hashed := m.hashed ++ chunk }
          (feedPipe ⟨env, m.defaults, m.contentLength + chunk.length⟩ p.length p chunk).notes)
      exact ⟨h.headers, h.trailers, h.kind, h.startTime, h.caching⟩

/-- the declared character encodings are usable -/
def CharsetFine (env : Env) (m : Msg) : Prop := ∀ t cs, ContentType m t (some cs) → Usable env cs

theorem setCharset_returns (m : Msg) (hT : TypedHeaders env m) (hch : CharsetFine env m) : ∃ m', m.setCharset env = (m', .ok ()) ∧ Steady m m' := by
  unfold Msg.setCharset
  rcases content_type_pair hT with h | ⟨t, cs, ps, h, hcs⟩
  · rw [h]; exact ⟨_, rfl, .refl _⟩
  · have hU : ∀ x, cs = some x → Usable env x := fun x e => hch t x ⟨ps, h, by rw [hcs, e]⟩
    rw [h]
    dsimp only
    rw [show (Val.tuple [.str t, .dict ps]).idx 1 = .ok (.dict ps) from rfl]
    dsimp only
    rw [if_neg (by simp [Val.isDict]), hcs]
    cases cs with
    | none => exact ⟨_, rfl, .refl _⟩
    | some x =>
      dsimp only [Option.map]
      cases hl : env.codecsLookup x with
      | ok c => exact ⟨_, rfl, rfl, rfl, rfl, rfl, rfl⟩
      | error e =>
        dsimp only
        rw [if_pos (by rcases (hU x rfl).lookup _ hl with h | h <;> rw [h] <;> rfl)]
        exact ⟨_, rfl, .refl _⟩

/-- running a check that returns -/
theorem runW_returns {m : Msg} {w : W Unit} (h : Returns w) : m.runW w = (m.addNotes w.notes, .ok ()) := by
  obtain ⟨u, hu⟩ := h
  unfold Msg.runW
  rw [hu]

theorem andThen_returns {r : Run Unit} {f : Msg → Unit → Run Unit} {m1 : Msg} (hr : r = (m1, .ok ())) (hf : ∃ m', f m1 () = (m', .ok ())) :
    ∃ m', Run.andThen r f = (m', .ok ()) := by
  rw [hr]; exact hf

theorem of_run {X : Run Unit} {rn : List Note} {m : Msg} (hk : m.kind ≠ .request) (h : ∃ m', X = (m', .ok ())) :
    ∃ m' rn', (X, rn) = ((m', .ok ()), rn') ∧ (m.kind = .request → m'.caching = m.caching) := by
  obtain ⟨m', rfl⟩ := h
  exact ⟨m', rn, rfl, fun e => absurd e hk⟩

/-- the checks at the end return -/
theorem postChecks_return (hC : Contract env) (related : Option Msg) (m : Msg) (hS : Settled env m.kind m.headers) (ha : m.kind = .response → AgeFine m related)
    (hch : CharsetFine env m) : ∃ m' rn, postChecks env related m = ((m', .ok ()), rn) ∧ (m.kind = .request → m'.caching = m.caching) ∧ OnlyNotes m m' := by
  have hT := hS.typedHeaders
  have honly := postChecks_only env related m
  have key : ∃ m' rn, postChecks env related m = ((m', .ok ()), rn) ∧ (m.kind = .request → m'.caching = m.caching) := by
    unfold postChecks
    split
    · have : Returns (requestPostChecks env related m) := by
        unfold requestPostChecks
        refine .bind ⟨_, checkPreflightRequest_ok _ _⟩ fun _ _ => .bind (.when fun _ => .add ..) fun _ _ => ?_
        split
        · exact .when fun _ => .add ..
        · exact .pure _
      rw [runW_returns this]
      exact ⟨_, _, rfl, fun _ => rfl⟩
    · rename_i hk
      unfold responsePostChecks
      rw [runW_returns (preflight_returns (c := ⟨env, m, related⟩) hS _)]
      dsimp only
      generalize hm1 : m.addNotes _ = m1
      have e1 : m1.headers = m.headers := by rw [← hm1]; rfl
      have k1 : m1.kind = .response := by rw [← hm1]; exact hk
      have a1 : AgeFine m1 related := by subst hm1; exact ha hk
      have hT1 : TypedHeaders env m1 := by subst hm1; exact hT
      have hw := cache_returns (c := ⟨env, m1, related⟩) hT1 k1 a1
      generalize cacheCheck ⟨env, m1, related⟩ = cc at hw
      obtain ⟨ca, w, rn⟩ := cc
      dsimp only at hw ⊢
      refine of_run (by rw [hk]; decide) ?_
      rw [runW_returns hw]
      refine andThen_returns rfl ?_
      generalize hm2 : Msg.addNotes _ w.notes = m2
      have e2 : m2.headers = m.headers := by rw [← hm2, ← e1]; cases ca <;> rfl
      have k2 : m2.kind = m.kind := by rw [← hm2, hk, ← k1]; cases ca <;> rfl
      have hT2 : TypedHeaders env m2 := by unfold TypedHeaders; rw [e2, k2]; exact hT
      rw [runW_returns (status_returns (c := ⟨env, m2, related⟩) hT2 (k2.trans hk))]
      refine andThen_returns rfl ?_
      generalize hm3 : Msg.addNotes m2 _ = m3
      have e3 : m3.headers = m.headers := by rw [← hm3]; exact e2
      have k3 : m3.kind = m.kind := by rw [← hm3]; exact k2
      have hT3 : TypedHeaders env m3 := by unfold TypedHeaders; rw [e3, k3]; exact hT
      split
      · exact ⟨_, rfl⟩
      · rw [runW_returns (contentType_returns (c := ⟨env, m3, related⟩) hT3)]
        refine andThen_returns rfl ?_
        generalize hm4 : Msg.addNotes m3 _ = m4
        have e4 : m4.headers = m.headers := by rw [← hm4]; exact e3
        have k4 : m4.kind = m.kind := by rw [← hm4]; exact k3
        have hT4 : TypedHeaders env m4 := by unfold TypedHeaders; rw [e4, k4]; exact hT
        exact ⟨_, runW_returns (charset_returns (c := ⟨env, m4, related⟩) hC hT4 fun t cs hc => hch t cs (by obtain ⟨ps, h⟩ := hc; exact ⟨ps, by rw [← e4]; exact h⟩))⟩
  obtain ⟨m', rn, e, h⟩ := key
  rw [e] at honly
  exact ⟨m', rn, e, h, honly⟩

/-- `finish_content` returns -/
theorem finish_returns_all (hC : Contract env) (related : Option Msg) (co : Bool) (ts : List (Str × Str)) (m : Msg)
    (hrel : ∀ r, related = some r → TypedHeaders env r ∧ (m.kind = .response → r.kind = .request)) (hS : Settled env m.kind m.headers)
    (hS' : Settled env m.kind m.trailers) (hn : ts ≠ [] → Untouched m.trailers) (hl : CalmLines ts) (hca : m.kind = .request → m.caching = none)
    (ha : m.kind = .response → AgeFine m related) (hch : CharsetFine env m) :
    ∃ m' rn, m.finishContent env related co ts = ((m', .ok ()), rn) ∧ m'.headers = m.headers ∧ Settled env m.kind m'.trailers ∧ m'.kind = m.kind ∧
      m'.startTime = m.startTime ∧ (m.kind = .request → m'.caching = none) ∧ (ts = [] → m'.trailers = m.trailers) := by
  unfold Msg.finishContent
  dsimp only
  generalize hm0 : ({ m with complete := co, contentHash := some (env.md5 m.hashed) } : Msg) = m0
  have h0 : Steady m m0 := by rw [← hm0]; exact ⟨rfl, rfl, rfl, rfl, rfl⟩
  have key : ∃ m1, (if ts.isEmpty then (m0, .ok ()) else processSection env related true ts m0 : Run Unit) = (m1, .ok ()) ∧
      Settled env m.kind m1.trailers ∧ m1.headers = m.headers ∧ m1.kind = m.kind ∧ m1.startTime = m.startTime ∧ m1.caching = m.caching ∧
      (ts = [] → m1.trailers = m.trailers) := by
    cases ts with
    | nil => exact ⟨m0, rfl, by rw [h0.trailers]; exact hS', h0.headers, h0.kind, h0.startTime, h0.caching, fun _ => h0.trailers⟩
    | cons l ls =>
      obtain ⟨m1, e, h1, ⟨ns, s, rfl⟩⟩ := section_returns hC related true (l :: ls) m0 h0.kind hrel (by rw [show m0.section true = m0.trailers from rfl, h0.trailers]; exact hn nofun)
        (by rw [show m0.section (!true) = m0.headers from rfl, h0.headers]; exact hS) hl
      exact ⟨_, e, h1, h0.headers, h0.kind, h0.startTime, h0.caching, nofun⟩
  obtain ⟨m1, e, hS1, e1, k1, st1, ca1, tr1⟩ := key
  rw [e]
  dsimp only
  generalize hm2 : Msg.addNotes _ (lengthNotes _) = m2
  have e2 : m2.headers = m.headers := by rw [← hm2]; exact e1
  have k2 : m2.kind = m.kind := by rw [← hm2]; exact k1
  have st2 : m2.startTime = m.startTime := by rw [← hm2]; exact st1
  have ca2 : m2.caching = m.caching := by rw [← hm2]; exact ca1
  have tr2 : m2.trailers = m1.trailers := by rw [← hm2]; rfl
  obtain ⟨m3, rn, e3, c3, _, ns, ca, rfl⟩ := postChecks_return hC related m2 (by rw [e2, k2]; exact hS)
    (by rw [k2]; intro hk; have := ha hk; unfold AgeFine at this ⊢; rw [e2, st2]; exact this)
    (by intro t cs ⟨ps, h⟩; exact hch t cs ⟨ps, by rw [← e2]; exact h⟩)
  rw [e3]
  unfold Run.andThen
  dsimp only
  have hca3 : ({ m2 with notes := ns, caching := ca } : Msg).kind = .request → ({ m2 with notes := ns, caching := ca } : Msg).caching = none := by
    intro hk
    rw [c3 hk, ca2]
    exact hca (k2.symm.trans hk)
  obtain ⟨ns4, e4⟩ := postHandlers_return hC related false (m2.headers.handlers.map (·.2)) { m2 with notes := ns, caching := ca }
    (by rw [show ({ m2 with notes := ns, caching := ca } : Msg).headers = m.headers from e2, show ({ m2 with notes := ns, caching := ca } : Msg).kind = m.kind from k2]; exact hS) hca3
    (by
      rw [e2]
      intro h hh
      obtain ⟨p, hp, rfl⟩ := List.mem_map.1 hh
      exact hS.done p hp)
  rw [e4]
  dsimp only
  obtain ⟨ns5, e5⟩ := postHandlers_return hC related true (m2.trailers.handlers.map (·.2)) { m2 with notes := ns4, caching := ca }
    (by rw [show ({ m2 with notes := ns4, caching := ca } : Msg).headers = m.headers from e2, show ({ m2 with notes := ns4, caching := ca } : Msg).kind = m.kind from k2]; exact hS) hca3
    (by
      rw [tr2]
      intro h hh
      obtain ⟨p, hp, rfl⟩ := List.mem_map.1 hh
      exact hS1.done p hp)
  rw [e5]
  exact ⟨_, rn, rfl, e2, by rw [← tr2] at hS1; exact hS1, k2, st2, fun hk => hca3 (k2.trans hk), fun h => tr2.trans (tr1 h)⟩

/-! ### sequences of calls -/

/-- a call that gives header lines -/
def Op.givesHeaders : Op → Bool
  | .headers _ => true
  | _ => false

/-- a call that gives trailer lines -/
def Op.givesTrailers : Op → Bool
  | .finish _ ts => !ts.isEmpty
  | _ => false

/-- an `Age` field is a number that is not negative -/
def AgeReadable (ls : List Line) : Prop := str "age" ∈ namesOf ls → ∃ k, IntText (textOf ls (str "age")) k ∧ 0 ≤ k

/-- the codecs library can cope with the charset of a `Content-Type` field -/
def CharsetUsable (env : Env) (ls : List Line) : Prop :=
  str "content-type" ∈ namesOf ls → ∀ cs, NamesCharset (textOf ls (str "content-type")) cs → Usable env cs

/-- the calls the theorem is about -/
structure OrdinaryCalls (env : Env) (kind : MsgKind) (start : Option Rat) (related : Option Msg) (ops : List Op) : Prop where
  headerLines : ∀ ls, Op.headers ls ∈ ops → CalmLines ls
  trailerLines : ∀ co ts, Op.finish co ts ∈ ops → CalmLines ts
  /-- header lines are given once, and trailer lines are -/
  headersOnce : (ops.filter Op.givesHeaders).length ≤ 1
  trailersOnce : (ops.filter Op.givesTrailers).length ≤ 1
  charset : ∀ ls, Op.headers ls ∈ ops → CharsetUsable env ls
  age : kind = .response → Facts.known start = none ∨ Facts.known (related.bind (·.startTime)) = none ∨ ∀ ls, Op.headers ls ∈ ops → AgeReadable ls

/-- the state between calls -/
structure Between (env : Env) (ops : List Op) (w : World) : Prop where
  reach : Reachable env w.msg
  headers : Settled env w.msg.kind w.msg.headers
  trailers : Settled env w.msg.kind w.msg.trailers
  newHeaders : ∀ ls, Op.headers ls ∈ ops → Untouched w.msg.headers
  newTrailers : ∀ co ts, Op.finish co ts ∈ ops → ts ≠ [] → Untouched w.msg.trailers
  caching : w.msg.kind = .request → w.msg.caching = none
  related : ∀ r, w.related = some r → TypedHeaders env r ∧ (w.msg.kind = .response → r.kind = .request)
  age : w.msg.kind = .response → AgeFine w.msg w.related
  charset : CharsetFine env w.msg

theorem reachable_step {w : World} (op : Op) (h : Reachable env w.msg) (hw : ∃ kind start nc head rel ops, w = Op.runAll env ops ⟨fresh env kind start nc head, rel⟩) :
    Reachable env (op.run env w).1.msg := by
  obtain ⟨kind, start, nc, head, rel, ops, rfl⟩ := hw
  exact ⟨kind, start, nc, head, rel, ops ++ [op], by rw [runAll_append]; rfl⟩

theorem Between.steady {op : Op} {ops : List Op} {w : World} {m' : Msg} (h : Between env (op :: ops) w) (hs : Steady w.msg m') (hr : Reachable env m') :
    Between env ops { w with msg := m' } where
  reach := hr
  headers := by rw [show ({ w with msg := m' } : World).msg = m' from rfl, hs.kind, hs.headers]; exact h.headers
  trailers := by rw [show ({ w with msg := m' } : World).msg = m' from rfl, hs.kind, hs.trailers]; exact h.trailers
  newHeaders ls hl := by rw [show ({ w with msg := m' } : World).msg = m' from rfl, hs.headers]; exact h.newHeaders ls (List.mem_cons_of_mem _ hl)
  newTrailers co ts hl hne := by rw [show ({ w with msg := m' } : World).msg = m' from rfl, hs.trailers]; exact h.newTrailers co ts (List.mem_cons_of_mem _ hl) hne
  caching := by rw [show ({ w with msg := m' } : World).msg = m' from rfl, hs.kind, hs.caching]; exact h.caching
  related := by rw [show ({ w with msg := m' } : World).msg = m' from rfl, hs.kind]; exact h.related
  age := by
    rw [show ({ w with msg := m' } : World).msg = m' from rfl, hs.kind]
    unfold AgeFine
    rw [hs.headers, hs.startTime]
    exact h.age
  charset t cs := by
    rintro ⟨ps, e⟩
    exact h.charset t cs ⟨ps, by rw [show ({ w with msg := m' } : World).msg = m' from rfl, hs.headers] at e; exact e⟩

theorem no_more {p : Op → Bool} {op : Op} {ops : List Op} (h : ((op :: ops).filter p).length ≤ 1) (hp : p op = true) : ∀ o ∈ ops, p o = false := by
  rw [List.filter_cons, if_pos hp] at h
  intro o ho
  have : ops.filter p = [] := by
    cases hf : ops.filter p with
    | nil => rfl
    | cons a b => rw [hf] at h; simp at h
  exact Bool.eq_false_iff.2 (List.filter_eq_nil_iff.1 this o ho)

theorem OrdinaryCalls.tail {kind start related op ops} (h : OrdinaryCalls env kind start related (op :: ops)) : OrdinaryCalls env kind start related ops where
  headerLines ls hl := h.headerLines ls (List.mem_cons_of_mem _ hl)
  trailerLines co ts hl := h.trailerLines co ts (List.mem_cons_of_mem _ hl)
  headersOnce := by
    have := h.headersOnce
    rw [List.filter_cons] at this
    split at this
    · rw [List.length_cons] at this; omega
    · exact this
  trailersOnce := by
    have := h.trailersOnce
    rw [List.filter_cons] at this
    split at this
    · rw [List.length_cons] at this; omega
    · exact this
  charset ls hl := h.charset ls (List.mem_cons_of_mem _ hl)
  age hk := by
    rcases h.age hk with e | e | e
    · exact .inl e
    · exact .inr (.inl e)
    · exact .inr (.inr fun ls hl => e ls (List.mem_cons_of_mem _ hl))

theorem session_returns (hC : Contract env) (kind : MsgKind) (start : Option Rat) (rstart : Option Rat) : ∀ (ops : List Op) (w : World),
    (∃ nc head rel ops, w = Op.runAll env ops ⟨fresh env kind start nc head, rel⟩) → w.msg.kind = kind → w.msg.startTime = start →
    w.related.bind (·.startTime) = rstart →
    (∀ rel : Option Msg, rel.bind (·.startTime) = rstart → OrdinaryCalls env kind start rel ops) → Between env ops w → ∃ w', RunsTo env ops w w'
  | [], w, _, _, _, _, _, _ => ⟨w, rfl⟩
  | op :: ops, w, hw, hk, hst, hrs, hO, hB => by
    have hw' : ∃ nc head rel ops', (op.run env w).1 = Op.runAll env ops' ⟨fresh env kind start nc head, rel⟩ := by
      obtain ⟨nc, head, rel, ops', rfl⟩ := hw
      exact ⟨nc, head, rel, ops' ++ [op], by rw [runAll_append]; rfl⟩
    have hreach : Reachable env (op.run env w).1.msg := by
      obtain ⟨nc, head, rel, ops', e⟩ := hw'
      exact ⟨kind, start, nc, head, rel, ops', by rw [e]⟩
    have hO' : ∀ rel : Option Msg, rel.bind (·.startTime) = rstart → OrdinaryCalls env kind start rel ops := fun rel h => (hO rel h).tail
    have ho := hO w.related hrs
    have hT := hB.headers.typedHeaders
    have go : ∀ w1, op.run env w = (w1, .ok ()) → w1.msg.kind = kind → w1.msg.startTime = start → w1.related.bind (·.startTime) = rstart → Between env ops w1 →
        ∃ w', RunsTo env (op :: ops) w w' := by
      intro w1 e h1 h2 h3 h4
      obtain ⟨w', h⟩ := session_returns hC kind start rstart ops w1 (by rw [e] at hw'; exact hw') h1 h2 h3 hO' h4
      exact ⟨w', w1, e, h⟩
    cases op with
    | requestTopline me i v =>
      obtain ⟨m', e, hs⟩ := requestTopline_returns hC me i v w.msg
      have e2 : Op.run env (.requestTopline me i v) w = ({ w with msg := m' }, .ok ()) := by simp only [Op.run, e]
      rw [e2] at hreach
      exact go _ e2 (hs.kind.trans hk) (hs.startTime.trans hst) hrs (hB.steady hs hreach)
    | responseTopline v s p =>
      obtain ⟨m', e, hs⟩ := responseTopline_returns v s p w.msg
      have e2 : Op.run env (.responseTopline v s p) w = ({ w with msg := m' }, .ok ()) := by simp only [Op.run, e]
      rw [e2] at hreach
      exact go _ e2 (hs.kind.trans hk) (hs.startTime.trans hst) hrs (hB.steady hs hreach)
    | feed chunk =>
      obtain ⟨m', e, hs⟩ := feed_returns chunk w.msg hT
      have e2 : Op.run env (.feed chunk) w = ({ w with msg := m' }, .ok ()) := by simp only [Op.run, e]
      rw [e2] at hreach
      exact go _ e2 (hs.kind.trans hk) (hs.startTime.trans hst) hrs (hB.steady hs hreach)
    | headers ls =>
      have hcl := ho.headerLines ls List.mem_cons_self
      have hu := hB.newHeaders ls List.mem_cons_self
      obtain ⟨m1, e1, hS1, hext⟩ := section_returns hC w.related false ls w.msg rfl hB.related hu hB.trailers hcl
      have P : Processed env w.related false ls w.msg m1 := ⟨⟨w.msg, hB.reach, .inl rfl⟩, hu.2.1, e1⟩
      have hup : Unpadded ls := fun l hl => (hcl l hl).1
      have k1 : m1.kind = w.msg.kind := hext.kind
      have st1 : m1.startTime = w.msg.startTime := by obtain ⟨ns, s, rfl⟩ := hext; rfl
      have ca1 : m1.caching = w.msg.caching := by obtain ⟨ns, s, rfl⟩ := hext; rfl
      have tr1 : m1.trailers = w.msg.trailers := ext_other (t := false) hext
      have hT1 : TypedHeaders env m1 := by
        have : Settled env m1.kind m1.headers := by rw [k1]; exact hS1
        exact this.typedHeaders
      have hch1 : CharsetFine env m1 := by
        intro t cs h
        obtain ⟨h1, h2⟩ := charset_named P hup hu.2.2 h
        exact ho.charset ls List.mem_cons_self h1 cs h2
      obtain ⟨m2, e2, hs⟩ := setCharset_returns m1 hT1 hch1
      have e3 : Op.run env (.headers ls) w = ({ w with msg := m2 }, .ok ()) := by
        simp only [Op.run, Msg.processHeaders, e1, Run.andThen, e2]
      rw [e3] at hreach
      have hno := no_more ho.headersOnce (show Op.givesHeaders (.headers ls) = true from rfl)
      have hk2 : m2.kind = w.msg.kind := hs.kind.trans k1
      refine go _ e3 (hk2.trans hk) (hs.startTime.trans (st1.trans hst)) hrs ⟨hreach, ?_, ?_, ?_, ?_, ?_, ?_, ?_, ?_⟩ <;> dsimp only
      · rw [hk2, hs.headers]; exact hS1
      · rw [hk2, hs.trailers, tr1]; exact hB.trailers
      · intro ls' hl
        exact absurd (hno _ hl) (by simp [Op.givesHeaders])
      · intro co ts hl hne
        rw [hs.trailers, tr1]
        exact hB.newTrailers co ts (List.mem_cons_of_mem _ hl) hne
      · rw [hk2, hs.caching, ca1]; exact hB.caching
      · rw [hk2]; exact hB.related
      · intro hkr
        have hkr' : w.msg.kind = .response := hk2.symm.trans hkr
        unfold AgeFine
        rw [hs.headers, hs.startTime, st1, hst]
        rcases ho.age (hk.symm.trans hkr') with h | h | h
        · exact .inr (.inr h)
        · exact .inr (.inl h)
        · left
          have hread := h ls List.mem_cons_self
          have hcls : classOf (str "age") = .age_ := by decide +kernel
          by_cases hin : str "age" ∈ namesOf ls
          · obtain ⟨k, hkk, h0⟩ := hread hin
            have := (C55_age_partial P hup hkr').1 _ (mem_namesFor.2 ⟨hin, hcls⟩) k hkk h0
            rw [show (m1.section false).parsed = m1.headers.parsed from rfl] at this
            rw [this]
            simp
          · have := section_values P.linting P.new hup P.ok (str "age")
            rw [if_neg hin, show (w.msg.section false).parsed = w.msg.headers.parsed from rfl, hu.2.2, show (m1.section false).parsed = m1.headers.parsed from rfl] at this
            rw [this]
            simp [dget]
      · rintro t cs ⟨ps, h⟩
        exact hch1 t cs ⟨ps, by rw [hs.headers] at h; exact h⟩
    | finish co ts =>
      obtain ⟨m', rn, e, h1, h2, h3, h4, h5, h6⟩ := finish_returns_all hC w.related co ts w.msg hB.related hB.headers hB.trailers
        (fun hne => hB.newTrailers co ts List.mem_cons_self hne) (ho.trailerLines co ts List.mem_cons_self) hB.caching hB.age hB.charset
      have e3 : Op.run env (.finish co ts) w = ({ msg := m', related := w.related.map (·.addNotes rn) }, .ok ()) := by simp only [Op.run, e]
      rw [e3] at hreach
      have hrs' : (w.related.map (·.addNotes rn)).bind (·.startTime) = rstart := by
        rw [← hrs]; cases w.related <;> rfl
      refine go _ e3 (h3.trans hk) (h4.trans hst) hrs' ⟨hreach, ?_, ?_, ?_, ?_, ?_, ?_, ?_, ?_⟩ <;> dsimp only
      · rw [h3, h1]; exact hB.headers
      · rw [h3]; exact h2
      · intro ls hl
        rw [h1]
        exact hB.newHeaders ls (List.mem_cons_of_mem _ hl)
      · intro co' ts' hl hne
        cases ts with
        | nil =>
          rw [h6 rfl]
          exact hB.newTrailers co' ts' (List.mem_cons_of_mem _ hl) hne
        | cons a b =>
          have := no_more ho.trailersOnce (show Op.givesTrailers (.finish co (a :: b)) = true from rfl) _ hl
          cases ts' with
          | nil => exact absurd rfl hne
          | cons c d => cases this
      · intro hkq; exact h5 (h3.symm.trans hkq)
      · intro r hr
        obtain ⟨r0, hr0, rfl⟩ := Option.map_eq_some_iff.1 hr
        rw [h3]
        exact hB.related r0 hr0
      · intro hkr
        have := hB.age (h3.symm.trans hkr)
        unfold AgeFine at this ⊢
        rw [h1, h4]
        have : ∀ x : Option Msg, (x.map (·.addNotes rn)).bind (·.startTime) = x.bind (·.startTime) := by intro x; cases x <;> rfl
        rw [this]
        assumption
      · rintro t cs ⟨ps, h⟩
        exact hB.charset t cs ⟨ps, by rw [h1] at h; exact h⟩

/-- **C07** a new linter, any calls that are `OrdinaryCalls` (header and trailer lines given at most once, no line of a field of `Perilous`, field
names without white space around them, a charset the codecs library copes with, `Age` readable if both times are known), any
related request: no call raises, in particular whatever the top line, the other field values, the content and its chunking are.
Missing: what `OrdinaryCalls` leaves out, where the code does raise (`C07_witnesses`). -/
theorem C07_calls_return_partial (hC : Contract env) (kind : MsgKind) (start : Option Rat) (noContent head : Bool) (related : Option Msg) (ops : List Op)
    (hrel : ∀ r, related = some r → Reachable env r ∧ TidyNames r.headers ∧ (kind = .response → r.kind = .request)) (hO : OrdinaryCalls env kind start related ops) :
    ∃ w', RunsTo env ops ⟨fresh env kind start noContent head, related⟩ w' := by
  have hu : Untouched (fresh env kind start noContent head).headers := ⟨rfl, rfl, rfl⟩
  have hu' : Untouched (fresh env kind start noContent head).trailers := ⟨rfl, rfl, rfl⟩
  refine session_returns hC kind start (related.bind (·.startTime)) ops _ ⟨noContent, head, related, [], rfl⟩ rfl rfl rfl (fun rel e => ?_) ⟨?_, ?_, ?_, ?_, ?_, ?_, ?_, ?_, ?_⟩
  · exact ⟨hO.headerLines, hO.trailerLines, hO.headersOnce, hO.trailersOnce, hO.charset, by rw [e]; exact hO.age⟩
  · exact ⟨kind, start, noContent, head, related, [], rfl⟩
  · exact hu.settled
  · exact hu'.settled
  · intro _ _; exact hu
  · intro _ _ _ _; exact hu'
  · intro _; rfl
  · intro r hr
    obtain ⟨h1, h2, h3⟩ := hrel r hr
    exact ⟨typed_headers h1 h2, h3⟩
  · intro _
    left
    simp [fresh, Msg.new, dget]
  · rintro t cs ⟨ps, h, _⟩
    simp [fresh, Msg.new, dget] at h

end

end HL.Props
