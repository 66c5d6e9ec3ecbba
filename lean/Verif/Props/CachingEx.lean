import Verif.Props.Caching

/-!
# C33 - C40: concrete cases, and where C35 fails
-/

namespace HL.Props

/-- a request -/
def exRequest (method : Str) (lines : List (Str × Str)) : Msg :=
  (Op.runAll toyEnv [.requestTopline method (str "h:/a") (str "1.1"), .headers lines]
    ⟨fresh toyEnv .request (some 1000) false false, none⟩).msg

/-- a response to it, received two seconds later -/
def exResponse (status : Str) (lines : List (Str × Str)) (rq : Option Msg) : Msg :=
  (Op.runAll toyEnv [.responseTopline (str "1.1") status none, .headers lines]
    ⟨fresh toyEnv .response (some 1002) false false, rq⟩).msg

theorem exResponse_reachable (status lines rq) : Reachable toyEnv (exResponse status lines rq) := by
  unfold exResponse Reachable
  exact ⟨.response, some 1002, false, false, rq, [.responseTopline (str "1.1") status none, .headers lines], rfl⟩

/-- a fresh response: `Cache-Control: max-age=60, s-maxage=5`, `Age: 10`, `Vary: Accept` -/
def exFresh : Msg := exResponse (str "200") [(str "Cache-Control", str "max-age=60, s-maxage=5"), (str "Age", str "10"), (str "Vary", str "Accept")]
  (some (exRequest (str "GET") []))

/-- its facts -/
def exFacts : Facts where
  directives := [(str "max-age", .int 60), (str "s-maxage", .int 5)]
  vary := [str "accept"]
  age := some 10
  date := none
  expires := none
  expiresSent := false
  validator := false
  status := some 200
  method := some (str "GET")
  authorized := false
  requestTime := some 1000
  responseTime := some 1002

theorem exFresh_is : (exFresh.headers.parsed, exFresh.headers.text, exFresh.statusCode, exFresh.startTime, exFresh.kind) =
    ([(str "cache-control", .list [.tuple [.str (str "max-age"), .int 60], .tuple [.str (str "s-maxage"), .int 5]]),
      (str "age", .int 10), (str "vary", .list [.str (str "accept")])],
     [(str "Cache-Control", str "max-age=60, s-maxage=5"), (str "Age", str "10"), (str "Vary", str "Accept")],
     some 200, some 1002, .response) := by kernel_rfl

theorem exRequest_is : ((exRequest (str "GET") []).method, (exRequest (str "GET") []).headers.text, (exRequest (str "GET") []).startTime) =
    (some (str "GET"), [], some 1000) := by decide +kernel

theorem exFacts_of : FactsOf exFresh (some (exRequest (str "GET") [])) exFacts := by
  have h := exFresh_is
  have hq := exRequest_is
  generalize exFresh = m at *
  generalize exRequest (str "GET") [] = q at *
  simp only [Prod.mk.injEq] at h hq
  obtain ⟨h1, h2, h3, h4, h5⟩ := h
  obtain ⟨q1, q2, q3⟩ := hq
  constructor
  · rw [h1]; exact .inr rfl
  · simp [exFacts]
  · rw [h1]; exact .inr rfl
  · exact .valid 10 (by rw [h1]; rfl)
  · exact .absent (by rw [h1]; rfl)
  · exact .absent (by rw [h1]; rfl)
  · unfold Sent; rw [h2]; simp [exFacts]; decide
  · rw [h1]; simp [exFacts, dget]
  · exact h3.symm
  · exact q1.symm
  · simp [exFacts, Sent, q2]
  · exact q3.symm
  · exact h4.symm

example : Reachable toyEnv exFresh := exResponse_reachable ..
example : exFacts.Stored := by
  refine ⟨?_, .inr (.inr (.inr (.inr (.inl ⟨_, List.mem_cons_self ..⟩))))⟩
  rintro (h | ⟨me, h1, h2, h3, _⟩ | ⟨v, h⟩)
  · exact absurd h (by decide)
  · exact h3 (Option.some.inj h1).symm
  · simp [exFacts] at h
example : exFacts.currentAge = 12 ∧ exFacts.lifetimePrivate = 60 ∧ exFacts.lifetimeShared = 5 := by decide +kernel

/-- how `finish_content` ends, the caching verdict, the caching notes, and notes added to the request -/
def exCaching (m : Msg) (rq : Option Msg) : Except Exn Unit × Option Caching × List NoteId × List NoteId :=
  let r := m.finishContent toyEnv rq true []
  (r.1.2, r.1.1.caching, (r.1.1.notes.filter (fun n => n.cls.origin = .cache)).map (·.cls), r.2.map (·.cls))

example : (let r := exCaching exFresh (some (exRequest (str "GET") [])); (r.1, r.2.2.1)) =
    (.ok (), [.DATE_CLOCKLESS, .STORE_STORABLE, .CURRENT_AGE, .FRESHNESS_SHARED_PRIVATE, .STALE_PROXY_REVALIDATE]) := by
  decide +kernel

-- never stored: no-store, Vary: *, POST
example : (let r := exCaching (exResponse (str "200") [(str "Cache-Control", str "no-store")] none) none; (r.1, r.2.1)) =
    (.ok (), some { storePrivate := false, storeShared := false }) := by decide +kernel
example : (let r := exCaching (exResponse (str "200") [(str "Vary", str "*")] none) none; (r.1, r.2.1)) =
    (.ok (), some { storePrivate := false, storeShared := false }) := by decide +kernel
example : (let r := exCaching (exResponse (str "200") [] none) (some (exRequest (str "POST") [])); (r.1, r.2.1, r.2.2.2)) =
    (.ok (), some { storePrivate := false, storeShared := false }, [.STORE_METHOD_UNCACHEABLE]) := by decide +kernel
-- only private caches: authenticated
example : (let r := exCaching (exResponse (str "200") [] none) (some (exRequest (str "GET") [(str "Authorization", str "Basic YTpi")])); (r.1, r.2.1)) =
    (.ok (), some { storePrivate := true, storeShared := false, age := 2 }) := by decide +kernel

theorem exUnstorable : (let m := exResponse (str "404") [] none
    let r := m.finishContent toyEnv none true []
    (m.kind, r.1.2, r.2, decide (.STORE_UNSTORABLE ∈ r.1.1.notes.map (·.cls)), r.1.1.caching)) =
    (.response, .ok (), [], true, some {}) := by decide +kernel

/-- **C35 fails**: the note says that the response cannot be stored, but both flags are on. -/
theorem C35_unstorable_flags_stay_on : ∃ m m' st, Reachable toyEnv m ∧ m.kind = .response ∧
    Finishes toyEnv none true [] m m' [] ∧ .STORE_UNSTORABLE ∈ m'.notes.map (·.cls) ∧ m'.caching = some st ∧
    st.storePrivate = true ∧ st.storeShared = true := by
  have hr := exResponse_reachable (str "404") [] none
  have h := exUnstorable
  generalize exResponse (str "404") [] none = m at hr h
  dsimp only at h
  simp only [Prod.mk.injEq, decide_eq_true_eq] at h
  obtain ⟨h1, h2, h3, h4, h5⟩ := h
  exact ⟨m, _, _, hr, h1, Prod.ext (Prod.ext rfl h2) h3, h4, h5, rfl, rfl⟩

theorem exSharedOnly : (let m := exResponse (str "404") [(str "Cache-Control", str "s-maxage=5")] none
    let r := m.finishContent toyEnv none true []
    (m.kind, r.1.2, r.2, decide (.STORE_STORABLE_SHARED_ONLY ∈ r.1.1.notes.map (·.cls)), (r.1.1.caching.map (·.storePrivate)))) =
    (.response, .ok (), [], true, some true) := by decide +kernel

/-- **C35 fails**: the note says that only shared caches can store the response, but `store_private` is on. -/
theorem C35_shared_only_flag_stays_on : ∃ m m' st, Reachable toyEnv m ∧ m.kind = .response ∧
    Finishes toyEnv none true [] m m' [] ∧ .STORE_STORABLE_SHARED_ONLY ∈ m'.notes.map (·.cls) ∧ m'.caching = some st ∧
    st.storePrivate = true := by
  have hr := exResponse_reachable (str "404") [(str "Cache-Control", str "s-maxage=5")] none
  have h := exSharedOnly
  generalize exResponse (str "404") [(str "Cache-Control", str "s-maxage=5")] none = m at hr h
  dsimp only at h
  simp only [Prod.mk.injEq, decide_eq_true_eq, Option.map_eq_some_iff] at h
  obtain ⟨h1, h2, h3, h4, st, h5, h6⟩ := h
  exact ⟨m, _, st, hr, h1, Prod.ext (Prod.ext rfl h2) h3, h4, h5, h6⟩

end HL.Props
