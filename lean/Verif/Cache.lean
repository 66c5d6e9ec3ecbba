import Verif.Fields
import Verif.Section

/-!
# cache.py: `ResponseCacheChecker`
-/

namespace HL

/-- a Python number; other values raise `TypeError` in arithmetic and comparisons -/
def Val.number : Val → Except Exn Rat
  | .int i => .ok i
  | .num q => .ok q
  | .bool true => .ok 1
  | .bool false => .ok 0
  | _ => .error .typeError

/-- `dict(v)` for an iterable of pairs with string keys (a later pair overrides) -/
def Val.toDict (v : Val) : Except Exn (Dict Val) := do
  let xs ← v.iter
  xs.foldlM (fun d x => do
    let (k, y) ← x.unpack2
    return dset d (k.text?.getD []) y) []

/-- cache.py:10 `CACHEABLE_METHODS` -/
def cacheableMethods : List Str := [str "GET", str "HEAD"]
/-- cache.py:11 `HEURISTIC_CACHEABLE_STATUS` -/
def heuristicStatus : List Int := [200, 203, 206, 300, 301, 410]

/-- cache.py:15-37: the inputs of the checks -/
structure CacheIn where
  /-- the response's `notes.add` -/
  add : AddNote
  /-- the request, if there is one -/
  request : Option Msg
  status : Option Int
  /-- the response's field names, lower-cased -/
  names : List Str
  age : Val
  date : Val
  expires : Val
  lm : Val
  etag : Val
  vary : Val
  cc : Dict Val
  requestTime : Option Rat
  responseTime : Option Rat

/-- the lower-cased field names of a section -/
def Section.names (s : Section) : List Str := s.text.map fun p => lower p.1

/-- `parsed.get(name, default)` -/
def Section.getD (s : Section) (name : Str) (default : Val) : Val := (dget s.parsed name).getD default

/-- cache.py:15-37 -/
def cacheInputs (c : Ctx) : Except Exn CacheIn := do
  let h := c.msg.headers
  let cc ← (h.getD (str "cache-control") (.list [])).toDict
  return {
    add := c.msg.adder []
    request := c.request
    status := c.msg.statusCode
    names := h.names
    age := h.getD (str "age") (.int 0)
    date := h.getD (str "date") .none
    expires := h.getD (str "expires") .none
    lm := h.getD (str "last-modified") .none
    etag := h.getD (str "etag") .none
    vary := h.getD (str "vary") (.set [])
    cc
    requestTime := c.request.bind (·.startTime)
    responseTime := c.msg.startTime }

/-- a time that is not `None` and not zero -/
def truthyTime : Option Rat → Option Rat
  | some t => if t = 0 then none else some t
  | none => none

namespace CacheIn

/-- `"d" in self.cc_dict` -/
def has (i : CacheIn) (d : Str) : Bool := dhas i.cc d

/-- `self.notes.add(subject, cls, **vrs)` -/
def note (i : CacheIn) (subject : Str) (cls : NoteId) (vrs : Dict Val := []) : W Unit :=
  (i.add.on subject).add cls vrs

def fcc : Str := str "field-cache-control"

/-- both flags off -/
def noStore (st : Caching) : Caching := { st with storeShared := false, storePrivate := false }

/-- cache.py:50-63 `check_basic` -/
def checkBasic (i : CacheIn) (st : Caching) : Caching × W Bool :=
  match i.vary.contains (.str (str "*")) with
  | .error e => (st, W.throw e)
  | .ok true => (noStore st, pure false)
  | .ok false => (st, do
    W.when (!i.names.contains (str "date")) (do
      i.note [] .DATE_CLOCKLESS
      W.when (i.names.contains (str "expires") || i.names.contains (str "last-modified"))
        (i.note (str "field-expires field-last-modified") .DATE_CLOCKLESS_BAD_HDR))
    return true)

/-- cache.py:66-74: the request's method, when it makes the response uncacheable -/
def badMethod (i : CacheIn) : Option (Msg × Str) :=
  match i.request with
  | none => none
  | some r => match r.method with
    | none => none
    | some m => if m.isEmpty || cacheableMethods.contains m then none else some (r, m)

/-- cache.py:92-94: does the request carry Authorization? -/
def authorized (i : CacheIn) : Bool :=
  match i.request with
  | none => false
  | some r => r.headers.names.contains (str "authorization")

/-- is this a status that can be cached without explicit freshness? -/
def heuristic (i : CacheIn) : Bool :=
  match i.status with
  | some s => heuristicStatus.contains s
  | none => false

/-- cache.py:65-122 `check_storable`; also returns the notes added to the request -/
def checkStorable (i : CacheIn) (st : Caching) : Caching × W Bool × List Note :=
  match i.badMethod with
  | some (r, m) =>
    (noStore st, pure false, [(r.adder (str "method")).mk1 .STORE_METHOD_UNCACHEABLE [(str "method", .str m)]])
  | none =>
    if i.has (str "no-store") then (noStore st, (do i.note fcc .STORE_NO_STORE; return false), [])
    else if i.has (str "private") then
      ({ st with storeShared := false }, (do
        i.note fcc .STORE_PRIVATE_CC
        W.when (i.has (str "public")) (i.note fcc .STORE_PRIVATE_PUBLIC_CONFLICT)
        return true), [])
    else if i.authorized then
      let publicAuth (d : Str) : W Bool := do
        i.note fcc .STORE_PUBLIC_AUTH [(str "directive", .str d)]
        return true
      if i.has (str "public") then (st, publicAuth (str "public"), [])
      else if i.has (str "must-revalidate") then (st, publicAuth (str "must-revalidate"), [])
      else if i.has (str "s-maxage") then (st, publicAuth (str "s-maxage"), [])
      else ({ st with storeShared := false }, (do i.note fcc .STORE_PRIVATE_AUTH; return true), [])
    else if i.has (str "public") || i.has (str "private") || i.expires.truthy || i.has (str "max-age")
        || i.heuristic then (st, (do i.note fcc .STORE_STORABLE; return true), [])
    else if i.has (str "s-maxage") then (st, (do i.note fcc .STORE_STORABLE_SHARED_ONLY; return true), [])
    else (st, (do i.note fcc .STORE_UNSTORABLE; return false), [])

/-- `relative_time(q, 0, 0)` -/
def rel0 (q : Rat) : Val := .rel q 0 0

/-- cache.py:125-128: the apparent age -/
def apparentAge (i : CacheIn) : Except Exn Rat :=
  match truthyTime i.responseTime with
  | none => .ok 0
  | some t =>
    if i.date.truthy then do
      let d ← i.date.number
      return if d > 0 then max 0 ((F.truncRat t : Rat) - d) else 0
    else .ok 0

/-- cache.py:130-136: the corrected age value -/
def correctedAge (i : CacheIn) : Except Exn Rat :=
  match truthyTime i.requestTime, truthyTime i.responseTime with
  | some q, some p => do
    let a ← i.age.number
    return a + (p - q)
  | _, _ =>
    -- a value that is neither `None` nor a number fails in `max`
    if i.age = .none then .ok 0 else i.age.number

/-- cache.py:124-144 `check_age` -/
def checkAge (i : CacheIn) (st : Caching) : Caching × W Bool :=
  match i.apparentAge with
  | .error e => (st, W.throw e)
  | .ok a => match i.correctedAge with
    | .error e => (st, W.throw e)
    | .ok b =>
      let age := max a b
      ({ st with age }, do
        W.when (age ≥ 1) (i.note (str "field-age field-date") .CURRENT_AGE [(str "age", rel0 age)])
        return true)

/-- the lifetimes computed by `check_freshness` -/
structure Lifetimes where
  priv : Rat := 0
  shared : Rat := 0
  explicit : Bool := false
  hdrs : List Str := [str "field-date"]
  deriving DecidableEq, Repr

/-- cache.py:152-160: Expires -/
def lifetimeExpires (i : CacheIn) (l : Lifetimes) : Except Exn Lifetimes :=
  match truthyTime i.responseTime with
  | none => .ok l
  | some t =>
    if i.names.contains (str "expires") then do
      let e ← if i.expires.truthy then i.expires.number else .ok 0
      let d ← if i.date.truthy then i.date.number else .ok (F.truncRat t : Rat)
      return { priv := e - d, shared := e - d, explicit := true, hdrs := l.hdrs ++ [str "field-expires"] }
    else .ok l

/-- cache.py:161-165: max-age -/
def lifetimeMaxAge (i : CacheIn) (l : Lifetimes) : Except Exn Lifetimes :=
  match dget i.cc (str "max-age") with
  | none => .ok l
  | some v => do
    let n ← v.number
    return { priv := n, shared := n, explicit := true, hdrs := l.hdrs ++ [fcc] }

/-- cache.py:166-169: s-maxage -/
def lifetimeSMaxAge (i : CacheIn) (l : Lifetimes) : Except Exn Lifetimes :=
  match dget i.cc (str "s-maxage") with
  | none => .ok l
  | some v => do
    let n ← v.number
    return { l with shared := n, explicit := true, hdrs := l.hdrs ++ [fcc] }

/-- cache.py:147-169.  (A non-numeric lifetime is a `TypeError` at the subtraction just below; nothing is
added to the notes in between.) -/
def lifetimes (i : CacheIn) : Except Exn Lifetimes := do
  let l ← i.lifetimeExpires {}
  let l ← i.lifetimeMaxAge l
  i.lifetimeSMaxAge l

/-- `relative_time(int(q), 0, 0)` -/
def relInt (q : Rat) : Val := rel0 (F.truncRat q : Rat)
/-- `relative_time(abs(int(q)), 0, 0)` -/
def relAbs (q : Rat) : Val := rel0 ((F.truncRat q).natAbs : Rat)

/-- `"fresh" if b else "stale"` -/
def freshStr (b : Bool) : Val := .str (if b then str "fresh" else str "stale")

/-- cache.py:192-221: the explicit-freshness notes -/
def explicitNotes (i : CacheIn) (l : Lifetimes) (age : Rat) : W Unit := do
  let left := l.priv - age
  let sleft := l.shared - age
  let subject := join [32] l.hdrs
  let vrs : Dict Val := [(str "freshness_lifetime", relInt l.priv), (str "freshness_left", relAbs left),
    (str "current_age", rel0 age)]
  if l.shared ≠ l.priv then
    i.note subject .FRESHNESS_SHARED_PRIVATE [
      (str "fresh_lifetime", relInt l.priv), (str "fresh_left", relAbs left),
      (str "share_lifetime", relInt l.shared), (str "share_left", relAbs sleft),
      (str "private_status", freshStr (left > 0)), (str "shared_status", freshStr (sleft > 0))]
  else if left > 0 ∨ sleft > 0 then i.note subject .FRESHNESS_FRESH vrs
  else i.note subject .FRESHNESS_STALE_ALREADY vrs
  W.when (i.has (str "max-age") && i.names.contains (str "expires"))
    (i.note (str "field-expires field-cache-control") .CC_AND_EXPIRES)

/-- cache.py:171-235 `check_freshness`, after the lifetimes are known -/
def freshnessNotes (i : CacheIn) (l : Lifetimes) (age : Rat) : W Bool :=
  if i.has (str "no-cache") then do
    if i.lm = .none ∧ i.etag = .none then i.note fcc .FRESHNESS_NO_CACHE_NO_VALIDATOR
    else i.note fcc .FRESHNESS_NO_CACHE
    return false
  else do
    if l.explicit then i.explicitNotes l age
    else if i.heuristic then i.note (str "field-last-modified") .FRESHNESS_HEURISTIC
    else i.note [] .FRESHNESS_NONE
    W.when (i.has (str "public") && (l.explicit || i.heuristic)) (i.note fcc .STORE_PUBLIC_UNNECESSARY)
    return true

/-- cache.py:237-257 `check_stale` -/
def checkStale (i : CacheIn) (l : Lifetimes) (age : Rat) : W Unit := do
  W.when (i.has (str "stale-while-revalidate")) (i.note fcc .STALE_WHILE_REVALIDATE)
  if i.has (str "stale-if-error") then i.note fcc .STALE_IF_ERROR
  else if i.has (str "must-revalidate") then
    if l.priv - age > 0 then i.note fcc .FRESH_MUST_REVALIDATE
    else W.when l.explicit (i.note fcc .STALE_MUST_REVALIDATE)
  else if i.has (str "proxy-revalidate") || i.has (str "s-maxage") then
    if l.shared - age > 0 then i.note fcc .FRESH_PROXY_REVALIDATE
    else W.when l.explicit (i.note fcc .STALE_PROXY_REVALIDATE)
  else i.note fcc .STALE_SERVABLE

/-- cache.py:39-48: the checks in order; each runs only if the one before returned true.  Returns the
attributes, the notes added to the response, and those added to the request. -/
def run (i : CacheIn) : Caching × W Unit × List Note :=
  let (st, basic) := i.checkBasic {}
  match basic.res with
  | .error e => (st, ⟨basic.notes, .error e⟩, [])
  | .ok false => (st, ⟨basic.notes, .ok ()⟩, [])
  | .ok true =>
    let (st, storable, reqNotes) := i.checkStorable st
    let ns := basic.notes ++ storable.notes
    match storable.res with
    | .error e => (st, ⟨ns, .error e⟩, reqNotes)
    | .ok false => (st, ⟨ns, .ok ()⟩, reqNotes)
    | .ok true =>
      let (st, aged) := i.checkAge st
      let ns := ns ++ aged.notes
      match aged.res with
      | .error e => (st, ⟨ns, .error e⟩, reqNotes)
      | .ok false => (st, ⟨ns, .ok ()⟩, reqNotes)
      | .ok true =>
        match i.lifetimes with
        | .error e => (st, ⟨ns, .error e⟩, reqNotes)
        | .ok l =>
          let st := { st with lifetimePrivate := l.priv, lifetimeShared := l.shared }
          let fresh := i.freshnessNotes l st.age
          let ns := ns ++ fresh.notes
          match fresh.res with
          | .error e => (st, ⟨ns, .error e⟩, reqNotes)
          | .ok false => (st, ⟨ns, .ok ()⟩, reqNotes)
          | .ok true =>
            let stale := i.checkStale l st.age
            (st, ⟨ns ++ stale.notes, stale.res⟩, reqNotes)

end CacheIn

/-- `ResponseCacheChecker(response)`: the object (absent if construction raised), the notes added to the
response, and those added to the request -/
def cacheCheck (c : Ctx) : Option Caching × W Unit × List Note :=
  match cacheInputs c with
  | .error e => (none, W.throw e, [])
  | .ok i =>
    let (st, w, reqNotes) := i.run
    ((match w.res with | .ok () => some st | .error _ => none), w, reqNotes)

end HL
