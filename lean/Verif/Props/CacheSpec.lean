import Verif.Props.Finish

/-!
# Specification for C33 - C40: what a cache may do with a response (RFC 9111)

Only facts about the request and the response appear here, not how the checker computes anything.
-/

namespace HL.Props

/-- what bears on caching a response -/
structure Facts where
  /-- the Cache-Control directives and their values, in order -/
  directives : List (Str × Val)
  /-- the names in Vary -/
  vary : List Str
  /-- Age, Date and Expires, if present and valid -/
  age : Option Int
  date : Option Int
  expires : Option Int
  /-- was there an Expires line at all, perhaps an invalid one? -/
  expiresSent : Bool
  /-- is there a valid Last-Modified or ETag? -/
  validator : Bool
  status : Option Int
  /-- of the request: its method, and whether it has Authorization -/
  method : Option Str
  authorized : Bool
  /-- when the request was sent and the response received; 0 counts as unknown -/
  requestTime : Option Rat
  responseTime : Option Rat

/-- a parsed header that is an integer (or a date), invalid, or absent -/
inductive HasInt (m : Msg) (name : Str) : Option Int → Prop
  | absent : dget m.headers.parsed name = none → HasInt m name none
  | invalid : dget m.headers.parsed name = some .none → HasInt m name none
  | valid (n : Int) : dget m.headers.parsed name = some (.int n) → HasInt m name (some n)

/-- a field line with this name was sent -/
def Sent (m : Msg) (name : Str) : Prop := ∃ p ∈ m.headers.text, lower p.1 = name

/-- `f` are the facts about the response `m` to `related` -/
structure FactsOf (m : Msg) (related : Option Msg) (f : Facts) : Prop where
  directives : (dget m.headers.parsed (str "cache-control") = none ∧ f.directives = []) ∨
    dget m.headers.parsed (str "cache-control") = some (.list (f.directives.map fun p => .tuple [.str p.1, p.2]))
  /-- max-age and s-maxage directives have integer values (others are dropped when Cache-Control is parsed) -/
  integers : ∀ p ∈ f.directives, p.1 = str "max-age" ∨ p.1 = str "s-maxage" → ∃ n, p.2 = .int n
  vary : (dget m.headers.parsed (str "vary") = none ∧ f.vary = []) ∨
    dget m.headers.parsed (str "vary") = some (.list (f.vary.map .str))
  age : HasInt m (str "age") f.age
  date : HasInt m (str "date") f.date
  expires : HasInt m (str "expires") f.expires
  expiresSent : f.expiresSent = true ↔ Sent m (str "expires")
  validator : f.validator = true ↔ ∃ n ∈ [str "last-modified", str "etag"], ∃ v, dget m.headers.parsed n = some v ∧ v ≠ .none
  status : f.status = m.statusCode
  method : f.method = related.bind (·.method)
  authorized : f.authorized = true ↔ ∃ r, related = some r ∧ Sent r (str "authorization")
  requestTime : f.requestTime = related.bind (·.startTime)
  responseTime : f.responseTime = m.startTime

namespace Facts

/-- the response has this directive -/
def Has (f : Facts) (d : Str) : Prop := ∃ v, (d, v) ∈ f.directives

instance (f : Facts) (d : Str) : Decidable (f.Has d) :=
  decidable_of_iff (d ∈ f.directives.map (·.1)) (by simp [Has])

/-- the (last) integer value of a directive -/
def value (f : Facts) (d : Str) : Option Int :=
  match f.directives.reverse.find? (fun p => p.1 = d) with
  | some (_, .int n) => some n
  | _ => none

/-- the request's method is known and its responses cannot be stored -/
def BadMethod (f : Facts) : Prop := ∃ m, f.method = some m ∧ m ≠ [] ∧ m ≠ str "GET" ∧ m ≠ str "HEAD"

/-- storing is ruled out -/
def NeverStored (f : Facts) : Prop := str "*" ∈ f.vary ∨ f.BadMethod ∨ f.Has (str "no-store")

/-- a status whose responses may be stored without explicit freshness -/
def HeuristicStatus (f : Facts) : Prop := ∃ s ∈ ([200, 203, 206, 300, 301, 410] : List Int), f.status = some s

/-- some reason why the response might be stored -/
def StorageReason (f : Facts) : Prop :=
  f.Has (str "private") ∨ f.authorized = true ∨ f.Has (str "public") ∨ (∃ e, f.expires = some e ∧ e ≠ 0) ∨
  f.Has (str "max-age") ∨ f.Has (str "s-maxage") ∨ f.HeuristicStatus

/-- the response gets as far as the age, freshness and staleness checks -/
def Stored (f : Facts) : Prop := ¬ f.NeverStored ∧ f.StorageReason

/-- known (non-zero) times -/
def known : Option Rat → Option Rat
  | some t => if t = 0 then none else some t
  | none => none

/-- RFC 9111, 4.2.3: `max(0, response_time - date_value)` (times in whole seconds) -/
def apparentAge (f : Facts) : Rat :=
  match known f.responseTime, f.date with
  | some t, some d => if d > 0 then max 0 ((F.truncRat t : Rat) - d) else 0
  | _, _ => 0

/-- RFC 9111, 4.2.3: `response_time - request_time` -/
def responseDelay (f : Facts) : Rat :=
  match known f.requestTime, known f.responseTime with
  | some q, some p => p - q
  | _, _ => 0

/-- RFC 9111, 4.2.3: `corrected_initial_age` -/
def currentAge (f : Facts) : Rat := max f.apparentAge (f.age.getD 0 + f.responseDelay)

/-- is there explicit freshness information? -/
def Explicit (f : Facts) : Prop :=
  f.Has (str "s-maxage") ∨ f.Has (str "max-age") ∨ (f.expiresSent = true ∧ known f.responseTime ≠ none)

/-- RFC 9111, 4.2.1 for a private cache: max-age, else Expires - Date (invalid Expires is 0, a missing Date is when the
response was received), else 0 -/
def lifetimePrivate (f : Facts) : Rat :=
  match f.value (str "max-age") with
  | some n => n
  | none =>
    match f.expiresSent, known f.responseTime with
    | true, some t => (f.expires.getD 0 : Int) - (match f.date with
      | some d => if d ≠ 0 then d else F.truncRat t
      | none => F.truncRat t : Int)
    | _, _ => 0

/-- RFC 9111, 4.2.1 for a shared cache: s-maxage first -/
def lifetimeShared (f : Facts) : Rat :=
  match f.value (str "s-maxage") with
  | some n => n
  | none => f.lifetimePrivate

end Facts
end HL.Props
