import Verif.Fields.Common

/-! # Set-Cookie and Cookie -/

namespace HL.F

/-! ### cookie dates -/

/-- field/parsers/set_cookie.py:305 `DELIMITER` -/
def cookieDelim (c : Nat) : Bool :=
  c == 9 || (0x20 ≤ c && c ≤ 0x2F) || (0x3B ≤ c && c ≤ 0x40) || (0x5B ≤ c && c ≤ 0x60) || (0x7B ≤ c && c ≤ 0x7E)

/-- `re.split` at single characters satisfying `p` -/
def splitP (p : Nat → Bool) : Str → List Str
  | [] => [[]]
  | x :: xs => if p x then [] :: splitP p xs else
    match splitP p xs with
    | [] => [[x]]       -- unreachable
    | w :: ws => (x :: w) :: ws

/-- `\d` on one (Latin-1) character -/
def dig (c : Nat) : Option Nat := if isAsciiDigit c then some (c - 48) else none

/-- `^(\d{2}:\d{2}:\d{2})` -/
def matchTime : Str → Option (Nat × Nat × Nat)
  | a :: b :: 58 :: c :: d :: 58 :: e :: f :: _ => do
    let a ← dig a; let b ← dig b; let c ← dig c; let d ← dig d; let e ← dig e; let f ← dig f
    return (10 * a + b, 10 * c + d, 10 * e + f)
  | _ => none

/-- `^(\d\d?)` (greedy) -/
def matchDay : Str → Option Nat
  | [] => none
  | [a] => dig a
  | a :: b :: _ => do
    let a ← dig a
    match dig b with
    | some b => return 10 * a + b
    | none => return a

/-- `^(\d{2,4})` (greedy) -/
def matchYear (s : Str) : Option Nat :=
  let d := (s.takeWhile isAsciiDigit).take 4
  if d.length < 2 then none else some (digitsVal d)

/-- field/parsers/set_cookie.py:307-320 `MONTHS` -/
def months : List Str :=
  [str "jan", str "feb", str "mar", str "apr", str "may", str "jun", str "jul", str "aug", str "sep",
   str "oct", str "nov", str "dec"]

/-- `MONTHS.get(token[:3].lower())` -/
def matchMonth (s : Str) : Option Nat :=
  (months.findIdx? (· == lower (s.take 3))).map (· + 1)

/-- the variables of `loose_date_parse`; `none` is "not found" -/
structure CookieDate where
  time : Option (Nat × Nat × Nat) := none
  day : Option Nat := none
  month : Option Nat := none
  year : Option Nat := none
  deriving DecidableEq, Repr

/-- the loop body, field/parsers/set_cookie.py:335-360 -/
def CookieDate.step (d : CookieDate) (tok : Str) : CookieDate :=
  match (if d.time.isNone then matchTime tok else none) with
  | some t => { d with time := some t }
  | none =>
    match (if d.day.isNone then matchDay tok else none) with
    | some v => { d with day := some v }
    | none =>
      match (if d.month.isNone then matchMonth tok else none) with
      | some m => { d with month := some m }
      | none =>
        match (if d.year.isNone then matchYear tok else none) with
        | some y => { d with year := some y }
        | none => d

/-- field/parsers/set_cookie.py:372-375 -/
def expandYear (y : Nat) : Nat :=
  let y := if 99 ≥ y ∧ y ≥ 70 then y + 1900 else y
  if 69 ≥ y then y + 2000 else y

/-- field/parsers/set_cookie.py:361-371: the text of the error -/
def CookieDate.missing (d : CookieDate) : Str :=
  str "didn't have a: " ++ join (str ",")
    ((if d.time.isNone then [str "time"] else []) ++ (if d.day.isNone then [str "day"] else []) ++
     (if d.month.isNone then [str "month"] else []) ++ (if d.year.isNone then [str "year"] else []))

/-- field/parsers/set_cookie.py:361-396; the error is the text of the `ValueError` -/
def CookieDate.finish (d : CookieDate) : Except Str Int :=
  match d.time, d.day, d.month, d.year with
  | some (h, mi, s), some day, some mo, some y =>
    let y := expandYear y
    if ¬ (1 ≤ day ∧ day ≤ 31) then .error (dec day ++ str " is out of range for day_of_month")
    else if y < 1601 then .error (dec y ++ str " is out of range for year")
    else if h > 23 then .error (dec h ++ str " is out of range for hour")
    else if mi > 59 then .error (dec mi ++ str " is out of range for minute")
    else if s > 59 then .error (dec s ++ str " is out of range for second")
    else match timegm y mo day h mi s with
      | .ok t => .ok t
      | .error _ => .error (str "year or month out of range")   -- cannot happen: year ≤ 9999
  | _, _, _, _ => .error d.missing

/-- field/parsers/set_cookie.py:323-396 `loose_date_parse` -/
def looseDateParse (s : Str) : Except Str Int :=
  ((splitP cookieDelim s).foldl CookieDate.step {}).finish

/-! ### Set-Cookie -/

/-- an entry of `cookie_attribute_list` -/
abbrev Attrs := List (Str × Val)

/-- `(k, "v") in attrs` -/
def Attrs.hasStr (a : Attrs) (k v : Str) : Bool := a.any fun p => p.1 == k && p.2 == .str v

/-- `("Secure", "") in attrs` -/
def Attrs.secure (a : Attrs) : Bool := a.hasStr (str "Secure") []

/-- 400 days (set_cookie.py:188,207) -/
def maxCookieLifetime : Int := 34560000

/-- `s[: s.rindex("/")]` for a string with a slash -/
def beforeLastSlash (s : Str) : Str := ((s.reverse.dropWhile (· != 47)).drop 1).reverse

/-- field/parsers/set_cookie.py:226-235 -/
def cookiePath (uriPath value : Str) : Str :=
  if value.head? = some 47 then value
  else if uriPath.count 47 < 2 then str "/"
  else beforeLastSlash uriPath

/-- field/parsers/set_cookie.py:169-279 `_process_cookie_attribute`: the new list of attributes and the new
`lifetime_note_added` -/
def processCookieAttribute (name value cookieName : Str) (attrs : Attrs) (uriPath : Str)
    (currentTime : Option Rat) (add : AddNote) (lifetime : Bool) : W (Attrs × Bool) := do
  let cn : Dict Val := [(str "cookie_name", .str cookieName)]
  let n := lower name
  if n = str "expires" then
    match looseDateParse value with
    | .error why => do
      add.add .SET_COOKIE_BAD_DATE ((str "why", .str why) :: cn)
      return (attrs, lifetime)
    | .ok t => do
      let attrs := attrs ++ [(str "Expires", .int t)]
      match currentTime with
      | some now =>
        if now ≠ 0 ∧ (t : Rat) > now + maxCookieLifetime ∧ lifetime = false then do
          add.add .SET_COOKIE_LIFETIME_TOO_LONG (cn ++ [(str "duration", .rel t now 0)])
          return (attrs, true)
        else return (attrs, lifetime)
      | none => return (attrs, lifetime)
  else if n = str "max-age" then
    if value = [] then do
      add.add .SET_COOKIE_EMPTY_MAX_AGE cn
      return (attrs, lifetime)
    else do
      W.when (value.head? == some 48 && value.length > 1) (add.add .SET_COOKIE_LEADING_ZERO_MAX_AGE cn)
      if !isDigit value then do
        add.add .SET_COOKIE_NON_DIGIT_MAX_AGE cn
        return (attrs, lifetime)
      else match pyInt value with
        | none => W.throw .valueError
        | some delta =>
          let attrs := attrs ++ [(str "Max-Age", .int delta)]
          if delta > maxCookieLifetime ∧ lifetime = false then do
            add.add .SET_COOKIE_LIFETIME_TOO_LONG (cn ++ [(str "duration", .rel delta 0 0)])
            return (attrs, true)
          else return (attrs, lifetime)
  else if n = str "domain" then
    match value with
    | [] => do
      add.add .SET_COOKIE_EMPTY_DOMAIN cn
      return (attrs, lifetime)
    | c :: r =>
      return (attrs ++ [(str "Domain", .str (if c = 46 then r else value))], lifetime)
  else if n = str "path" then
    return (attrs ++ [(str "Path", .str (cookiePath uriPath value))], lifetime)
  else if n = str "secure" then return (attrs ++ [(str "Secure", .str [])], lifetime)
  else if n = str "httponly" then return (attrs ++ [(str "HttpOnly", .str [])], lifetime)
  else if n = str "samesite" then
    let v := lower value
    if v = str "strict" then return (attrs ++ [(str "SameSite", .str (str "Strict"))], lifetime)
    else if v = str "none" then return (attrs ++ [(str "SameSite", .str (str "None"))], lifetime)
    else if v = str "lax" ∨ v = [] then return (attrs ++ [(str "SameSite", .str (str "Lax"))], lifetime)
    else do
      add.add .SET_COOKIE_UNKNOWN_ATTRIBUTE_VALUE
        (cn ++ [(str "attribute_name", .str name), (str "attribute_value", .str value)])
      return (attrs, lifetime)
  else if n = str "partitioned" then return (attrs ++ [(str "Partitioned", .str [])], lifetime)
  else if n = str "priority" then do
    add.add .SET_COOKIE_PRIORITY cn
    return (attrs, lifetime)
  else if n = str "version" then do
    add.add .SET_COOKIE_VERSION cn
    return (attrs, lifetime)
  else do
    add.add .SET_COOKIE_UNKNOWN_ATTRIBUTE (cn ++ [(str "attribute", .str name)])
    return (attrs, lifetime)

/-- field/parsers/set_cookie.py:125-132: name and value of one attribute -/
def splitAttr (av : Str) : Str × Str :=
  match split1 61 av with
  | some (a, b) => (strip a, strip b)
  | none => (strip av, [])

/-- the loop of field/parsers/set_cookie.py:119-151 over the `;`-separated attributes -/
def cookieAttrLoop (cookieName uriPath : Str) (currentTime : Option Rat) (add : AddNote) :
    List Str → List Str → Attrs → Bool → W Attrs
  | [], _, attrs, _ => pure attrs
  | av :: rest, seen, attrs, lifetime => do
    let (name, value) := splitAttr av
    W.when (seen.contains (lower name))
      (add.add .SET_COOKIE_ATTRIBUTE_DUP [(str "cookie_name", .str cookieName), (str "attribute", .str name)])
    let (attrs, lifetime) ← processCookieAttribute name value cookieName attrs uriPath currentTime add lifetime
    cookieAttrLoop cookieName uriPath currentTime add rest (lower name :: seen) attrs lifetime

/-- the pieces the `while unparsed_attributes != ""` loop sees: `split(";")` without a final empty piece -/
def cookieAvs (s : Str) : List Str :=
  let l := splitOn 59 s
  if l.getLast? = some [] then l.dropLast else l

/-- field/parsers/set_cookie.py:282-302 `check_prefixes` -/
def checkPrefixes (cookieName : Str) (attrs : Attrs) (add : AddNote) : W Unit := do
  let cn : Dict Val := [(str "cookie_name", .str cookieName)]
  let l := lower cookieName
  W.when (startsWith (str "__secure-") l && !attrs.secure) (add.add .SET_COOKIE_PREFIX_SECURE_MISSING cn)
  W.when (startsWith (str "__host-") l) do
    W.when (!attrs.secure) (add.add .SET_COOKIE_PREFIX_SECURE_MISSING cn)
    W.when (!attrs.hasStr (str "Path") (str "/")) (add.add .SET_COOKIE_PREFIX_HOST_BAD_PATH cn)
    W.forEach attrs fun p =>
      W.when (p.1 == str "Domain") (add.add .SET_COOKIE_PREFIX_HOST_BAD_DOMAIN cn)

/-- field/parsers/set_cookie.py:88-99: name, value and the unparsed attributes -/
def splitCookie (s : Str) : Str × Str × Str :=
  let (nv, rest) := splitSemi s
  match split1 61 nv with
  | some (a, b) => (strip a, strip b, rest)
  | none => ([], strip nv, rest)

/-- field/parsers/set_cookie.py:21 -/
def maxSetCookieValueLength : Nat := 128

/-- field/parsers/set_cookie.py:79-166 `loose_parse` -/
def looseParse (s uriPath : Str) (currentTime : Option Rat) (add : AddNote) : W (Str × Str × Attrs) := do
  let (name, value, unparsed) := splitCookie s
  if name = [] ∧ value = [] then do
    add.add .SET_COOKIE_NO_NAME
    W.throw .valueError
  else do
    W.when (name.length + value.length > 4096)
      (add.add .SET_COOKIE_TOO_LARGE [(str "cookie_name", .str name)])
    W.when (value.length > maxSetCookieValueLength)
      (add.add .SET_COOKIE_VALUE_TOO_LARGE [(str "cookie_name", .str name),
        (str "set_cookie_value_length", .str (commaNum value.length ++ str " bytes"))])
    let attrs ← cookieAttrLoop name uriPath currentTime add (cookieAvs unparsed) [] [] false
    W.when (attrs.hasStr (str "SameSite") (str "None") && !attrs.secure)
      (add.add .SET_COOKIE_NOT_SECURE [(str "cookie_name", .str name)])
    W.when (attrs.hasStr (str "Partitioned") [] && !attrs.secure)
      (add.add .SET_COOKIE_PARTITIONED_NO_SECURE [(str "cookie_name", .str name)])
    checkPrefixes name attrs add
    return (name, value, attrs)

/-- the Python value of a parsed cookie: `(name, value, [(attr, value), ...])` -/
def cookieVal (c : Str × Str × Attrs) : Val :=
  .tuple [.str c.1, .str c.2.1, .list (c.2.2.map fun p => .tuple [.str p.1, p.2])]

/-- field/parsers/set_cookie.py:39-46; the notes are not added yet but kept in `aux.notes`.
`urlsplit` raising `ValueError` makes `parse` raise it. -/
def set_cookie.parse (c : Ctx) (add : AddNote) (aux : Aux) (v : Str) : Aux × W Val :=
  match c.env.urlsplit c.msg.baseUri with
  | .error e => (aux, W.throw e)
  | .ok u =>
    let r := looseParse v u.path c.msg.startTime add
    ({ aux with notes := aux.notes ++ r.notes }, ⟨[], r.res.map cookieVal⟩)

/-- back from the Python value to name, value, attributes (parsed values of Set-Cookie only) -/
def cookieOf (v : Val) : Str × Str × Attrs :=
  match v with
  | .tuple [.str n, .str x, .list as] => (n, x, as.filterMap fun a => match a with
    | .tuple [.str k, y] => some (k, y)
    | _ => none)
  | _ => ([], [], [])

/-- field/parsers/set_cookie.py:72-76 `_is_hardened` -/
def isHardened (a : Attrs) : Bool :=
  a.secure && a.hasStr (str "HttpOnly") [] &&
    (a.hasStr (str "SameSite") (str "Strict") || a.hasStr (str "SameSite") (str "Lax"))

/-- field/parsers/set_cookie.py:48-69 -/
def set_cookie.evaluate (add : AddNote) (h : Handler) : W Unit := do
  let items ← W.lift h.value.iter
  let cookies := items.map cookieOf
  let names := cookies.map (·.1)
  W.when (hasDups names) (add.add .SET_COOKIE_NAME_DUP
    [(str "cookie_names", .str (join (str ", ") (pySorted strLe (duplicatesOf names))))])
  let hardened := (cookies.filter fun ck => isHardened ck.2.2).map (·.1)
  W.when (!hardened.isEmpty) (add.add .SET_COOKIE_HARDENED
    [(str "cookie_names", .md (join (str ", ") (hardened.map fun n => [96] ++ removeC 96 n ++ [96])))])
  ⟨h.aux.notes, .ok ()⟩

/-! ### Cookie -/

/-- field/parsers/cookie.py:26-55; a `CookiePair` is the tuple of its fields -/
def cookie.parse (v : Str) : Val :=
  .list (((splitOn 59 v).map strip).filter (fun i => !i.isEmpty) |>.map fun i =>
    match split1 61 i with
    | some (a, b) => .tuple [.str a, .str b]
    | none => .tuple [.str [], .str i])

end HL.F
