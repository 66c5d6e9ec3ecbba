import Verif.Env
import Verif.Syntax

/-!
# field/utils.py and util.py
-/

namespace HL
open Syntax

/-- `re.match(rf"^{r}$", s, RE_FLAGS)` (VERBOSE | IGNORECASE, field/utils.py:13) -/
def matchFull (r : RE) (s : Str) : Bool := r.fullEnd true s
/-- `re.match(rf"^\s*(?:{r})\s*$", s, RE_FLAGS)` -/
def matchSpaced (r : RE) (s : Str) : Bool := r.spaced true s

/-- util.py:31-43 `f_num`.  The process locale is assumed to be "C" (nothing in httplint calls
`locale.setlocale`), where `grouping=True` adds no separators; float division is exact below 2^53. -/
def fNum (i : Nat) (by1024 : Bool := false) : Str :=
  if by1024 then
    let kilo := i / 1024
    let mega := kilo / 1024
    let giga := mega / 1024
    if giga ≠ 0 then dec giga ++ str "g"
    else if mega ≠ 0 then dec mega ++ str "m"
    else if kilo ≠ 0 then dec kilo ++ str "k"
    else dec i
  else dec i

/-! ### media types -/

/-- field/utils.py:19-21: restricted-name without the length bound -/
def restrictedNameUnbounded : RE :=
  .seq rfc6838.restricted_name_first (.star rfc6838.restricted_name_chars)

/-- `s.partition(c)`: head, whether the separator was found, tail -/
def partition (c : Nat) (s : Str) : Str × Bool × Str :=
  match split1 c s with
  | some (a, b) => (a, true, b)
  | none => (s, false, [])

/-- syntax/rfc6838.py `RESTRICTED_NAME_MAX_LEN` -/
def restrictedNameMaxLen : Nat := 127

/-- field/utils.py:49-112 `check_media_type` -/
def checkMediaType (add : AddNote) (mediaType : Str) (badSyntaxNote : Option NoteId := none)
    (refUri : Option Str := none) (allowWildcard : Bool := false) (checkToken : Bool := false) :
    W Unit :=
  let badSyntax : W Unit := match badSyntaxNote with
    | none => pure ()
    | some cls => add.add cls ([(str "value", .str mediaType)] ++
        (match refUri with | none => [] | some r => [(str "ref_uri", .str r)]))
  let (typeName, slash, subtypeName) := partition 47 mediaType
  if !(slash && !typeName.isEmpty && !subtypeName.isEmpty) || subtypeName.contains 47 then badSyntax
  else
    let names := [typeName, subtypeName]
    let star := str "*"
    if names.contains star && (!allowWildcard || (typeName == star && subtypeName != star)) then
      badSyntax
    else
      let names := if names.contains star then names.filter (· != star) else names
      let tokens := names.filter (matchFull rfc9110.token)
      if tokens.length ≠ names.length ∧ checkToken = true then badSyntax
      else do
        let names := if tokens.length ≠ names.length then tokens else names
        W.when (names.any fun n => n.length > restrictedNameMaxLen)
          (add.add .MEDIA_TYPE_LONG_NAME [(str "value", .str mediaType)])
        W.when (names.any fun n => !matchFull restrictedNameUnbounded n)
          (add.add .MEDIA_TYPE_BAD_NAME [(str "value", .str mediaType)])

/-! ### strings -/

/-- `re.sub(r"\\(.)", r"\1", s)`: `.` does not match a newline -/
def unescape : Str → Str
  | [] => []
  | [c] => [c]
  | 92 :: c :: r => if c = 10 then 92 :: unescape (c :: r) else c :: unescape r
  | c :: d :: r => c :: unescape (d :: r)

/-- field/utils.py:138-153 `unquote_string` -/
def unquoteString (s : Str) : Str :=
  let s := strip s
  if s.isEmpty || s == str "*" then s
  else if s.head? = some 34 ∧ s.getLast? = some 34 then unescape ((s.drop 1).dropLast)
  else s

/-- `re.findall(rf"{item}(?=look)", s)` -/
def findall (ic : Bool) (item : RE) (look : Str → Bool) : Nat → Str → List Str
  | 0, _ => []
  | fuel + 1, s =>
    match (item.run ic s).find? look with
    | some t =>
      if t.length < s.length then s.take (s.length - t.length) :: findall ic item look fuel t
      else [] :: (match s with | [] => [] | _ :: r => findall ic item look fuel r)
    | none => match s with
      | [] => []
      | _ :: r => findall ic item look fuel r

/-- the lookahead `(?={split}|\s*$)` -/
def lookSplit (ic : Bool) (split : RE) (t : Str) : Bool :=
  !(split.run ic t).isEmpty || (RE.star RE.ws).fullEnd ic t

/-- field/utils.py:156-168 `split_string` (compiled with VERBOSE only) -/
def splitString (s : Str) (item split : RE) : List Str :=
  if s.isEmpty then []
  else (findall false item (lookSplit false split) (s.length + 1) s).map strip

/-- field/utils.py:176 `((?:[^",]|quoted_string)+)` -/
def listItemRE : RE := .plus (.alt (.ncls [(34,34), (44,44)]) rfc9110.quoted_string)
/-- field/utils.py:176 `\s*(?:,\s*)+` -/
def listSepRE : RE := .seq (.star .ws) (.plus (.seq (.ch 44) (.star .ws)))

/-- field/utils.py:171-183 `split_list_field` -/
def splitListField (s : Str) : List Str :=
  ((findall true listItemRE (lookSplit true listSepRE) (s.length + 1) s).map strip).filter
    (fun f => !f.isEmpty)

/-! ### parameters -/

/-- which parameters must not use the RFC 5987 `*` form -/
inductive NoStar where
  | none | all | names (l : List Str)
  deriving DecidableEq, Repr

/-- `\s*{delim}\s*` -/
def delimRE (delim : Nat) : RE := .seq (.star .ws) (.seq (.ch delim) (.star .ws))

/-- `val.split("'", 3)` unpacked into three names: exactly three pieces, i.e. exactly two quotes -/
def split3 (c : Nat) (s : Str) : Option (Str × Str × Str) :=
  match splitOn c s with
  | [a, b, d] => some (a, b, d)
  | _ => none

/-- one iteration of the loop of field/utils.py:195-237 -/
def parseParam (env : Env) (add : AddNote) (nostar : NoStar) (d : Dict Val) (param : Str) :
    W (Dict Val) :=
  match split1 61 param with
  | none => pure (dset d (lower param) .none)
  | some (key, val) => do
    let kNorm := lower key
    W.when (dhas d kNorm) (add.add .PARAM_REPEATS [(str "param", .str kNorm)])
    -- `val[0]` / `val[-1]` / `key[-1]` raise IndexError on an empty string
    match val, key.getLast? with
    | [], _ => W.throw .indexError
    | v0 :: _, kl => do
      W.when (v0 = 39 && val.getLast? = some 39)
        (add.add .PARAM_SINGLE_QUOTED [(str "param", .str kNorm), (str "param_val", .str val),
          (str "param_val_unquoted", .str ((val.drop 1).dropLast))])
      match kl with
      | none => W.throw .indexError
      | some kl =>
        if kl = 42 then
          let base := kNorm.dropLast
          let bad := match nostar with
            | .all => true
            | .none => false
            | .names l => l.contains base
          if bad then do
            add.add .PARAM_STAR_BAD [(str "param", .str base)]
            return d
          else do
            let quoted := v0 = 34 && val.getLast? = some 34
            W.when quoted (add.add .PARAM_STAR_QUOTED [(str "param", .str kNorm)])
            let val := if quoted then (val.drop 1).dropLast else val
            match split3 39 val with
            | none => do
              add.add .PARAM_STAR_ERROR [(str "param", .str kNorm)]
              return d
            | some (enc, _lang, escV) =>
              let enc := lower enc
              if enc = [] then do
                add.add .PARAM_STAR_NOCHARSET [(str "param", .str kNorm)]
                return d
              else if enc ≠ str "utf-8" then do
                add.add .PARAM_STAR_CHARSET [(str "param", .str kNorm), (str "enc", .str enc)]
                return d
              else return dset d kNorm (.str (env.urlunquote escV))
        else return dset d kNorm (.str (unquoteString val))

/-- the loop of field/utils.py:195-237 -/
def parseParamsLoop (env : Env) (add : AddNote) (nostar : NoStar) : Dict Val → List Str → W (Dict Val)
  | d, [] => pure d
  | d, p :: ps => do
    let d ← parseParam env add nostar d p
    parseParamsLoop env add nostar d ps

/-- field/utils.py:186-238 `parse_params` -/
def parseParams (env : Env) (add : AddNote) (s : Str) (nostar : NoStar := .none) (delim : Nat := 59) :
    W (Dict Val) :=
  parseParamsLoop env add nostar [] (splitString s rfc9110.parameter (delimRE delim))

/-- field/utils.py:24-46 `parse_media_type` -/
def parseMediaType (env : Env) (add : AddNote) (v : Str) (badSyntaxNote : Option NoteId := none)
    (refUri : Option Str := none) (allowWildcard : Bool := false) (nostar : NoStar := .none) :
    W (Str × Dict Val) := do
  let (mediaType, paramStr) := match split1 59 v with
    | some (a, b) => (a, b)
    | none => (v, [])
  let mediaType := lower (strip mediaType)
  checkMediaType add mediaType badSyntaxNote refUri allowWildcard
  let d ← parseParams env add paramStr nostar
  return (mediaType, d)

/-! ### dates -/

/-- proleptic Gregorian leap years -/
def isLeap (y : Int) : Bool := y % 4 == 0 && (y % 100 != 0 || y % 400 == 0)

/-- days before year `y` (`datetime._days_before_year`) -/
def daysBeforeYear (y : Int) : Int :=
  let y := y - 1
  y * 365 + y / 4 - y / 100 + y / 400

/-- days in a year before month `m` -/
def daysBeforeMonth (y m : Int) : Int :=
  let t : List Int := [0, 0, 31, 59, 90, 120, 151, 181, 212, 243, 273, 304, 334]
  t.getD m.toNat 0 + (if m > 2 && isLeap y then 1 else 0)

/-- `datetime.date(y, m, 1).toordinal()` -/
def ordinal1 (y m : Int) : Int := daysBeforeYear y + daysBeforeMonth y m + 1

/-- `calendar.timegm`; `ValueError` for years outside 1..9999 or months outside 1..12 -/
def timegm (y mo d h mi s : Int) : Except Exn Int :=
  if y < 1 || y > 9999 || mo < 1 || mo > 12 then .error .valueError
  else
    let days := ordinal1 y mo - 719163 + d - 1
    .ok (((days * 24 + h) * 60 + mi) * 60 + s)

/-- field/utils.py:115-135 `parse_http_date` -/
def parseHttpDate (env : Env) (add : AddNote) (v : Str) (cat : Option Cat := none) : W Int :=
  if !matchFull rfc9110.HTTP_date v then do
    add.add .BAD_DATE_SYNTAX [] cat
    W.throw .valueError
  else do
    W.when (matchFull rfc9110.obs_date v) (add.add .DATE_OBSOLETE [] cat)
    match env.parsedate v with
    | none => W.throw .valueError
    | some (y, mo, d, h, mi, s) =>
      let y := if y < 100 then (if y > 68 then y + 1900 else y + 2000) else y
      W.lift (timegm y mo d h mi s)

/-! ### structured-field helpers -/

/-- field/utils.py:288-311 `check_sf_item_token` -/
def checkSfItemToken (add : AddNote) (fieldValue : Val) (validTokens : List Str)
    (validNote invalidNote : NoteId) (kwargs : Dict Val := []) : W Unit :=
  match fieldValue with
  | .tuple (val :: _) =>
    match val with
    | .token t =>
      if validTokens.contains t then add.add validNote ([(str "value", val)] ++ kwargs)
      else add.add invalidNote ([(str "value", val)] ++ kwargs)
    | _ => add.add invalidNote ([(str "value", val)] ++ kwargs)
  | .tuple [] => W.throw .indexError
  | v => add.add invalidNote ([(str "value", v)] ++ kwargs)

end HL
