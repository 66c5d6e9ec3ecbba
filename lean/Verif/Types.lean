import Verif.Utils
import Verif.FieldTable

/-!
# The linter's state: handlers, field sections, messages
-/

namespace HL

/-- Scratch attributes some handlers keep besides `value`. -/
structure Aux where
  /-- set_cookie.py:36 `_deferred_notes` (each entry is a bound note, ready to be added) -/
  notes : List Note := []
  /-- content_security_policy.py, strict_transport_security.py `_deferred_notes` (to become sub-notes) -/
  kids : List (NoteId × Dict Val) := []
  /-- clear_site_data.py `_unquoted_values`, nel.py `_clean_policies` -/
  vals : List Val := []
  deriving DecidableEq, Repr

/-- field/__init__.py:30-110: an `HttpField` instance -/
structure Handler where
  fid : FieldId
  wireName : Str
  normName : Str
  canonicalName : Str
  category : Cat
  reference : Str
  value : Val := .list []
  /-- `SingletonField.raw_values`, `BrokenField.raw_values` (with offsets) -/
  raw : List (Str × Nat) := []
  /-- `StructuredField._sf_parsed` -/
  sfParsed : Bool := false
  aux : Aux := {}
  deriving DecidableEq, Repr

/-- field/section.py:19-34 `FieldSection` -/
structure Section where
  isTrailer : Bool
  text : List (Str × Str) := []
  parsed : Dict Val := []
  size : Nat := 0
  handlers : Dict Handler := []
  deriving DecidableEq, Repr

/-- the public attributes of `ResponseCacheChecker` (cache.py:13-22, types.py CachingProtocol) -/
structure Caching where
  age : Rat := 0
  storePrivate : Bool := true
  storeShared : Bool := true
  lifetimePrivate : Rat := 0
  lifetimeShared : Rat := 0
  deriving DecidableEq, Repr

/-- one decoder in the pipeline (content_encoding.py:77-86, 208-214) -/
inductive CodingKind where
  | gzip | br
  deriving DecidableEq, Repr

structure Decoder where
  kind : CodingKind
  ok : Bool := true
  inGzip : Bool := false
  headerBuf : Str := []
  decompressed : Nat := 0
  /-- calls already made to the library's decompressor object -/
  history : List Str := []
  deriving DecidableEq, Repr

/-- content_encoding.py:16-32 `ContentEncodingProcessor`; the pipeline is the list of decoders in the
order data meets them; the sink is implicit. -/
structure DecState where
  length : Nat := 0
  /-- everything passed to the hash object -/
  hashed : Str := []
  hash : Option Str := none
  decodeOk : Bool := true
  pipeline : Option (List Decoder) := none
  deriving DecidableEq, Repr

inductive MsgKind where
  | request | response
  deriving DecidableEq, Repr

/-- message.py:38-85, 193-207, 262-277: a linter -/
structure Msg where
  kind : MsgKind
  /-- `Notes._default_vars` -/
  defaults : Dict Val
  notes : List Note := []
  startTime : Option Rat := none
  noContent : Bool := false
  version : Str := []
  baseUri : Str := []
  headers : Section := { isTrailer := false }
  trailers : Section := { isTrailer := true }
  contentLength : Nat := 0
  contentHash : Option Str := none
  /-- everything passed to `_hash_processor` -/
  hashed : Str := []
  characterEncoding : Option Str := none
  contentSample : Str := []
  complete : Bool := false
  decoded : DecState := {}
  -- request
  method : Option Str := none
  iri : Option Str := none
  uri : Option Str := none
  -- response
  statusCode : Option Int := none
  statusCodeStr : Option Str := none
  statusPhrase : Option Str := none
  isHeadResponse : Bool := false
  /-- `hasattr(message, "caching")` is `isSome` -/
  caching : Option Caching := none
  deriving DecidableEq, Repr

/-- what a check can see: the libraries, its message, and the related message -/
structure Ctx where
  env : Env
  msg : Msg
  related : Option Msg := none

namespace Ctx
/-- `message.request` for a response (`None` for a request linter is never consulted) -/
def request (c : Ctx) : Option Msg := c.related
def isRequest (c : Ctx) : Bool := c.msg.kind = .request
end Ctx

/-! ### dynamic operations used by field code -/

namespace Val

/-- Python `==` between the values that are compared.  `http_sf.Token` and `DisplayString` are
`UserString`s: they compare by content, also with `str`. -/
def text? : Val → Option Str
  | .str s | .md s | .token s | .disp s => some s
  | _ => .none

def pyEq (a b : Val) : Bool :=
  match a.text?, b.text? with
  | some s, some t => s == t
  | _, _ => a == b

/-- iteration; `TypeError` for non-iterables -/
def iter : Val → Except Exn (List Val)
  | .list xs | .tuple xs | .set xs => .ok xs
  | .dict xs => .ok (xs.map fun
    | .tuple (k :: _) => k
    | v => v)
  | .str s | .token s | .disp s | .md s => .ok (s.map fun c => .str [c])
  | .bytes s => .ok (s.map fun c => .int (Int.ofNat c))
  | _ => .error .typeError

/-- `v[i]` on sequences -/
def idx (v : Val) (i : Nat) : Except Exn Val :=
  match v with
  | .list xs | .tuple xs => match xs[i]? with
    | some x => .ok x
    | .none => .error .indexError
  | .str s | .token s | .disp s | .md s => match s[i]? with
    | some c => .ok (.str [c])
    | .none => .error .indexError
  | .bytes s => match s[i]? with
    | some c => .ok (.int (Int.ofNat c))
    | .none => .error .indexError
  | .dict _ => .error .keyError
  | _ => .error .typeError

/-- `x in v` -/
def contains (v x : Val) : Except Exn Bool :=
  match v with
  | .str s | .md s => match x.text? with
    | some t => .ok (isSub t s)
    | .none => .error .typeError
  | v => (v.iter).map fun l => l.any (pyEq x)

/-- `a, b = v` -/
def unpack2 (v : Val) : Except Exn (Val × Val) :=
  match v.iter with
  | .error e => .error e
  | .ok [a, b] => .ok (a, b)
  | .ok _ => .error .valueError

/-- `v.items()`; `AttributeError` if it is not a `dict` -/
def items (v : Val) : Except Exn (List (Val × Val)) :=
  match v with
  | .dict xs => .ok (xs.filterMap fun
    | .tuple [k, x] => some (k, x)
    | _ => .none)
  | _ => .error .attributeError

/-- `type(v).__name__` -/
def typeName : Val → Str
  | .none => HL.str "NoneType"
  | .bool _ => HL.str "bool"
  | .int _ => HL.str "int"
  | .num _ => HL.str "Decimal"
  | .str _ => HL.str "str"
  | .md _ => HL.str "MarkdownSafe"
  | .token _ => HL.str "Token"
  | .disp _ => HL.str "DisplayString"
  | .bytes _ => HL.str "bytes"
  | .date _ => HL.str "datetime"
  | .rel _ _ _ => HL.str "RelativeTime"
  | .origin _ _ _ => HL.str "OriginValue"
  | .list _ => HL.str "list"
  | .tuple _ => HL.str "tuple"
  | .set _ => HL.str "set"
  | .dict _ => HL.str "dict"

/-- `isinstance(v, str)` -/
def isStr : Val → Bool
  | .str _ | .md _ => true
  | _ => false
/-- `isinstance(v, Token)` -/
def isToken : Val → Bool
  | .token _ => true
  | _ => false
/-- `isinstance(v, bool)` -/
def isBool : Val → Bool
  | .bool _ => true
  | _ => false
/-- `isinstance(v, int)` (`bool` is a subclass of `int`) -/
def isInt : Val → Bool
  | .int _ | .bool _ => true
  | _ => false
/-- `isinstance(v, dict)` -/
def isDict : Val → Bool
  | .dict _ => true
  | _ => false
/-- `isinstance(v, list)` -/
def isList : Val → Bool
  | .list _ => true
  | _ => false
/-- `isinstance(v, tuple)` -/
def isTuple : Val → Bool
  | .tuple _ => true
  | _ => false

end Val

/-- lexicographic comparison of strings (`<=` on `str`) -/
def strLe : Str → Str → Bool
  | [], _ => true
  | _ :: _, [] => false
  | a :: s, b :: t => a < b || (a == b && strLe s t)

/-- insertion into a sorted list, after equal elements -/
def insertSorted {α} (le : α → α → Bool) (x : α) : List α → List α
  | [] => [x]
  | y :: ys => if le y x then y :: insertSorted le x ys else x :: y :: ys

/-- `sorted(l, key=...)`: a stable sort -/
def pySorted {α} (le : α → α → Bool) (l : List α) : List α := l.foldl (fun acc x => insertSorted le x acc) []

/-- `set(l)` as a list in first-occurrence order -/
def dedup (l : List Str) : List Str := l.foldl (fun acc x => if acc.contains x then acc else acc ++ [x]) []

/-- `float(s)` for finite results, as a rational; `none` for `ValueError`, and for `inf`/`nan` (which
every caller rejects in the same way) -/
def pyFloat (s : Str) : Option Rat :=
  let t := strip s
  let (neg, body) := match t with
    | 45 :: r => (true, r)
    | 43 :: r => (false, r)
    | r => (false, r)
  -- split off the exponent
  let (mant, exp) := match split1 101 (lower body) with
    | some (m, e) => (m, some e)
    | none => (body, none)
  let (ip, fp) := match split1 46 mant with
    | some (a, b) => (a, some b)
    | none => (mant, none)
  let digits (x : Str) : Option Str := if x = [] then some [] else intDigits x
  let expVal : Option Int := match exp with
    | none => some 0
    | some e =>
      let (eneg, eb) := match e with
        | 45 :: r => (true, r)
        | 43 :: r => (false, r)
        | r => (false, r)
      (intDigits eb).map fun d => if eneg then - (digitsVal d : Int) else digitsVal d
  match digits ip, digits (fp.getD []), expVal with
  | some i, some f, some e =>
    if i = [] ∧ f = [] then none
    else
      let m : Rat := (digitsVal (i ++ f) : Int) / ((10 ^ f.length : Nat) : Int)
      let v : Rat := if e < 0 then m / ((10 ^ e.natAbs : Nat) : Int) else m * ((10 ^ e.natAbs : Nat) : Int)
      some (if neg then -v else v)
  | _, _, _ => none

end HL
