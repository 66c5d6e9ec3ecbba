import Verif.Utf8

/-!
# What the model takes from outside

Every library function whose behaviour is not modelled is a field of `Env`; theorems quantify over all
`Env`s.  Stateful library objects (`zlib.decompressobj`, `brotli.Decompressor`) are represented by the
history of calls made to them: a deterministic object's answer is a function of that history.
-/

namespace HL

/-- outcome of `http_sf.parse` (structured_field.py:42-75) -/
inductive SfResult where
  /-- the value, and the `on_duplicate_key(key, context)` callbacks made while parsing -/
  | ok (v : Val) (dups : List (Str × Str))
  /-- `StructuredFieldError` with its text and `position` -/
  | sfError (problem : Str) (pos : Option Nat) (dups : List (Str × Str))
  /-- any other exception (`ValueError` or other: both handlers do the same) -/
  | error (problem : Str) (dups : List (Str × Str))
  deriving Repr

/-- outcome of `json.loads` (json_field.py:26-30) -/
inductive JsonResult where
  | ok (v : Val)
  /-- `JSONDecodeError` -/
  | decodeError (msg : Str)
  /-- another exception (`RecursionError`, `ValueError` for huge integers) -/
  | raises (e : Exn)
  deriving Repr

/-- outcome of one `decompress` call: output and `unconsumed_tail`, or `zlib.error` -/
inductive ZResult where
  | ok (out tail : Str)
  | err (msg : Str)
  deriving Repr

/-- `urlsplit` result -/
structure UrlParts where
  scheme : Str
  netloc : Str
  path : Str
  query : Str
  fragment : Str
  deriving DecidableEq, Repr

structure Env where
  render : RenderEnv
  /-- `http_sf.parse(bytes, tltype)` -/
  sfParse : (tltype : Str) → Str → SfResult
  /-- `json.loads` -/
  jsonLoads : Str → JsonResult
  /-- `email.utils.parsedate`: year, month, day, hour, minute, second -/
  parsedate : Str → Option (Int × Int × Int × Int × Int × Int)
  /-- `urllib.parse.urlsplit`; may raise `ValueError` -/
  urlsplit : Str → Except Exn UrlParts
  /-- `urllib.parse.urljoin`; may raise `ValueError` -/
  urljoin : Str → Str → Except Exn Str
  /-- `urllib.parse.unquote` -/
  urlunquote : Str → Str
  /-- `urllib.parse.urlunsplit` -/
  urlunsplit : UrlParts → Str
  /-- `s.encode("idna").decode("ascii")`; may raise `UnicodeError` -/
  idna : Str → Except Exn Str
  /-- `codecs.lookup(name).name` -/
  codecsLookup : Str → Except Exn Str
  /-- `bytes.decode(charset, "strict")` -/
  decode : (charset : Str) → Str → Except Exn Str
  /-- `chardet.detect`: encoding and confidence -/
  chardet : Str → Option Str × Option Rat
  /-- `str(sniffpy.sniff(sample, declared))` -/
  sniff : Str → Str → Except Exn Str
  /-- `zlib.decompressobj(-MAX_WBITS).decompress(chunk, max)` after the given earlier calls -/
  inflate : List Str → Str → ZResult
  /-- `brotli.Decompressor().process(chunk)` after the given earlier calls; `tail` is ignored -/
  brotli : List Str → Str → ZResult
  /-- `str.isprintable` of one character -/
  printable : Nat → Bool
  /-- MD5 digest -/
  md5 : Str → Str

/-- util.py:17-21: the authority; only what is before the first colon is converted -/
def Env.iriAuthority (env : Env) (authority : Str) : Except Exn Str :=
  match split1 58 authority with
  | some (host, port) => (env.idna host).map (· ++ [58] ++ port)
  | none => env.idna authority

/-- util.py:14-28 `iri_to_uri` -/
def Env.iriToUri (env : Env) (iri : Str) : Except Exn Str := do
  let u ← env.urlsplit iri
  let authority ← env.iriAuthority u.netloc
  let path ← urlquote (pcharSafe ++ str "/") u.path
  let query ← urlquote (pcharSafe ++ str "/?") u.query
  let fragment ← urlquote (pcharSafe ++ str "/?") u.fragment
  return env.urlunsplit ⟨u.scheme, authority, path, query, fragment⟩

end HL
