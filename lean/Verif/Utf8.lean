import Verif.Eff

/-!
# UTF-8, percent-encoding and the display of bytes

CPython's `utf-8` codec as far as `util.py` and `message.py` use it, `urllib.parse.quote`, and util.py:46-60.
-/

namespace HL

/-- a hexadecimal digit, in lower case -/
def hexDigit (n : Nat) : Nat := if n < 10 then 48 + n else 87 + n
/-- `binascii.b2a_hex`, `bytes.hex()` -/
def hexStr (s : Str) : Str := s.flatMap fun b => [hexDigit (b / 16), hexDigit (b % 16)]
/-- a hexadecimal digit, in upper case -/
def hexDigitU (n : Nat) : Nat := if n < 10 then 48 + n else 55 + n

/-- `chr(c).encode("utf-8")`; surrogates (and what is no code point) have no encoding -/
def utf8Enc (c : Nat) : Option Str :=
  if c < 128 then some [c]
  else if c < 2048 then some [192 + c / 64, 128 + c % 64]
  else if 55296 ≤ c && c < 57344 then none
  else if c < 65536 then some [224 + c / 4096, 128 + c / 64 % 64, 128 + c % 64]
  else if c < 1114112 then some [240 + c / 262144, 128 + c / 4096 % 64, 128 + c / 64 % 64, 128 + c % 64]
  else none

/-- `s.encode("utf-8")`; `UnicodeEncodeError` on a surrogate -/
def utf8Encode : Str → Except Exn Str
  | [] => .ok []
  | c :: s => match utf8Enc c with
    | none => .error .unicodeError
    | some b => (utf8Encode s).map (b ++ ·)

/-- a continuation byte -/
def isCont (b : Nat) : Bool := 128 ≤ b && b < 192

/-- may `b` follow the lead byte `a` (of three or four bytes)? Shorter encodings, surrogates and what is beyond U+10FFFF are excluded. -/
def second (a b : Nat) : Bool :=
  isCont b && !(a == 224 && b < 160) && !(a == 237 && b ≥ 160) && !(a == 240 && b < 144) && !(a == 244 && b ≥ 144)

/-- the character at the beginning of the bytes, and the bytes after it; `none` if they begin with no character -/
def utf8One : Str → Option (Nat × Str)
  | [] => none
  | a :: r =>
    if a < 128 then some (a, r)
    else if a < 194 then none
    else if a < 224 then match r with
      | b :: r => if isCont b then some ((a - 192) * 64 + (b - 128), r) else none
      | _ => none
    else if a < 240 then match r with
      | b :: c :: r => if second a b && isCont c then some (((a - 224) * 64 + (b - 128)) * 64 + (c - 128), r) else none
      | _ => none
    else if a < 245 then match r with
      | b :: c :: d :: r =>
        if second a b && isCont c && isCont d then some ((((a - 240) * 64 + (b - 128)) * 64 + (c - 128)) * 64 + (d - 128), r) else none
      | _ => none
    else none

/-- `rf"\x{hex}"` -/
def escapeBytes (bs : Str) : Str := str "\\x" ++ hexStr bs

/-- `bytes.decode("utf-8", "backslashreplace")`: each byte of an ill-formed sequence is replaced.  (The codec reports ill-formed
sequences of up to three bytes at once; their later bytes, being continuation bytes, begin no character either.)  The first argument
bounds the number of characters; the number of bytes is enough. -/
def utf8Backslash : Nat → Str → Str
  | 0, _ => []
  | _, [] => []
  | n + 1, a :: r => match utf8One (a :: r) with
    | some (c, t) => c :: utf8Backslash n t
    | none => escapeBytes [a] ++ utf8Backslash n r

/-- how many bytes at the beginning are replaced at once: the longest beginning of some character -/
def badLength : Str → Nat
  | a :: b :: r =>
    if 224 ≤ a && a < 240 then (if second a b then 2 else 1)
    else if 240 ≤ a && a < 245 then
      (if second a b then (match r with
        | c :: _ => if isCont c then 3 else 2
        | [] => 2) else 1)
    else 1
  | _ => 1

/-- `bytes.decode("utf-8", "replace")` -/
def utf8ReplaceGo : Nat → Str → Str
  | 0, _ => []
  | _, [] => []
  | n + 1, a :: r => match utf8One (a :: r) with
    | some (c, t) => c :: utf8ReplaceGo n t
    | none => 65533 :: utf8ReplaceGo n ((a :: r).drop (badLength (a :: r)))

/-- `bytes.decode("utf-8", "replace")` -/
def utf8Replace (bs : Str) : Str := utf8ReplaceGo bs.length bs

/-- util.py:46 `truncate: int = 40` -/
def displayLength : Nat := 40

/-- util.py:46-60 `display_bytes`, given `str.isprintable` on characters -/
def displayBytes (printable : Nat → Bool) (bs : Str) : Str :=
  ((utf8Backslash bs.length bs).take displayLength).flatMap fun c =>
    if printable c then [c] else escapeBytes ((utf8Enc c).getD [])

/-- urllib.parse `_ALWAYS_SAFE` -/
def alwaysSafe (c : Nat) : Bool :=
  (65 ≤ c && c ≤ 90) || (97 ≤ c && c ≤ 122) || (48 ≤ c && c ≤ 57) || c == 95 || c == 46 || c == 45 || c == 126

/-- `urllib.parse.quote(s, safe=safe)` -/
def urlquote (safe : Str) (s : Str) : Except Exn Str :=
  (utf8Encode s).map fun bs => bs.flatMap fun b =>
    if alwaysSafe b || safe.contains b then [b] else [37, hexDigitU (b / 16), hexDigitU (b % 16)]

/-- util.py:22-23 `pchar` -/
def pcharSafe : Str := str "-.+~" ++ str "!$&'()*+,;=" ++ str ":@" ++ str "%"

end HL
