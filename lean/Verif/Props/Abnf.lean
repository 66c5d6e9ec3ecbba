import Verif.Props.GrammarThm

/-!
# C123: the syntax of field values, as the RFCs give it

A specification of the grammars in ABNF (RFC 5234), as sets of strings, without regular expressions.  It is
parametrised by the rules in which httplint differs from the RFCs (`Reading`).
-/

namespace HL.Abnf

/-- a set of strings -/
abbrev Lang := Str → Prop

/-- a character with some property -/
def char (p : Nat → Bool) : Lang := fun s => ∃ c, s = [c] ∧ p c = true
/-- `%xlo-hi` -/
def range (lo hi : Nat) : Lang := char fun c => lo ≤ c && c ≤ hi
/-- `"w"`: in ABNF a literal matches in any letter case -/
def word (w : Str) : Lang := fun s => lower s = lower w
/-- `%s"w"` (RFC 7405): in this letter case -/
def exactly (w : Str) : Lang := fun s => s = w
/-- concatenation -/
def cat : List Lang → Lang
  | [] => fun s => s = []
  | A :: As => fun s => ∃ a b, s = a ++ b ∧ A a ∧ cat As b
/-- `A / B / ...` -/
def alt (As : List Lang) : Lang := fun s => ∃ A ∈ As, A s
/-- `lo*hi A` -/
def rep (lo : Nat) (hi : Option Nat) (A : Lang) : Lang := fun s =>
  ∃ ps : List Str, s = ps.flatten ∧ lo ≤ ps.length ∧ (∀ h, hi = some h → ps.length ≤ h) ∧ ∀ p ∈ ps, A p
/-- `*A` -/
def many (A : Lang) : Lang := rep 0 none A
/-- `1*A` -/
def many1 (A : Lang) : Lang := rep 1 none A
/-- `[A]` -/
def opt (A : Lang) : Lang := rep 0 (some 1) A
/-- `nA` -/
def times (n : Nat) (A : Lang) : Lang := rep n (some n) A

/-! ### RFC 5234, appendix B -/

def ALPHA : Lang := char fun c => (65 ≤ c && c ≤ 90) || (97 ≤ c && c ≤ 122)
def DIGIT : Lang := range 48 57
/-- `DIGIT / "A" / "B" / "C" / "D" / "E" / "F"` -/
def HEXDIG : Lang := char fun c => (48 ≤ c && c ≤ 57) || (65 ≤ c && c ≤ 70) || (97 ≤ c && c ≤ 102)
def SP : Lang := word (str " ")
def HTAB : Lang := word [9]
def DQUOTE : Lang := word [34]
def CRLF : Lang := cat [word [13], word [10]]
def VCHAR : Lang := range 33 126
def WSP : Lang := alt [SP, HTAB]

/-! ### RFC 9110, the common rules -/

def OWS : Lang := many WSP
def BWS : Lang := OWS
def RWS : Lang := many1 WSP
def obsText : Lang := range 128 255
/-- `"!" / "#" / "$" / "%" / "&" / "'" / "*" / "+" / "-" / "." / "^" / "_" / "`" / "|" / "~" / DIGIT / ALPHA` -/
def tchar : Lang := char Props.isTchar
def token : Lang := many1 tchar
/-- `HTAB / SP / %x21 / %x23-5B / %x5D-7E / obs-text` -/
def qdtext : Lang := char Props.isQdtext
/-- `"\" ( HTAB / SP / VCHAR / obs-text )` -/
def quotedPair : Lang := cat [word [92], char Props.isQuotable]
def quotedString : Lang := cat [word [34], many (alt [qdtext, quotedPair]), word [34]]
def tokenOrQuoted : Lang := alt [token, quotedString]
def parameter : Lang := cat [token, word (str "="), tokenOrQuoted]
def parameters : Lang := many (cat [OWS, word (str ";"), OWS, opt parameter])
/-- `( "0" [ "." *3DIGIT ] ) / ( "1" [ "." *3"0" ] )` -/
def qvalue : Lang := alt [cat [word (str "0"), opt (cat [word (str "."), rep 0 (some 3) DIGIT])],
  cat [word (str "1"), opt (cat [word (str "."), rep 0 (some 3) (word (str "0"))])]]
def weight : Lang := cat [OWS, word (str ";"), OWS, word (str "q="), qvalue]
def mediaType : Lang := cat [token, word (str "/"), token, parameters]
def mediaRange : Lang := cat [alt [word (str "*/*"), cat [token, word (str "/*")], cat [token, word (str "/"), token]], parameters]
def digits : Lang := many1 DIGIT
def authParam : Lang := cat [token, BWS, word (str "="), BWS, tokenOrQuoted]
/-- `token [ "=" ( token / quoted-string ) ]` -/
def directive : Lang := cat [token, opt (cat [word (str "="), tokenOrQuoted])]
/-- RFC 4647: `(1*8ALPHA *("-" 1*8alphanum)) / "*"` -/
def languageRange : Lang := alt [cat [rep 1 (some 8) ALPHA, many (cat [word (str "-"), rep 1 (some 8) (alt [ALPHA, DIGIT])])], word (str "*")]
def transferCoding : Lang := cat [token, many (cat [OWS, word (str ";"), OWS, authParam])]
def product : Lang := cat [token, opt (cat [word (str "/"), token])]
/-- `HTAB / SP / %x21-27 / %x2A-5B / %x5D-7E / obs-text` -/
def ctext : Lang := alt [HTAB, SP, range 33 39, range 42 91, range 93 126, obsText]
/-- `%x21 / %x23-7E / obs-text` -/
def etagc : Lang := alt [range 33 33, range 35 126, obsText]
def opaqueTag : Lang := cat [DQUOTE, many etagc, DQUOTE]
/-- `1*( %x21-2B / %x2D-7E )` -/
def otherRange : Lang := many1 (alt [range 33 43, range 45 126])
def rangeSpec : Lang := alt [cat [digits, word (str "-"), opt digits], cat [word (str "-"), digits], otherRange]

/-! ### RFC 3986 -/

def pctEncoded : Lang := cat [word (str "%"), HEXDIG, HEXDIG]
def unreserved : Lang := alt [ALPHA, DIGIT, word (str "-"), word (str "."), word (str "_"), word (str "~")]
def subDelims : Lang := alt [word (str "!"), word (str "$"), word (str "&"), word (str "'"), word (str "("), word (str ")"), word (str "*"),
  word (str "+"), word (str ","), word (str ";"), word (str "=")]
def pchar : Lang := alt [unreserved, pctEncoded, subDelims, word (str ":"), word (str "@")]
def scheme : Lang := cat [ALPHA, many (alt [ALPHA, DIGIT, word (str "+"), word (str "-"), word (str ".")])]
def decOctet : Lang := alt [DIGIT, cat [range 49 57, DIGIT], cat [word (str "1"), times 2 DIGIT], cat [word (str "2"), range 48 52, DIGIT],
  cat [word (str "25"), range 48 53]]
def IPv4address : Lang := cat [decOctet, word (str "."), decOctet, word (str "."), decOctet, word (str "."), decOctet]
def h16 : Lang := rep 1 (some 4) HEXDIG
def h16c : Lang := cat [h16, word (str ":")]
def ls32 : Lang := alt [cat [h16, word (str ":"), h16], IPv4address]
def regName : Lang := many (alt [unreserved, pctEncoded, subDelims])
def userinfoChar : Lang := alt [unreserved, pctEncoded, subDelims, word (str ":")]
def port : Lang := many DIGIT
def segment : Lang := many pchar
def pathAbempty : Lang := many (cat [word (str "/"), segment])
def pathAbsolute : Lang := cat [word (str "/"), opt (cat [many1 pchar, pathAbempty])]
def pathNoscheme : Lang := cat [many1 (alt [unreserved, pctEncoded, subDelims, word (str "@")]), pathAbempty]
def pathRootless : Lang := cat [many1 pchar, pathAbempty]
def query : Lang := many (alt [pchar, word (str "/"), word (str "?")])

/-! ### where httplint's rules and the RFCs' differ -/

/-- the rules in which httplint differs from the RFCs -/
structure Reading where
  /-- `%s"..."` -/
  cased : Str → Lang
  /-- RFC 3986 `userinfo` -/
  userinfo : Lang
  /-- RFC 3986: what comes before `::` in an IPv6 address, with up to `n` groups before the last one -/
  groups : Nat → Lang
  /-- RFC 3986: how an `IPvFuture` starts -/
  v : Lang
  /-- RFC 3986 `path-empty` -/
  pathEmpty : Lang
  /-- RFC 9110 `partial-URI`: what may follow `relative-part` -/
  partialQuery : Lang
  /-- RFC 9110 `comment` -/
  comment : Lang
  /-- RFC 9110 `received-by` -/
  receivedBy : Lang → Lang
  /-- RFC 9110: `#auth-param` in credentials and challenges, as far as they are not empty -/
  authParams : Lang
  /-- RFC 5646 `alphanum` -/
  alphanum : Lang
  /-- RFC 5322 `comment` -/
  mailComment : Lang
  /-- RFC 5322: what may be in a `quoted-string`, after the last `qcontent` -/
  mailQuotedEnd : Lang
  /-- RFC 5322 `obs-phrase` -/
  obsPhrase : Lang
  /-- RFC 6797: the directives of Strict-Transport-Security, given what a directive is -/
  stsDirectives : Lang → Lang
  /-- RFC 6266: white space around the semicolons of Content-Disposition -/
  dispositionSpace : Lang

/-! ### rules that depend on these -/

section
variable (R : Reading)

/-- RFC 3986 `IPv6address` -/
def IPv6address : Lang := alt [
  cat [times 6 h16c, ls32],
  cat [word (str "::"), times 5 h16c, ls32],
  cat [R.groups 0, word (str "::"), times 4 h16c, ls32],
  cat [R.groups 1, word (str "::"), times 3 h16c, ls32],
  cat [R.groups 2, word (str "::"), times 2 h16c, ls32],
  cat [R.groups 3, word (str "::"), h16c, ls32],
  cat [R.groups 4, word (str "::"), ls32],
  cat [R.groups 5, word (str "::"), h16],
  cat [R.groups 6, word (str "::")]]
def IPvFuture : Lang := cat [R.v, many1 HEXDIG, word (str "."), many1 (alt [unreserved, subDelims, word (str ":")])]
def IPliteral : Lang := cat [word (str "["), alt [IPv6address R, IPvFuture R], word (str "]")]
def host : Lang := alt [IPliteral R, IPv4address, regName]
def hostPort : Lang := cat [host R, opt (cat [word (str ":"), port])]
def authority : Lang := cat [opt (cat [R.userinfo, word (str "@")]), hostPort R]
def hierPart : Lang := alt [cat [word (str "//"), authority R, pathAbempty], pathAbsolute, pathRootless, R.pathEmpty]
def relativePart : Lang := alt [cat [word (str "//"), authority R, pathAbempty], pathAbsolute, pathNoscheme, R.pathEmpty]
def absoluteURI : Lang := cat [scheme, word (str ":"), hierPart R, opt (cat [word (str "?"), query])]
def URI : Lang := cat [absoluteURI R, opt (cat [word (str "#"), query])]
def relativeRef : Lang := cat [relativePart R, opt (cat [word (str "?"), query]), opt (cat [word (str "#"), query])]
def URIreference : Lang := alt [URI R, relativeRef R]

/-- RFC 9110 `Content-Location`, `Referer` -/
def contentLocation : Lang := alt [absoluteURI R, cat [relativePart R, opt R.partialQuery]]

/-- RFC 9110 5.6.7 -/
def dayName : Lang := alt ([str "Mon", str "Tue", str "Wed", str "Thu", str "Fri", str "Sat", str "Sun"].map R.cased)
def dayNameL : Lang := alt ([str "Monday", str "Tuesday", str "Wednesday", str "Thursday", str "Friday", str "Saturday", str "Sunday"].map R.cased)
def month : Lang := alt ([str "Jan", str "Feb", str "Mar", str "Apr", str "May", str "Jun", str "Jul", str "Aug", str "Sep", str "Oct", str "Nov", str "Dec"].map R.cased)
def day : Lang := cat [DIGIT, DIGIT]
def year : Lang := times 4 DIGIT
def timeOfDay : Lang := cat [day, word (str ":"), day, word (str ":"), day]
def imfFixdate : Lang := cat [dayName R, word (str ","), SP, cat [day, SP, month R, SP, year], SP, timeOfDay, SP, R.cased (str "GMT")]
def rfc850Date : Lang := cat [dayNameL R, word (str ","), SP, cat [day, word (str "-"), month R, word (str "-"), times 2 DIGIT], SP, timeOfDay, SP, R.cased (str "GMT")]
def asctimeDate : Lang := cat [dayName R, SP, cat [month R, SP, alt [times 2 DIGIT, cat [SP, DIGIT]]], SP, timeOfDay, SP, year]
def httpDate : Lang := alt [imfFixdate R, rfc850Date R, asctimeDate R]

def entityTag : Lang := cat [opt (R.cased (str "W/")), opaqueTag]

/-- `( "a" / "b" / ... )` -/
def oneOf (ws : List Str) : Lang := alt (ws.map word)

/-- RFC 5646 -/
def langtag : Lang := cat [
  alt [cat [rep 2 (some 3) ALPHA, opt (cat [word (str "-"), times 3 ALPHA, rep 0 (some 2) (cat [word (str "-"), times 3 ALPHA])])], times 4 ALPHA, rep 5 (some 8) ALPHA],
  opt (cat [word (str "-"), times 4 ALPHA]),
  opt (cat [word (str "-"), alt [times 2 ALPHA, times 3 DIGIT]]),
  many (cat [word (str "-"), alt [rep 5 (some 8) R.alphanum, cat [DIGIT, times 3 R.alphanum]]]),
  many (cat [word (str "-"), alt [DIGIT, char fun c => (65 ≤ c && c ≤ 87) || (89 ≤ c && c ≤ 90) || (97 ≤ c && c ≤ 119) || (121 ≤ c && c ≤ 122)],
    many1 (cat [word (str "-"), rep 2 (some 8) R.alphanum])]),
  opt (cat [word (str "-x"), many1 (cat [word (str "-"), rep 1 (some 8) R.alphanum])])]
def grandfathered : List Str := [str "en-GB-oed", str "i-ami", str "i-bnn", str "i-default", str "i-enochian", str "i-hak", str "i-klingon", str "i-lux",
  str "i-mingo", str "i-navajo", str "i-pwn", str "i-tao", str "i-tay", str "i-tsu", str "sgn-BE-FR", str "sgn-BE-NL", str "sgn-CH-DE",
  str "art-lojban", str "cel-gaulish", str "no-bok", str "no-nyn", str "zh-guoyu", str "zh-hakka", str "zh-min", str "zh-min-nan", str "zh-xiang"]
def languageTag : Lang := alt [langtag R, cat [word (str "x"), many1 (cat [word (str "-"), rep 1 (some 8) R.alphanum])], oneOf grandfathered]

/-- RFC 9110 `credentials`, `challenge` -/
def credentials : Lang := cat [token, opt (cat [many1 SP,
  alt [cat [many1 (alt [ALPHA, DIGIT, word (str "-"), word (str "."), word (str "_"), word (str "~"), word (str "+"), word (str "/")]), many (word (str "="))],
    opt R.authParams]])]

/-- RFC 5322 -/
def FWS : Lang := cat [opt (cat [many WSP, CRLF]), many1 WSP]
def CFWS : Lang := alt [many1 (cat [opt FWS, R.mailComment, opt FWS]), FWS]
def mailQuotedPair : Lang := cat [word [92], alt [VCHAR, WSP]]
def qcontent : Lang := alt [char fun c => c == 33 || (35 ≤ c && c ≤ 91) || (93 ≤ c && c ≤ 126), mailQuotedPair]
def mailQuoted : Lang := cat [opt (CFWS R), word [34], many (cat [opt FWS, qcontent]), R.mailQuotedEnd, word [34], opt (CFWS R)]
def atext : Lang := char fun c => (48 ≤ c && c ≤ 57) || (65 ≤ c && c ≤ 90) || (97 ≤ c && c ≤ 122) || (str "!#$%&'*+-/=?^_`{|}~").contains c
def atom : Lang := cat [opt (CFWS R), many1 atext, opt (CFWS R)]
def phrase : Lang := alt [many1 (alt [atom R, mailQuoted R]), R.obsPhrase]
def dotAtom : Lang := cat [opt (CFWS R), cat [many1 atext, many (cat [word (str "."), many1 atext])], opt (CFWS R)]
def domainLiteral : Lang := cat [opt (CFWS R), word (str "["), many (cat [opt FWS, char fun c => (33 ≤ c && c ≤ 90) || (94 ≤ c && c ≤ 126)]), opt FWS,
  word (str "]"), opt (CFWS R)]
def addrSpec : Lang := cat [alt [dotAtom R, mailQuoted R], word (str "@"), alt [dotAtom R, domainLiteral R]]
def mailbox : Lang := alt [cat [opt (phrase R), cat [opt (CFWS R), word (str "<"), addrSpec R, word (str ">"), opt (CFWS R)]], addrSpec R]

/-- `1#A`, without empty elements -/
def list1 (A : Lang) : Lang := cat [A, many (cat [OWS, word (str ","), OWS, A])]

/-- CSP 3: `serialized-directive`, in a field value (so that white space is SP or HTAB) -/
def cspDirective : Lang := cat [many1 (char fun c => (97 ≤ c && c ≤ 122) || (65 ≤ c && c ≤ 90) || (48 ≤ c && c ≤ 57) || c == 45),
  opt (cat [RWS, many (char fun c => c == 32 || c == 9 || (33 ≤ c && c ≤ 43) || (45 ≤ c && c ≤ 58) || (60 ≤ c && c ≤ 126))])]

def comment : Lang := R.comment
def server : Lang := cat [product, many (cat [RWS, alt [product, comment R]])]

/-- The syntax of a value of each field (of an element, for fields that are lists), as the RFC that defines it has it;
`none` for the fields that httplint reads in another way, or not at all. -/
def field : FieldId → Option Lang
  -- RFC 9110
  | .accept_ => some (cat [mediaRange, opt weight])
  | .accept_encoding_ => some (cat [alt [token, word (str "identity"), word (str "*")], opt weight])
  | .accept_language_ => some (cat [languageRange, opt weight])
  | .accept_ranges_ => some token
  | .allow_ => some token
  | .authentication_info_ => some authParam
  | .authorization_ => some (credentials R)
  | .connection_ => some token
  | .content_encoding_ => some token
  | .content_language_ => some (languageTag R)
  | .content_length_ => some digits
  | .content_location_ => some (contentLocation R)
  | .content_range_ => some (cat [token, SP, alt [cat [cat [digits, word (str "-"), digits], word (str "/"), alt [digits, word (str "*")]],
      cat [word (str "*/"), digits]]])
  | .content_type_ => some mediaType
  | .etag_ => some (entityTag R)
  | .expect_ => some (cat [token, opt (cat [word (str "="), tokenOrQuoted, parameters])])
  | .from_field_ => some (mailbox R)
  | .host_ => some (hostPort R)
  | .if_match_ => some (alt [word (str "*"), opt (list1 (entityTag R))])
  | .if_modified_since_ => some (httpDate R)
  | .if_none_match_ => some (alt [word (str "*"), opt (list1 (entityTag R))])
  | .if_range_ => some (alt [entityTag R, httpDate R])
  | .if_unmodified_since_ => some (httpDate R)
  | .location_ => some (URIreference R)
  | .max_forwards_ => some digits
  | .proxy_authenticate_ => some (credentials R)
  | .proxy_authentication_info_ => some authParam
  | .proxy_authorization_ => some (credentials R)
  | .range_ => some (cat [token, word (str "="), list1 rangeSpec])
  | .referer_ => some (contentLocation R)
  | .retry_after_ => some (alt [httpDate R, digits])
  | .server_ => some (server R)
  | .te_ => some (alt [word (str "trailers"), cat [transferCoding, opt weight]])
  | .trailer_ => some token
  | .upgrade_ => some product
  | .user_agent_ => some (server R)
  | .vary_ => some (alt [word (str "*"), token])
  | .via_ => some (cat [cat [opt (cat [token, word (str "/")]), token], RWS, R.receivedBy (hostPort R), opt (cat [RWS, comment R])])
  | .www_authenticate_ => some (credentials R)
  -- RFC 9111, 7234
  | .age_ => some digits
  | .cache_control_ => some directive
  | .pragma_ => some (alt [word (str "no-cache"), directive])
  | .warning_ => some (cat [times 3 DIGIT, SP, alt [hostPort R, token], SP, quotedString, opt (cat [SP, cat [DQUOTE, httpDate R, DQUOTE]])])
  -- RFC 9112
  | .transfer_encoding_ => some (alt [word (str "chunked"), word (str "compress"), word (str "deflate"), word (str "gzip"), transferCoding])
  -- RFC 5789, LDP, RFC 7838, 8288, 6266, 2068, 1864, 6797, 7034
  | .accept_patch_ => some mediaType
  | .accept_post_ => some mediaRange
  | .alt_svc_ => some (alt [R.cased (str "clear"), cat [token, word (str "="), quotedString, many (cat [OWS, word (str ";"), OWS, parameter])]])
  | .link_ => some (cat [word (str "<"), URIreference R, word (str ">"), many (cat [OWS, word (str ";"), OWS, directive])])
  | .content_disposition_ => some (cat [token, many (cat [R.dispositionSpace, word (str ";"), R.dispositionSpace, parameter])])
  | .keep_alive_ => some parameter
  | .content_md5_ => some (cat [times 22 (char fun c => (65 ≤ c && c ≤ 90) || (97 ≤ c && c ≤ 122) || (48 ≤ c && c ≤ 57) || c == 43 || c == 47), word (str "==")])
  | .strict_transport_security_ => some (R.stsDirectives (cat [token, opt (cat [OWS, word (str "="), OWS, tokenOrQuoted])]))
  | .x_frame_options_ => some (alt [word (str "DENY"), word (str "SAMEORIGIN"), cat [word (str "ALLOW-FROM"), RWS, cat [scheme, word (str "://"), hostPort R]]])
  -- Fetch, CSP, Referrer Policy, Clear Site Data, Server Timing
  | .access_control_allow_credentials_ => some (exactly (str "true"))
  | .access_control_allow_headers_ => some token
  | .access_control_allow_methods_ => some token
  | .access_control_allow_origin_ => some (alt [word (str "*"), word (str "null"), URIreference R])
  | .access_control_expose_headers_ => some token
  | .access_control_max_age_ => some digits
  | .access_control_request_headers_ => some token
  | .access_control_request_method_ => some token
  | .clear_site_data_ => some quotedString
  | .content_security_policy_ => some (cat [cspDirective, many (cat [OWS, word (str ";"), opt (cat [OWS, cspDirective])])])
  | .content_security_policy_report_only_ => some (cat [cspDirective, many (cat [OWS, word (str ";"), opt (cat [OWS, cspDirective])])])
  | .referrer_policy_ => some token
  | .server_timing_ => some (cat [token, parameters])
  | .x_content_type_options_ => some (word (str "nosniff"))
  | _ => none
end

/-! ### the two readings -/

/-- what is between the parentheses of a `comment`: `*( ctext / quoted-pair / comment )` -/
inductive CommentBody : Lang
  | nil : CommentBody []
  | text {a b} : ctext a → CommentBody b → CommentBody (a ++ b)
  | pair {a b} : quotedPair a → CommentBody b → CommentBody (a ++ b)
  | comment {a b} : CommentBody a → CommentBody b → CommentBody ([40] ++ a ++ [41] ++ b)
/-- RFC 9110 `comment = "(" *( ctext / quoted-pair / comment ) ")"` -/
def Comment : Lang := cat [word (str "("), CommentBody, word (str ")")]

/-- what is between the parentheses of RFC 5322's `comment`: `*([FWS] ccontent) [FWS]`,
`ccontent = ctext / quoted-pair / comment`, `ctext = %d33-39 / %d42-91 / %d93-126` -/
inductive MailCommentBody : Lang
  | nil {f} : opt FWS f → MailCommentBody f
  | text {f a b} : opt FWS f → alt [range 33 39, range 42 91, range 93 126] a → MailCommentBody b → MailCommentBody (f ++ a ++ b)
  | pair {f a b} : opt FWS f → mailQuotedPair a → MailCommentBody b → MailCommentBody (f ++ a ++ b)
  | comment {f a b} : opt FWS f → MailCommentBody a → MailCommentBody b → MailCommentBody (f ++ [40] ++ a ++ [41] ++ b)
/-- RFC 5322 `comment = "(" *([FWS] ccontent) [FWS] ")"` -/
def MailComment : Lang := cat [word (str "("), MailCommentBody, word (str ")")]

/-- what httplint has for RFC 5322's `comment` -/
def shortMailComment : Lang := cat [word (str "("),
  many (cat [opt FWS, alt [char fun c => (33 ≤ c && c ≤ 39) || (42 ≤ c && c ≤ 91) || c == 93 || (97 ≤ c && c ≤ 122) || c == 126, mailQuotedPair, word []]]), opt FWS, word (str ")")]

/-- the RFCs -/
def rfc : Reading where
  cased := exactly
  userinfo := many userinfoChar
  groups n := match n with
    | 0 => opt h16
    | n => opt (cat [rep 0 (some n) h16c, h16])
  v := word (str "v")
  pathEmpty := word []
  partialQuery := cat [word (str "?"), query]
  comment := Comment
  receivedBy _ := cat [token, opt (cat [word (str ":"), port])]
  authParams := list1 authParam
  alphanum := alt [ALPHA, DIGIT]
  mailComment := MailComment
  mailQuotedEnd := opt FWS
  obsPhrase := fun _ => False  -- obsolete: not to be generated
  stsDirectives d := cat [opt d, many (cat [OWS, word (str ";"), OWS, opt d])]
  dispositionSpace := OWS

/-- httplint: letter case is ignored everywhere; `userinfo` is one character; before `::` the full number of groups is
needed; an empty path is any `pchar` and then a zero; `partial-URI` has no question mark; comments do not nest; the
`received-by` of RFC 7230; lists of parameters of credentials with empty elements; `alphanum` is a literal; mail
comments lack most punctuation; `obs_phrase` is a literal; at least one directive; any white space. -/
def httplint : Reading where
  cased := word
  userinfo := userinfoChar
  groups n := match n with
    | 0 => h16
    | 1 => cat [h16c, h16]
    | n => cat [times n h16c, h16]
  v := word (str "v")
  pathEmpty := cat [pchar, word (str "0")]
  partialQuery := query
  comment := cat [word (str "("), many (alt [ctext, quotedPair]), word (str ")")]
  receivedBy hp := alt [hp, token]
  authParams := cat [alt [word (str ","), authParam], many (cat [OWS, word (str ","), opt (cat [OWS, authParam])])]
  alphanum := alt [word (str "{ALPHA}"), word (str "{DIGIT}")]
  mailComment := shortMailComment
  mailQuotedEnd := word []
  obsPhrase := word (str "obs_phrase")
  stsDirectives d := cat [d, many (cat [OWS, word (str ";"), OWS, d]), opt (cat [OWS, word (str ";")])]
  dispositionSpace := many (char isSpace)

/-- httplint, for the target of a request: letter case isn't ignored there, so that the `v` is a small one -/
def target : Reading := { httplint with cased := exactly, v := exactly (str "v") }

end HL.Abnf

namespace HL.Abnf

/-- the fields for which nothing depends on the reading -/
def same : List FieldId := [.accept_, .accept_encoding_, .accept_language_, .accept_patch_, .accept_post_, .accept_ranges_,
  .access_control_allow_credentials_, .access_control_allow_headers_, .access_control_allow_methods_, .access_control_expose_headers_,
  .access_control_max_age_, .access_control_request_headers_, .access_control_request_method_, .age_, .allow_, .authentication_info_,
  .cache_control_, .clear_site_data_, .connection_, .content_encoding_, .content_length_, .content_md5_, .content_range_,
  .content_security_policy_, .content_security_policy_report_only_, .content_type_, .expect_, .keep_alive_, .max_forwards_, .pragma_,
  .proxy_authentication_info_, .range_, .referrer_policy_, .server_timing_, .te_, .trailer_, .transfer_encoding_, .upgrade_, .vary_,
  .x_content_type_options_]
/-- the fields for which httplint takes everything the RFC allows, and more -/
def wider : List FieldId := [.alt_svc_, .authorization_, .content_disposition_, .etag_, .if_match_, .if_modified_since_, .if_none_match_, .if_range_,
  .if_unmodified_since_, .proxy_authenticate_, .proxy_authorization_, .retry_after_, .www_authenticate_]
/-- the fields for which httplint refuses some of what the RFC allows -/
def narrower : List FieldId := [.access_control_allow_origin_, .content_language_, .content_location_, .from_field_, .host_, .link_, .location_,
  .referer_, .server_, .strict_transport_security_, .user_agent_, .via_, .warning_, .x_frame_options_]

end HL.Abnf
