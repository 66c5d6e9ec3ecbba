import Verif.Regex

/-!
GENERATED by tools/gen_syntax.py from the text of /repo/httplint/syntax/*.py (which is read, not run).
Every definition cites the file and line of the assignment it models.  `list_rule` definitions
(rfc9110.py:60-97) yield two terms: `X` (the whole list, `str(list_rule)`) and `X_element`.
-/

set_option maxRecDepth 4000

namespace HL.Syntax
open HL RE

namespace rfc5234
/-- syntax/rfc5234.py:13 `ALPHA` -/
def ALPHA : RE := (cls [(65,90), (97,122)])
/-- syntax/rfc5234.py:17 `BIT` -/
def BIT : RE := (cls [(48,48), (49,49)])
/-- syntax/rfc5234.py:26 `CR` -/
def CR : RE := (cls [(13,13)])
/-- syntax/rfc5234.py:31 `LF` -/
def LF : RE := (cls [(10,10)])
/-- syntax/rfc5234.py:36 `CRLF` -/
def CRLF : RE := (seqs [rfc5234.CR, rfc5234.LF])
/-- syntax/rfc5234.py:41 `CTL` -/
def CTL : RE := (cls [(0,31), (127,127)])
/-- syntax/rfc5234.py:46 `DIGIT` -/
def DIGIT : RE := (cls [(48,57)])
/-- syntax/rfc5234.py:51 `DQUOTE` -/
def DQUOTE : RE := (cls [(34,34)])
/-- syntax/rfc5234.py:55 `HEXDIG` -/
def HEXDIG : RE := (cls [(48,57), (65,70), (97,102)])
/-- syntax/rfc5234.py:60 `HTAB` -/
def HTAB : RE := (cls [(9,9)])
/-- syntax/rfc5234.py:65 `OCTET` -/
def OCTET : RE := (cls [(0,255)])
/-- syntax/rfc5234.py:69 `SP` -/
def SP : RE := (cls [(32,32)])
/-- syntax/rfc5234.py:74 `VCHAR` -/
def VCHAR : RE := (cls [(33,126)])
/-- syntax/rfc5234.py:79 `WSP` -/
def WSP : RE := (alts [rfc5234.SP, rfc5234.HTAB])
/-- syntax/rfc5234.py:92 `LWSP` -/
def LWSP : RE := (star (alts [rfc5234.WSP, (seqs [rfc5234.CRLF, rfc5234.WSP])]))
end rfc5234

namespace rfc3986
/-- syntax/rfc3986.py:19 `pct_encoded` -/
def pct_encoded : RE := (seqs [(ch 37), rfc5234.HEXDIG, rfc5234.HEXDIG])
/-- syntax/rfc3986.py:22 `unreserved` -/
def unreserved : RE := (alts [rfc5234.ALPHA, rfc5234.DIGIT, (ch 45), (ch 46), (ch 95), (ch 126)])
/-- syntax/rfc3986.py:25 `gen_delims` -/
def gen_delims : RE := (alts [(ch 58), (ch 47), (ch 63), (ch 35), (ch 91), (ch 93), (ch 64)])
/-- syntax/rfc3986.py:29 `sub_delims` -/
def sub_delims : RE := (alts [(ch 33), (ch 36), (ch 38), (ch 39), (ch 40), (ch 41), (ch 42), (ch 43), (ch 44), (ch 59), (ch 61)])
/-- syntax/rfc3986.py:33 `pchar` -/
def pchar : RE := (alts [rfc3986.unreserved, rfc3986.pct_encoded, rfc3986.sub_delims, (ch 58), (ch 64)])
/-- syntax/rfc3986.py:36 `reserved` -/
def reserved : RE := (alts [rfc3986.gen_delims, rfc3986.sub_delims])
/-- syntax/rfc3986.py:42 `scheme` -/
def scheme : RE := (seqs [rfc5234.ALPHA, (star (alts [rfc5234.ALPHA, rfc5234.DIGIT, (ch 43), (ch 45), (ch 46)]))])
/-- syntax/rfc3986.py:52 `dec_octet` -/
def dec_octet : RE := (alts [rfc5234.DIGIT, (seqs [(cls [(49,57)]), rfc5234.DIGIT]), (seqs [(ch 49), (RE.rep 2 (some 2) false rfc5234.DIGIT)]), (seqs [(ch 50), (cls [(48,52)]), rfc5234.DIGIT]), (seqs [(lit (str "25")), (cls [(48,53)])])])
/-- syntax/rfc3986.py:61 `IPv4address` -/
def IPv4address : RE := (seqs [rfc3986.dec_octet, (ch 46), rfc3986.dec_octet, (ch 46), rfc3986.dec_octet, (ch 46), rfc3986.dec_octet])
/-- syntax/rfc3986.py:64 `h16` -/
def h16 : RE := (RE.rep 1 (some 4) false rfc5234.HEXDIG)
/-- syntax/rfc3986.py:67 `ls32` -/
def ls32 : RE := (alts [(seqs [rfc3986.h16, (ch 58), rfc3986.h16]), rfc3986.IPv4address])
/-- syntax/rfc3986.py:78 `IPv6address` -/
def IPv6address : RE := (alts [(seqs [(RE.rep 6 (some 6) false (seqs [rfc3986.h16, (ch 58)])), rfc3986.ls32]), (seqs [(lit (str "::")), (RE.rep 5 (some 5) false (seqs [rfc3986.h16, (ch 58)])), rfc3986.ls32]), (seqs [rfc3986.h16, (lit (str "::")), (RE.rep 4 (some 4) false (seqs [rfc3986.h16, (ch 58)])), rfc3986.ls32]), (seqs [(seqs [rfc3986.h16, (ch 58)]), rfc3986.h16, (lit (str "::")), (RE.rep 3 (some 3) false (seqs [rfc3986.h16, (ch 58)])), rfc3986.ls32]), (seqs [(RE.rep 2 (some 2) false (seqs [rfc3986.h16, (ch 58)])), rfc3986.h16, (lit (str "::")), (RE.rep 2 (some 2) false (seqs [rfc3986.h16, (ch 58)])), rfc3986.ls32]), (seqs [(RE.rep 3 (some 3) false (seqs [rfc3986.h16, (ch 58)])), rfc3986.h16, (lit (str "::")), rfc3986.h16, (ch 58), rfc3986.ls32]), (seqs [(RE.rep 4 (some 4) false (seqs [rfc3986.h16, (ch 58)])), rfc3986.h16, (lit (str "::")), rfc3986.ls32]), (seqs [(RE.rep 5 (some 5) false (seqs [rfc3986.h16, (ch 58)])), rfc3986.h16, (lit (str "::")), rfc3986.h16]), (seqs [(RE.rep 6 (some 6) false (seqs [rfc3986.h16, (ch 58)])), rfc3986.h16, (lit (str "::"))])])
/-- syntax/rfc3986.py:91 `IPvFuture` -/
def IPvFuture : RE := (seqs [(ch 118), (plus rfc5234.HEXDIG), (ch 46), (plus (alts [rfc3986.unreserved, rfc3986.sub_delims, (ch 58)]))])
/-- syntax/rfc3986.py:94 `IP_literal` -/
def IP_literal : RE := (seqs [(ch 91), (alts [rfc3986.IPv6address, rfc3986.IPvFuture]), (ch 93)])
/-- syntax/rfc3986.py:97 `reg_name` -/
def reg_name : RE := (star (alts [rfc3986.unreserved, rfc3986.pct_encoded, rfc3986.sub_delims]))
/-- syntax/rfc3986.py:100 `userinfo` -/
def userinfo : RE := (alts [rfc3986.unreserved, rfc3986.pct_encoded, rfc3986.sub_delims, (ch 58)])
/-- syntax/rfc3986.py:103 `host` -/
def host : RE := (alts [rfc3986.IP_literal, rfc3986.IPv4address, rfc3986.reg_name])
/-- syntax/rfc3986.py:106 `port` -/
def port : RE := (star rfc5234.DIGIT)
/-- syntax/rfc3986.py:109 `authority` -/
def authority : RE := (seqs [(opt (seqs [rfc3986.userinfo, (ch 64)])), rfc3986.host, (opt (seqs [(ch 58), rfc3986.port]))])
/-- syntax/rfc3986.py:115 `segment` -/
def segment : RE := (star rfc3986.pchar)
/-- syntax/rfc3986.py:118 `segment_nz` -/
def segment_nz : RE := (plus rfc3986.pchar)
/-- syntax/rfc3986.py:122 `segment_nz_nc` -/
def segment_nz_nc : RE := (plus (alts [rfc3986.unreserved, rfc3986.pct_encoded, rfc3986.sub_delims, (ch 64)]))
/-- syntax/rfc3986.py:125 `path_abempty` -/
def path_abempty : RE := (star (seqs [(ch 47), rfc3986.segment]))
/-- syntax/rfc3986.py:128 `path_absolute` -/
def path_absolute : RE := (seqs [(ch 47), (opt (seqs [rfc3986.segment_nz, rfc3986.path_abempty]))])
/-- syntax/rfc3986.py:131 `path_noscheme` -/
def path_noscheme : RE := (seqs [rfc3986.segment_nz_nc, rfc3986.path_abempty])
/-- syntax/rfc3986.py:134 `path_rootless` -/
def path_rootless : RE := (seqs [rfc3986.segment_nz, rfc3986.path_abempty])
/-- syntax/rfc3986.py:137 `path_empty` -/
def path_empty : RE := (seqs [rfc3986.pchar, (ch 48)])
/-- syntax/rfc3986.py:144 `path` -/
def path : RE := (alts [rfc3986.path_abempty, rfc3986.path_absolute, rfc3986.path_noscheme, rfc3986.path_rootless, rfc3986.path_empty])
/-- syntax/rfc3986.py:156 `query` -/
def query : RE := (star (alts [rfc3986.pchar, (ch 47), (ch 63)]))
/-- syntax/rfc3986.py:159 `fragment` -/
def fragment : RE := rfc3986.query
/-- syntax/rfc3986.py:168 `hier_part` -/
def hier_part : RE := (alts [(seqs [(lit (str "//")), (opt (seqs [rfc3986.userinfo, (ch 64)])), rfc3986.host, (opt (seqs [(ch 58), rfc3986.port])), rfc3986.path_abempty]), rfc3986.path_absolute, rfc3986.path_rootless, rfc3986.path_empty])
/-- syntax/rfc3986.py:179 `relative_part` -/
def relative_part : RE := (alts [(seqs [(lit (str "//")), (opt (seqs [rfc3986.userinfo, (ch 64)])), rfc3986.host, (opt (seqs [(ch 58), rfc3986.port])), rfc3986.path_abempty]), rfc3986.path_absolute, rfc3986.path_noscheme, rfc3986.path_empty])
/-- syntax/rfc3986.py:187 `relative_ref` -/
def relative_ref : RE := (seqs [rfc3986.relative_part, (opt (seqs [(ch 63), rfc3986.query])), (opt (seqs [(ch 35), rfc3986.query]))])
/-- syntax/rfc3986.py:190 `URI` -/
def URI : RE := (seqs [rfc5234.ALPHA, (star (alts [rfc5234.ALPHA, rfc5234.DIGIT, (ch 43), (ch 45), (ch 46)])), (ch 58), rfc3986.hier_part, (opt (seqs [(ch 63), rfc3986.query])), (opt (seqs [(ch 35), rfc3986.query]))])
/-- syntax/rfc3986.py:193 `URI_reference` -/
def URI_reference : RE := (alts [rfc3986.URI, rfc3986.relative_ref])
/-- syntax/rfc3986.py:196 `absolute_URI` -/
def absolute_URI : RE := (seqs [rfc5234.ALPHA, (star (alts [rfc5234.ALPHA, rfc5234.DIGIT, (ch 43), (ch 45), (ch 46)])), (ch 58), rfc3986.hier_part, (opt (seqs [(ch 63), rfc3986.query]))])
end rfc3986

namespace rfc5322
/-- syntax/rfc5322.py:11 `qtext` -/
def qtext : RE := (cls [(33,33), (35,91), (93,126)])
/-- syntax/rfc5322.py:15 `quoted_pair` -/
def quoted_pair : RE := (seqs [(ch 92), (alts [rfc5234.VCHAR, rfc5234.WSP])])
/-- syntax/rfc5322.py:19 `qcontent` -/
def qcontent : RE := (alts [rfc5322.qtext, rfc5322.quoted_pair])
/-- syntax/rfc5322.py:26 `ctext` -/
def ctext : RE := (cls [(33,39), (42,91), (93,93), (126,126)])
/-- syntax/rfc5322.py:30 `ccontent` -/
def ccontent : RE := (alts [rfc5322.ctext, rfc5322.quoted_pair, RE.eps])
/-- syntax/rfc5322.py:34 `FWS` -/
def FWS : RE := (seqs [(opt (seqs [(star rfc5234.WSP), rfc5234.CRLF])), (plus rfc5234.WSP)])
/-- syntax/rfc5322.py:38 `comment` -/
def comment : RE := (seqs [(ch 40), (star (seqs [(opt rfc5322.FWS), rfc5322.ccontent])), (opt rfc5322.FWS), (ch 41)])
/-- syntax/rfc5322.py:42 `CFWS` -/
def CFWS : RE := (alts [(plus (seqs [(opt rfc5322.FWS), rfc5322.comment, (opt rfc5322.FWS)])), rfc5322.FWS])
/-- syntax/rfc5322.py:48 `quoted_string` -/
def quoted_string : RE := (seqs [(opt rfc5322.CFWS), (ch 34), (star (seqs [(opt rfc5322.FWS), rfc5322.qcontent])), (ch 34), (opt rfc5322.CFWS)])
/-- syntax/rfc5322.py:62 `atext` -/
def atext : RE := (alts [rfc5234.ALPHA, rfc5234.DIGIT, (cls [(33,33), (35,35), (36,36), (37,37), (38,38), (39,39), (42,42), (43,43), (45,45), (47,47), (61,61), (63,63), (94,94), (95,95), (96,96), (123,123), (124,124), (125,125), (126,126)])])
/-- syntax/rfc5322.py:66 `atom` -/
def atom : RE := (seqs [(opt rfc5322.CFWS), (plus rfc5322.atext), (opt rfc5322.CFWS)])
/-- syntax/rfc5322.py:70 `word` -/
def word : RE := (alts [rfc5322.atom, rfc5322.quoted_string])
/-- syntax/rfc5322.py:74 `phrase` -/
def phrase : RE := (alts [(plus rfc5322.word), (lit (str "obs_phrase"))])
/-- syntax/rfc5322.py:78 `display_name` -/
def display_name : RE := rfc5322.phrase
/-- syntax/rfc5322.py:82 `dot_atom_text` -/
def dot_atom_text : RE := (seqs [(plus rfc5322.atext), (star (seqs [(ch 46), (plus rfc5322.atext)]))])
/-- syntax/rfc5322.py:86 `dot_atom` -/
def dot_atom : RE := (seqs [(opt rfc5322.CFWS), rfc5322.dot_atom_text, (opt rfc5322.CFWS)])
/-- syntax/rfc5322.py:90 `local_part` -/
def local_part : RE := (alts [rfc5322.dot_atom, rfc5322.quoted_string])
/-- syntax/rfc5322.py:96 `dtext` -/
def dtext : RE := (cls [(33,90), (94,126)])
/-- syntax/rfc5322.py:100 `domain_literal` -/
def domain_literal : RE := (seqs [(opt rfc5322.CFWS), (ch 91), (star (seqs [(opt rfc5322.FWS), rfc5322.dtext])), (opt rfc5322.FWS), (ch 93), (opt rfc5322.CFWS)])
/-- syntax/rfc5322.py:104 `domain` -/
def domain : RE := (alts [rfc5322.dot_atom, rfc5322.domain_literal])
/-- syntax/rfc5322.py:108 `addr_spec` -/
def addr_spec : RE := (seqs [rfc5322.local_part, (ch 64), rfc5322.domain])
/-- syntax/rfc5322.py:113 `angle_addr` -/
def angle_addr : RE := (seqs [(opt rfc5322.CFWS), (ch 60), rfc5322.addr_spec, (ch 62), (opt rfc5322.CFWS)])
/-- syntax/rfc5322.py:117 `name_addr` -/
def name_addr : RE := (seqs [(opt rfc5322.phrase), rfc5322.angle_addr])
/-- syntax/rfc5322.py:121 `mailbox` -/
def mailbox : RE := (alts [rfc5322.name_addr, rfc5322.addr_spec])
end rfc5322

namespace rfc5646
/-- syntax/rfc5646.py:16 `alphanum` -/
def alphanum : RE := (alts [(lit (str "{ALPHA}")), (lit (str "{DIGIT}"))])
/-- syntax/rfc5646.py:36 `irregular` -/
def irregular : RE := (alts [(lit (str "en-GB-oed")), (lit (str "i-ami")), (lit (str "i-bnn")), (lit (str "i-default")), (lit (str "i-enochian")), (lit (str "i-hak")), (lit (str "i-klingon")), (lit (str "i-lux")), (lit (str "i-mingo")), (lit (str "i-navajo")), (lit (str "i-pwn")), (lit (str "i-tao")), (lit (str "i-tay")), (lit (str "i-tsu")), (lit (str "sgn-BE-FR")), (lit (str "sgn-BE-NL")), (lit (str "sgn-CH-DE"))])
/-- syntax/rfc5646.py:66 `regular` -/
def regular : RE := (alts [(lit (str "art-lojban")), (lit (str "cel-gaulish")), (lit (str "no-bok")), (lit (str "no-nyn")), (lit (str "zh-guoyu")), (lit (str "zh-hakka")), (lit (str "zh-min")), (lit (str "zh-min-nan")), (lit (str "zh-xiang"))])
/-- syntax/rfc5646.py:81 `grandfathered` -/
def grandfathered : RE := (alts [(lit (str "en-GB-oed")), (lit (str "i-ami")), (lit (str "i-bnn")), (lit (str "i-default")), (lit (str "i-enochian")), (lit (str "i-hak")), (lit (str "i-klingon")), (lit (str "i-lux")), (lit (str "i-mingo")), (lit (str "i-navajo")), (lit (str "i-pwn")), (lit (str "i-tao")), (lit (str "i-tay")), (lit (str "i-tsu")), (lit (str "sgn-BE-FR")), (lit (str "sgn-BE-NL")), (lit (str "sgn-CH-DE")), (lit (str "art-lojban")), (lit (str "cel-gaulish")), (lit (str "no-bok")), (lit (str "no-nyn")), (lit (str "zh-guoyu")), (lit (str "zh-hakka")), (lit (str "zh-min")), (lit (str "zh-min-nan")), (lit (str "zh-xiang"))])
/-- syntax/rfc5646.py:86 `extlang` -/
def extlang : RE := (seqs [(RE.rep 3 (some 3) false rfc5234.ALPHA), (RE.rep 0 (some 2) false (seqs [(ch 45), (RE.rep 3 (some 3) false rfc5234.ALPHA)]))])
/-- syntax/rfc5646.py:94 `language` -/
def language : RE := (alts [(seqs [(RE.rep 2 (some 3) false rfc5234.ALPHA), (opt (seqs [(ch 45), rfc5646.extlang]))]), (RE.rep 4 (some 4) false rfc5234.ALPHA), (RE.rep 5 (some 8) false rfc5234.ALPHA)])
/-- syntax/rfc5646.py:103 `script` -/
def script : RE := (RE.rep 4 (some 4) false rfc5234.ALPHA)
/-- syntax/rfc5646.py:108 `region` -/
def region : RE := (alts [(RE.rep 2 (some 2) false rfc5234.ALPHA), (RE.rep 3 (some 3) false rfc5234.DIGIT)])
/-- syntax/rfc5646.py:113 `variant` -/
def variant : RE := (alts [(RE.rep 5 (some 8) false rfc5646.alphanum), (seqs [rfc5234.DIGIT, (RE.rep 3 (some 3) false rfc5646.alphanum)])])
/-- syntax/rfc5646.py:121 `singleton` -/
def singleton : RE := (alts [rfc5234.DIGIT, (cls [(65,87), (89,90), (97,119), (121,122)])])
/-- syntax/rfc5646.py:125 `extension` -/
def extension : RE := (seqs [rfc5646.singleton, (plus (seqs [(ch 45), (RE.rep 2 (some 8) false rfc5646.alphanum)]))])
/-- syntax/rfc5646.py:129 `privateuse` -/
def privateuse : RE := (seqs [(ch 120), (plus (seqs [(ch 45), (RE.rep 1 (some 8) false rfc5646.alphanum)]))])
/-- syntax/rfc5646.py:138 `langtag` -/
def langtag : RE := (seqs [rfc5646.language, (opt (seqs [(ch 45), rfc5646.script])), (opt (seqs [(ch 45), rfc5646.region])), (star (seqs [(ch 45), rfc5646.variant])), (star (seqs [(ch 45), rfc5646.singleton, (plus (seqs [(ch 45), (RE.rep 2 (some 8) false rfc5646.alphanum)]))])), (opt (seqs [(lit (str "-x")), (plus (seqs [(ch 45), (RE.rep 1 (some 8) false rfc5646.alphanum)]))]))])
/-- syntax/rfc5646.py:151 `Language_Tag` -/
def Language_Tag : RE := (alts [rfc5646.langtag, rfc5646.privateuse, rfc5646.grandfathered])
end rfc5646

namespace rfc5987
/-- syntax/rfc5987.py:23 `language` -/
def language : RE := rfc5646.Language_Tag
/-- syntax/rfc5987.py:28 `pct_encoded` -/
def pct_encoded : RE := rfc3986.pct_encoded
/-- syntax/rfc5987.py:35 `attr_char` -/
def attr_char : RE := (alts [rfc5234.ALPHA, rfc5234.DIGIT, (ch 33), RE.eps, (ch 94), (ch 95), (ch 96), (ch 124), (ch 126)])
/-- syntax/rfc5987.py:43 `value_chars` -/
def value_chars : RE := (star (alts [rfc3986.pct_encoded, rfc5987.attr_char]))
/-- syntax/rfc5987.py:53 `mime_charsetc` -/
def mime_charsetc : RE := (alts [rfc5234.ALPHA, rfc5234.DIGIT, (ch 33), RE.eps, (ch 43), (ch 45), (ch 94), (ch 95), (ch 96), (ch 123), (ch 125), (ch 126)])
/-- syntax/rfc5987.py:62 `mime_charset` -/
def mime_charset : RE := (plus rfc5987.mime_charsetc)
/-- syntax/rfc5987.py:66 `charset` -/
def charset : RE := (alts [(lit (str "UTF-8")), rfc5987.mime_charset])
/-- syntax/rfc5987.py:72 `ext_value` -/
def ext_value : RE := (seqs [rfc5987.charset, (ch 39), (opt rfc5646.Language_Tag), (ch 39), rfc5987.value_chars])
end rfc5987

namespace rfc6838
/-- syntax/rfc6838.py:17 `restricted_name_first` -/
def restricted_name_first : RE := (alts [rfc5234.ALPHA, rfc5234.DIGIT])
/-- syntax/rfc6838.py:26 `restricted_name_chars` -/
def restricted_name_chars : RE := (alts [rfc5234.ALPHA, rfc5234.DIGIT, (ch 33), (ch 35), (ch 36), (ch 38), (ch 45), (ch 94), (ch 95), (ch 46), (ch 43)])
/-- syntax/rfc6838.py:30 `restricted_name` -/
def restricted_name : RE := (seqs [rfc6838.restricted_name_first, (RE.rep 0 (some 126) false rfc6838.restricted_name_chars)])
/-- syntax/rfc6838.py:34 `type_name` -/
def type_name : RE := rfc6838.restricted_name
/-- syntax/rfc6838.py:38 `subtype_name` -/
def subtype_name : RE := rfc6838.restricted_name
/-- syntax/rfc6838.py:42 -/
def RESTRICTED_NAME_MAX_LEN : Nat := 127
end rfc6838

namespace rfc9110
/-- syntax/rfc9110.py:38 `OWS` -/
def OWS : RE := (star rfc5234.WSP)
/-- syntax/rfc9110.py:42 `BWS` -/
def BWS : RE := rfc9110.OWS
/-- syntax/rfc9110.py:46 `RWS` -/
def RWS : RE := (plus rfc5234.WSP)
/-- syntax/rfc9110.py:50 `obs_text` -/
def obs_text : RE := (cls [(128,255)])
/-- syntax/rfc9110.py:55 `tchar` -/
def tchar : RE := (alts [(ch 33), (ch 35), (ch 36), (ch 37), (ch 38), (ch 39), (ch 42), (ch 43), (ch 45), (ch 46), (ch 94), (ch 95), (ch 96), (ch 124), (ch 126), rfc5234.DIGIT, rfc5234.ALPHA])
/-- syntax/rfc9110.py:61 `token` -/
def token : RE := (plus rfc9110.tchar)
/-- syntax/rfc9110.py:67 `qdtext` -/
def qdtext : RE := (cls [(9,9), (32,32), (33,33), (35,91), (93,126), (128,255)])
/-- syntax/rfc9110.py:71 `quoted_pair` -/
def quoted_pair : RE := (seqs [(ch 92), (alts [rfc5234.HTAB, rfc5234.SP, rfc5234.VCHAR, rfc9110.obs_text])])
/-- syntax/rfc9110.py:75 `quoted_string` -/
def quoted_string : RE := (seqs [(ch 34), (star (alts [rfc9110.qdtext, rfc9110.quoted_pair])), (ch 34)])
/-- syntax/rfc9110.py:112 `parameter_name` -/
def parameter_name : RE := rfc9110.token
/-- syntax/rfc9110.py:116 `parameter_value` -/
def parameter_value : RE := (alts [rfc9110.token, rfc9110.quoted_string])
/-- syntax/rfc9110.py:120 `parameter` -/
def parameter : RE := (seqs [rfc9110.token, (ch 61), rfc9110.parameter_value])
/-- syntax/rfc9110.py:124 `parameters` -/
def parameters : RE := (star (seqs [rfc9110.OWS, (ch 59), rfc9110.OWS, (opt rfc9110.parameter)]))
/-- syntax/rfc9110.py:128 `qvalue` -/
def qvalue : RE := (alts [(seqs [(ch 48), (opt (seqs [(ch 46), (RE.rep 0 (some 3) false rfc5234.DIGIT)]))]), (seqs [(ch 49), (opt (seqs [(ch 46), (RE.rep 0 (some 3) false (cls [(48,48)]))]))])])
/-- syntax/rfc9110.py:132 `weight` -/
def weight : RE := (seqs [rfc9110.OWS, (ch 59), rfc9110.OWS, (lit (str "q=")), rfc9110.qvalue])
/-- syntax/rfc9110.py:136 `_type` -/
def type : RE := rfc9110.token
/-- syntax/rfc9110.py:140 `subtype` -/
def subtype : RE := rfc9110.token
/-- syntax/rfc9110.py:144 `media_type` -/
def media_type : RE := (seqs [rfc9110.token, (ch 47), rfc9110.token, rfc9110.parameters])
/-- syntax/rfc9110.py:148 `media_range` -/
def media_range : RE := (seqs [(alts [(lit (str "*/*")), (seqs [rfc9110.token, (lit (str "/*"))]), (seqs [rfc9110.token, (ch 47), rfc9110.token])]), rfc9110.parameters])
/-- syntax/rfc9110.py:152 `Accept` -/
def Accept_element : RE := (seqs [rfc9110.media_range, (opt rfc9110.weight)])
/-- syntax/rfc9110.py:152 `Accept` -/
def Accept : RE := (opt (seqs [rfc9110.Accept_element, (star (seqs [rfc9110.OWS, (ch 44), rfc9110.OWS, rfc9110.Accept_element]))]))
/-- syntax/rfc9110.py:157 `Accept_Charset` -/
def Accept_Charset_element : RE := (seqs [(alts [rfc9110.token, (ch 42)]), (opt rfc9110.weight)])
/-- syntax/rfc9110.py:157 `Accept_Charset` -/
def Accept_Charset : RE := (opt (seqs [rfc9110.Accept_Charset_element, (star (seqs [rfc9110.OWS, (ch 44), rfc9110.OWS, rfc9110.Accept_Charset_element]))]))
/-- syntax/rfc9110.py:161 `content_coding` -/
def content_coding : RE := rfc9110.token
/-- syntax/rfc9110.py:165 `codings` -/
def codings : RE := (alts [rfc9110.token, (lit (str "identity")), (ch 42)])
/-- syntax/rfc9110.py:169 `Accept_Encoding` -/
def Accept_Encoding_element : RE := (seqs [rfc9110.codings, (opt rfc9110.weight)])
/-- syntax/rfc9110.py:169 `Accept_Encoding` -/
def Accept_Encoding : RE := (opt (seqs [rfc9110.Accept_Encoding_element, (star (seqs [rfc9110.OWS, (ch 44), rfc9110.OWS, rfc9110.Accept_Encoding_element]))]))
/-- syntax/rfc9110.py:173 `language_range` -/
def language_range : RE := (alts [(seqs [(RE.rep 1 (some 8) false rfc5234.ALPHA), (star (seqs [(ch 45), (RE.rep 1 (some 8) false rfc6838.restricted_name_first)]))]), (ch 42)])
/-- syntax/rfc9110.py:178 `Accept_Language` -/
def Accept_Language_element : RE := (seqs [rfc9110.language_range, (opt rfc9110.weight)])
/-- syntax/rfc9110.py:178 `Accept_Language` -/
def Accept_Language : RE := (opt (seqs [rfc9110.Accept_Language_element, (star (seqs [rfc9110.OWS, (ch 44), rfc9110.OWS, rfc9110.Accept_Language_element]))]))
/-- syntax/rfc9110.py:182 `range_unit` -/
def range_unit : RE := rfc9110.token
/-- syntax/rfc9110.py:186 `acceptable_ranges` -/
def acceptable_ranges_element : RE := rfc9110.token
/-- syntax/rfc9110.py:186 `acceptable_ranges` -/
def acceptable_ranges : RE := (seqs [rfc9110.token, (star (seqs [rfc9110.OWS, (ch 44), rfc9110.OWS, rfc9110.token]))])
/-- syntax/rfc9110.py:190 `Accept_Ranges` -/
def Accept_Ranges_element : RE := rfc9110.token
/-- syntax/rfc9110.py:190 `Accept_Ranges` -/
def Accept_Ranges : RE := rfc9110.acceptable_ranges
/-- syntax/rfc9110.py:194 `method` -/
def method : RE := rfc9110.token
/-- syntax/rfc9110.py:198 `Allow` -/
def Allow_element : RE := rfc9110.token
/-- syntax/rfc9110.py:198 `Allow` -/
def Allow : RE := (opt rfc9110.acceptable_ranges)
/-- syntax/rfc9110.py:202 `auth_scheme` -/
def auth_scheme : RE := rfc9110.token
/-- syntax/rfc9110.py:206 `auth_param` -/
def auth_param : RE := (seqs [rfc9110.token, rfc9110.OWS, (ch 61), rfc9110.OWS, rfc9110.parameter_value])
/-- syntax/rfc9110.py:210 `Authentication_Info` -/
def Authentication_Info_element : RE := rfc9110.auth_param
/-- syntax/rfc9110.py:210 `Authentication_Info` -/
def Authentication_Info : RE := (opt (seqs [rfc9110.auth_param, (star (seqs [rfc9110.OWS, (ch 44), rfc9110.OWS, rfc9110.auth_param]))]))
/-- syntax/rfc9110.py:214 `token68` -/
def token68 : RE := (seqs [(plus (alts [rfc5234.ALPHA, rfc5234.DIGIT, (ch 45), (ch 46), (ch 95), (ch 126), (ch 43), (ch 47)])), (star (ch 61))])
/-- syntax/rfc9110.py:218 `credentials` -/
def credentials : RE := (seqs [rfc9110.token, (opt (seqs [(plus rfc5234.SP), (alts [rfc9110.token68, (opt (seqs [(alts [(ch 44), rfc9110.auth_param]), (star (seqs [rfc9110.OWS, (ch 44), (opt (seqs [rfc9110.OWS, rfc9110.auth_param]))]))]))])]))])
/-- syntax/rfc9110.py:231 `Authorization` -/
def Authorization : RE := rfc9110.credentials
/-- syntax/rfc9110.py:235 `connection_option` -/
def connection_option : RE := rfc9110.token
/-- syntax/rfc9110.py:239 `Connection` -/
def Connection_element : RE := rfc9110.token
/-- syntax/rfc9110.py:239 `Connection` -/
def Connection : RE := rfc9110.Allow
/-- syntax/rfc9110.py:243 `Content_Encoding` -/
def Content_Encoding_element : RE := rfc9110.token
/-- syntax/rfc9110.py:243 `Content_Encoding` -/
def Content_Encoding : RE := rfc9110.Allow
/-- syntax/rfc9110.py:247 `language_tag` -/
def language_tag : RE := rfc5646.Language_Tag
/-- syntax/rfc9110.py:251 `Content_Language` -/
def Content_Language_element : RE := rfc5646.Language_Tag
/-- syntax/rfc9110.py:251 `Content_Language` -/
def Content_Language : RE := (opt (seqs [rfc5646.Language_Tag, (star (seqs [rfc9110.OWS, (ch 44), rfc9110.OWS, rfc5646.Language_Tag]))]))
/-- syntax/rfc9110.py:255 `Content_Length` -/
def Content_Length : RE := (plus rfc5234.DIGIT)
/-- syntax/rfc9110.py:265 `partial_URI` -/
def partial_URI : RE := (seqs [rfc3986.relative_part, (opt rfc3986.query)])
/-- syntax/rfc9110.py:269 `Content_Location` -/
def Content_Location : RE := (alts [rfc3986.absolute_URI, rfc9110.partial_URI])
/-- syntax/rfc9110.py:273 `first_pos` -/
def first_pos : RE := rfc9110.Content_Length
/-- syntax/rfc9110.py:277 `last_pos` -/
def last_pos : RE := rfc9110.Content_Length
/-- syntax/rfc9110.py:281 `incl_range` -/
def incl_range : RE := (seqs [rfc9110.Content_Length, (ch 45), rfc9110.Content_Length])
/-- syntax/rfc9110.py:285 `complete_length` -/
def complete_length : RE := rfc9110.Content_Length
/-- syntax/rfc9110.py:289 `range_resp` -/
def range_resp : RE := (seqs [rfc9110.incl_range, (ch 47), (alts [rfc9110.Content_Length, (ch 42)])])
/-- syntax/rfc9110.py:293 `unsatisfied_range` -/
def unsatisfied_range : RE := (seqs [(lit (str "*/")), rfc9110.Content_Length])
/-- syntax/rfc9110.py:297 `Content_Range` -/
def Content_Range : RE := (seqs [rfc9110.token, rfc5234.SP, (alts [rfc9110.range_resp, rfc9110.unsatisfied_range])])
/-- syntax/rfc9110.py:301 `Content_Type` -/
def Content_Type : RE := rfc9110.media_type
/-- syntax/rfc9110.py:305 `day` -/
def day : RE := (seqs [rfc5234.DIGIT, rfc5234.DIGIT])
/-- syntax/rfc9110.py:315 `day_name` -/
def day_name : RE := (alts [(lit (str "Mon")), (lit (str "Tue")), (lit (str "Wed")), (lit (str "Thu")), (lit (str "Fri")), (lit (str "Sat")), (lit (str "Sun"))])
/-- syntax/rfc9110.py:330 `month` -/
def month : RE := (alts [(lit (str "Jan")), (lit (str "Feb")), (lit (str "Mar")), (lit (str "Apr")), (lit (str "May")), (lit (str "Jun")), (lit (str "Jul")), (lit (str "Aug")), (lit (str "Sep")), (lit (str "Oct")), (lit (str "Nov")), (lit (str "Dec"))])
/-- syntax/rfc9110.py:334 `year` -/
def year : RE := (RE.rep 4 (some 4) false rfc5234.DIGIT)
/-- syntax/rfc9110.py:338 `date1` -/
def date1 : RE := (seqs [rfc9110.day, rfc5234.SP, rfc9110.month, rfc5234.SP, rfc9110.year])
/-- syntax/rfc9110.py:342 `hour` -/
def hour : RE := rfc9110.day
/-- syntax/rfc9110.py:346 `minute` -/
def minute : RE := rfc9110.day
/-- syntax/rfc9110.py:350 `second` -/
def second : RE := rfc9110.day
/-- syntax/rfc9110.py:354 `time_of_day` -/
def time_of_day : RE := (seqs [rfc9110.day, (ch 58), rfc9110.day, (ch 58), rfc9110.day])
/-- syntax/rfc9110.py:358 `GMT` -/
def GMT : RE := (lit (str "GMT"))
/-- syntax/rfc9110.py:362 `IMF_fixdate` -/
def IMF_fixdate : RE := (seqs [rfc9110.day_name, (ch 44), rfc5234.SP, rfc9110.date1, rfc5234.SP, rfc9110.time_of_day, rfc5234.SP, rfc9110.GMT])
/-- syntax/rfc9110.py:372 `day_name_l` -/
def day_name_l : RE := (alts [(lit (str "Monday")), (lit (str "Tuesday")), (lit (str "Wednesday")), (lit (str "Thursday")), (lit (str "Friday")), (lit (str "Saturday")), (lit (str "Sunday"))])
/-- syntax/rfc9110.py:376 `date2` -/
def date2 : RE := (seqs [rfc9110.day, (ch 45), rfc9110.month, (ch 45), (RE.rep 2 (some 2) false rfc5234.DIGIT)])
/-- syntax/rfc9110.py:380 `rfc850_date` -/
def rfc850_date : RE := (seqs [rfc9110.day_name_l, (ch 44), rfc5234.SP, rfc9110.date2, rfc5234.SP, rfc9110.time_of_day, rfc5234.SP, rfc9110.GMT])
/-- syntax/rfc9110.py:384 `date3` -/
def date3 : RE := (seqs [rfc9110.month, rfc5234.SP, (alts [(RE.rep 2 (some 2) false rfc5234.DIGIT), (seqs [rfc5234.SP, rfc5234.DIGIT])])])
/-- syntax/rfc9110.py:388 `asctime_date` -/
def asctime_date : RE := (seqs [rfc9110.day_name, rfc5234.SP, rfc9110.date3, rfc5234.SP, rfc9110.time_of_day, rfc5234.SP, rfc9110.year])
/-- syntax/rfc9110.py:392 `obs_date` -/
def obs_date : RE := (alts [rfc9110.rfc850_date, rfc9110.asctime_date])
/-- syntax/rfc9110.py:396 `HTTP_date` -/
def HTTP_date : RE := (alts [rfc9110.IMF_fixdate, rfc9110.obs_date])
/-- syntax/rfc9110.py:400 `Date` -/
def Date : RE := rfc9110.HTTP_date
/-- syntax/rfc9110.py:404 `weak` -/
def weak : RE := (lit (str "W/"))
/-- syntax/rfc9110.py:408 `etagc` -/
def etagc : RE := (alts [(ch 33), (cls [(35,126)]), rfc9110.obs_text])
/-- syntax/rfc9110.py:412 `opaque_tag` -/
def opaque_tag : RE := (seqs [rfc5234.DQUOTE, (star rfc9110.etagc), rfc5234.DQUOTE])
/-- syntax/rfc9110.py:416 `entity_tag` -/
def entity_tag : RE := (seqs [(opt rfc9110.weak), rfc9110.opaque_tag])
/-- syntax/rfc9110.py:420 `ETag` -/
def ETag : RE := rfc9110.entity_tag
/-- syntax/rfc9110.py:424 `expectation` -/
def expectation : RE := (seqs [rfc9110.token, (opt (seqs [(ch 61), rfc9110.parameter_value, rfc9110.parameters]))])
/-- syntax/rfc9110.py:428 `Expect` -/
def Expect_element : RE := rfc9110.expectation
/-- syntax/rfc9110.py:428 `Expect` -/
def Expect : RE := (opt (seqs [rfc9110.expectation, (star (seqs [rfc9110.OWS, (ch 44), rfc9110.OWS, rfc9110.expectation]))]))
/-- syntax/rfc9110.py:434 `From` -/
def From : RE := rfc5322.mailbox
/-- syntax/rfc9110.py:440 `Host` -/
def Host : RE := (seqs [rfc3986.host, (opt (seqs [(ch 58), rfc3986.port]))])
/-- syntax/rfc9110.py:444 `If_Match` -/
def If_Match : RE := (alts [(ch 42), (opt (seqs [rfc9110.entity_tag, (star (seqs [rfc9110.OWS, (ch 44), rfc9110.OWS, rfc9110.entity_tag]))]))])
/-- syntax/rfc9110.py:448 `If_Modified_Since` -/
def If_Modified_Since : RE := rfc9110.HTTP_date
/-- syntax/rfc9110.py:452 `If_None_Match` -/
def If_None_Match : RE := rfc9110.If_Match
/-- syntax/rfc9110.py:456 `If_Range` -/
def If_Range : RE := (alts [rfc9110.entity_tag, rfc9110.HTTP_date])
/-- syntax/rfc9110.py:460 `If_Unmodified_Since` -/
def If_Unmodified_Since : RE := rfc9110.HTTP_date
/-- syntax/rfc9110.py:464 `Last_Modified` -/
def Last_Modified : RE := rfc9110.HTTP_date
/-- syntax/rfc9110.py:470 `Location` -/
def Location : RE := rfc3986.URI_reference
/-- syntax/rfc9110.py:474 `Max_Forwards` -/
def Max_Forwards : RE := rfc9110.Content_Length
/-- syntax/rfc9110.py:478 `challenge` -/
def challenge : RE := rfc9110.credentials
/-- syntax/rfc9110.py:491 `Proxy_Authenticate` -/
def Proxy_Authenticate_element : RE := rfc9110.credentials
/-- syntax/rfc9110.py:491 `Proxy_Authenticate` -/
def Proxy_Authenticate : RE := (opt (seqs [rfc9110.credentials, (star (seqs [rfc9110.OWS, (ch 44), rfc9110.OWS, rfc9110.credentials]))]))
/-- syntax/rfc9110.py:495 `Proxy_Authentication_Info` -/
def Proxy_Authentication_Info_element : RE := rfc9110.auth_param
/-- syntax/rfc9110.py:495 `Proxy_Authentication_Info` -/
def Proxy_Authentication_Info : RE := rfc9110.Authentication_Info
/-- syntax/rfc9110.py:499 `Proxy_Authorization` -/
def Proxy_Authorization : RE := rfc9110.credentials
/-- syntax/rfc9110.py:503 `int_range` -/
def int_range : RE := (seqs [rfc9110.Content_Length, (ch 45), (RE.rep 1 none true rfc5234.DIGIT)])
/-- syntax/rfc9110.py:507 `suffix_length` -/
def suffix_length : RE := rfc9110.Content_Length
/-- syntax/rfc9110.py:511 `suffix_range` -/
def suffix_range : RE := (seqs [(ch 45), rfc9110.Content_Length])
/-- syntax/rfc9110.py:517 `other_range` -/
def other_range : RE := (plus (alts [(cls [(33,43)]), (cls [(45,126)])]))
/-- syntax/rfc9110.py:521 `range_spec` -/
def range_spec : RE := (alts [rfc9110.int_range, rfc9110.suffix_range, rfc9110.other_range])
/-- syntax/rfc9110.py:525 `range_set` -/
def range_set_element : RE := rfc9110.range_spec
/-- syntax/rfc9110.py:525 `range_set` -/
def range_set : RE := (seqs [rfc9110.range_spec, (star (seqs [rfc9110.OWS, (ch 44), rfc9110.OWS, rfc9110.range_spec]))])
/-- syntax/rfc9110.py:529 `ranges_specifier` -/
def ranges_specifier : RE := (seqs [rfc9110.token, (ch 61), rfc9110.range_set])
/-- syntax/rfc9110.py:533 `Range` -/
def Range : RE := rfc9110.ranges_specifier
/-- syntax/rfc9110.py:537 `Referer` -/
def Referer : RE := rfc9110.Content_Location
/-- syntax/rfc9110.py:541 `delay_seconds` -/
def delay_seconds : RE := rfc9110.Content_Length
/-- syntax/rfc9110.py:545 `Retry_After` -/
def Retry_After : RE := (alts [rfc9110.HTTP_date, rfc9110.Content_Length])
/-- syntax/rfc9110.py:549 `product_version` -/
def product_version : RE := rfc9110.token
/-- syntax/rfc9110.py:553 `product` -/
def product : RE := (seqs [rfc9110.token, (opt (seqs [(ch 47), rfc9110.token]))])
/-- syntax/rfc9110.py:560 `ctext` -/
def ctext : RE := (alts [rfc5234.HTAB, rfc5234.SP, (cls [(33,39)]), (cls [(42,91)]), (cls [(93,126)]), rfc9110.obs_text])
/-- syntax/rfc9110.py:564 `comment` -/
def comment : RE := (seqs [(ch 40), (star (alts [rfc9110.ctext, rfc9110.quoted_pair])), (ch 41)])
/-- syntax/rfc9110.py:568 `Server` -/
def Server : RE := (seqs [rfc9110.product, (star (seqs [rfc9110.RWS, (alts [rfc9110.product, rfc9110.comment])]))])
/-- syntax/rfc9110.py:572 `transfer_parameter` -/
def transfer_parameter : RE := rfc9110.auth_param
/-- syntax/rfc9110.py:576 `transfer_coding` -/
def transfer_coding : RE := (seqs [rfc9110.token, (star (seqs [rfc9110.OWS, (ch 59), rfc9110.OWS, rfc9110.auth_param]))])
/-- syntax/rfc9110.py:580 `t_codings` -/
def t_codings : RE := (alts [(lit (str "trailers")), (seqs [rfc9110.transfer_coding, (opt rfc9110.weight)])])
/-- syntax/rfc9110.py:584 `TE` -/
def TE_element : RE := rfc9110.t_codings
/-- syntax/rfc9110.py:584 `TE` -/
def TE : RE := (opt (seqs [rfc9110.t_codings, (star (seqs [rfc9110.OWS, (ch 44), rfc9110.OWS, rfc9110.t_codings]))]))
/-- syntax/rfc9110.py:588 `field_name` -/
def field_name : RE := rfc9110.token
/-- syntax/rfc9110.py:592 `Trailer` -/
def Trailer_element : RE := rfc9110.token
/-- syntax/rfc9110.py:592 `Trailer` -/
def Trailer : RE := rfc9110.Allow
/-- syntax/rfc9110.py:596 `protocol_name` -/
def protocol_name : RE := rfc9110.token
/-- syntax/rfc9110.py:600 `protocol_version` -/
def protocol_version : RE := rfc9110.token
/-- syntax/rfc9110.py:604 `protocol` -/
def protocol : RE := rfc9110.product
/-- syntax/rfc9110.py:608 `Upgrade` -/
def Upgrade_element : RE := rfc9110.product
/-- syntax/rfc9110.py:608 `Upgrade` -/
def Upgrade : RE := (opt (seqs [rfc9110.product, (star (seqs [rfc9110.OWS, (ch 44), rfc9110.OWS, rfc9110.product]))]))
/-- syntax/rfc9110.py:612 `User_Agent` -/
def User_Agent : RE := rfc9110.Server
/-- syntax/rfc9110.py:616 `Vary` -/
def Vary_element : RE := (alts [(ch 42), rfc9110.token])
/-- syntax/rfc9110.py:616 `Vary` -/
def Vary : RE := (opt (seqs [rfc9110.Vary_element, (star (seqs [rfc9110.OWS, (ch 44), rfc9110.OWS, rfc9110.Vary_element]))]))
/-- syntax/rfc9110.py:620 `pseudonym` -/
def pseudonym : RE := rfc9110.token
/-- syntax/rfc9110.py:624 `received_protocol` -/
def received_protocol : RE := (seqs [(opt (seqs [rfc9110.token, (ch 47)])), rfc9110.token])
/-- syntax/rfc9110.py:628 `received_by` -/
def received_by : RE := (alts [rfc9110.Host, rfc9110.token])
/-- syntax/rfc9110.py:633 `Via` -/
def Via_element : RE := (seqs [rfc9110.received_protocol, rfc9110.RWS, rfc9110.received_by, (opt (seqs [rfc9110.RWS, rfc9110.comment]))])
/-- syntax/rfc9110.py:633 `Via` -/
def Via : RE := (opt (seqs [rfc9110.Via_element, (star (seqs [rfc9110.OWS, (ch 44), rfc9110.OWS, rfc9110.Via_element]))]))
/-- syntax/rfc9110.py:637 `WWW_Authenticate` -/
def WWW_Authenticate_element : RE := rfc9110.credentials
/-- syntax/rfc9110.py:637 `WWW_Authenticate` -/
def WWW_Authenticate : RE := rfc9110.Proxy_Authenticate
/-- syntax/rfc9110.py:641 `absolute_path` -/
def absolute_path : RE := (plus (seqs [(ch 47), rfc3986.segment]))
/-- syntax/rfc9110.py:647 `field_vchar` -/
def field_vchar : RE := (alts [rfc5234.VCHAR, rfc9110.obs_text])
/-- syntax/rfc9110.py:651 `field_content` -/
def field_content : RE := (seqs [rfc9110.field_vchar, (opt (seqs [rfc9110.RWS, rfc9110.field_vchar]))])
/-- syntax/rfc9110.py:655 `field_value` -/
def field_value : RE := (star rfc9110.field_content)
/-- syntax/rfc9110.py:659 `http_URI` -/
def http_URI : RE := (seqs [(lit (str "http://")), (opt (seqs [rfc3986.userinfo, (ch 64)])), rfc3986.host, (opt (seqs [(ch 58), rfc3986.port])), rfc3986.path_abempty, (opt (seqs [(ch 63), rfc3986.query]))])
/-- syntax/rfc9110.py:663 `https_URI` -/
def https_URI : RE := (seqs [(lit (str "https://")), (opt (seqs [rfc3986.userinfo, (ch 64)])), rfc3986.host, (opt (seqs [(ch 58), rfc3986.port])), rfc3986.path_abempty, (opt (seqs [(ch 63), rfc3986.query]))])
end rfc9110

namespace rfc8288
/-- syntax/rfc8288.py:21 `link_param` -/
def link_param : RE := (seqs [rfc9110.token, (opt (seqs [(ch 61), rfc9110.parameter_value]))])
/-- syntax/rfc8288.py:25 `link_value` -/
def link_value : RE := (seqs [(ch 60), rfc3986.URI_reference, (ch 62), (star (seqs [rfc9110.OWS, (ch 59), rfc9110.OWS, rfc8288.link_param]))])
/-- syntax/rfc8288.py:29 `Link` -/
def Link_element : RE := rfc8288.link_value
/-- syntax/rfc8288.py:29 `Link` -/
def Link : RE := (opt (seqs [rfc8288.link_value, (star (seqs [rfc9110.OWS, (ch 44), rfc9110.OWS, rfc8288.link_value]))]))
end rfc8288

namespace rfc9111
/-- syntax/rfc9111.py:23 `delta_seconds` -/
def delta_seconds : RE := rfc9110.Content_Length
/-- syntax/rfc9111.py:27 `Age` -/
def Age : RE := rfc9110.Content_Length
/-- syntax/rfc9111.py:31 `cache_directive` -/
def cache_directive : RE := rfc8288.link_param
/-- syntax/rfc9111.py:35 `Cache_Control` -/
def Cache_Control_element : RE := rfc8288.link_param
/-- syntax/rfc9111.py:35 `Cache_Control` -/
def Cache_Control : RE := (opt (seqs [rfc8288.link_param, (star (seqs [rfc9110.OWS, (ch 44), rfc9110.OWS, rfc8288.link_param]))]))
/-- syntax/rfc9111.py:39 `Expires` -/
def Expires : RE := rfc9110.HTTP_date
/-- syntax/rfc9111.py:43 `extension_pragma` -/
def extension_pragma : RE := rfc8288.link_param
/-- syntax/rfc9111.py:47 `pragma_directive` -/
def pragma_directive : RE := (alts [(lit (str "no-cache")), rfc8288.link_param])
/-- syntax/rfc9111.py:54 `Pragma` -/
def Pragma_element : RE := rfc9111.pragma_directive
/-- syntax/rfc9111.py:54 `Pragma` -/
def Pragma : RE := (seqs [rfc9111.pragma_directive, (star (seqs [rfc9110.OWS, (ch 44), rfc9110.OWS, rfc9111.pragma_directive]))])
/-- syntax/rfc9111.py:58 `warn_code` -/
def warn_code : RE := (RE.rep 3 (some 3) false rfc5234.DIGIT)
/-- syntax/rfc9111.py:62 `warn_agent` -/
def warn_agent : RE := rfc9110.received_by
/-- syntax/rfc9111.py:66 `warn_text` -/
def warn_text : RE := rfc9110.quoted_string
/-- syntax/rfc9111.py:70 `warn_date` -/
def warn_date : RE := (seqs [rfc5234.DQUOTE, rfc9110.HTTP_date, rfc5234.DQUOTE])
/-- syntax/rfc9111.py:74 `warning_value` -/
def warning_value : RE := (seqs [rfc9111.warn_code, rfc5234.SP, rfc9110.received_by, rfc5234.SP, rfc9110.quoted_string, (opt (seqs [rfc5234.SP, rfc9111.warn_date]))])
/-- syntax/rfc9111.py:81 `Warning_` -/
def Warning__element : RE := rfc9111.warning_value
/-- syntax/rfc9111.py:81 `Warning_` -/
def Warning_ : RE := (seqs [rfc9111.warning_value, (star (seqs [rfc9110.OWS, (ch 44), rfc9110.OWS, rfc9111.warning_value]))])
end rfc9111

namespace rfc9112
/-- syntax/rfc9112.py:36 `header_field` -/
def header_field : RE := (seqs [rfc9110.token, (ch 58), rfc9110.OWS, rfc9110.field_value, rfc9110.OWS])
/-- syntax/rfc9112.py:42 `chunk_size` -/
def chunk_size : RE := (plus rfc5234.HEXDIG)
/-- syntax/rfc9112.py:46 `chunk_ext_name` -/
def chunk_ext_name : RE := rfc9110.token
/-- syntax/rfc9112.py:50 `chunk_ext_val` -/
def chunk_ext_val : RE := rfc9110.parameter_value
/-- syntax/rfc9112.py:54 `chunk_ext` -/
def chunk_ext : RE := (seqs [(ch 59), rfc9110.token, (opt (seqs [(ch 61), rfc9110.parameter_value]))])
/-- syntax/rfc9112.py:58 `chunk_data` -/
def chunk_data : RE := (plus rfc5234.OCTET)
/-- syntax/rfc9112.py:62 `chunk` -/
def chunk : RE := (seqs [rfc9112.chunk_size, (opt rfc9112.chunk_ext), rfc5234.CRLF, rfc9112.chunk_data, rfc5234.CRLF])
/-- syntax/rfc9112.py:66 `last_chunk` -/
def last_chunk : RE := (seqs [(plus (ch 48)), (opt rfc9112.chunk_ext), rfc5234.CRLF])
/-- syntax/rfc9112.py:70 `trailer_part` -/
def trailer_part : RE := (star (seqs [rfc9112.header_field, rfc5234.CRLF]))
/-- syntax/rfc9112.py:74 `chunked_body` -/
def chunked_body : RE := (seqs [(star (lit (str "chunk"))), rfc9112.last_chunk, rfc9112.trailer_part, rfc5234.CRLF])
/-- syntax/rfc9112.py:81 `transfer_parameter` -/
def transfer_parameter : RE := rfc9110.auth_param
/-- syntax/rfc9112.py:85 `transfer_extension` -/
def transfer_extension : RE := rfc9110.transfer_coding
/-- syntax/rfc9112.py:89 `transfer_coding` -/
def transfer_coding : RE := (alts [(lit (str "chunked")), (lit (str "compress")), (lit (str "deflate")), (lit (str "gzip")), rfc9110.transfer_coding])
/-- syntax/rfc9112.py:93 `Transfer_Encoding` -/
def Transfer_Encoding_element : RE := rfc9112.transfer_coding
/-- syntax/rfc9112.py:93 `Transfer_Encoding` -/
def Transfer_Encoding : RE := (seqs [rfc9112.transfer_coding, (star (seqs [rfc9110.OWS, (ch 44), rfc9110.OWS, rfc9112.transfer_coding]))])
/-- syntax/rfc9112.py:99 `HTTP_name` -/
def HTTP_name : RE := (lit (str "HTTP"))
/-- syntax/rfc9112.py:103 `HTTP_version` -/
def HTTP_version : RE := (seqs [(lit (str "HTTP/")), rfc5234.DIGIT, anyc, rfc5234.DIGIT])
/-- syntax/rfc9112.py:107 `method` -/
def method : RE := rfc9110.token
/-- syntax/rfc9112.py:111 `absolute_form` -/
def absolute_form : RE := rfc3986.absolute_URI
/-- syntax/rfc9112.py:115 `absolute_path` -/
def absolute_path : RE := rfc9110.absolute_path
/-- syntax/rfc9112.py:119 `asterisk_form` -/
def asterisk_form : RE := (ch 42)
/-- syntax/rfc9112.py:123 `authority_form` -/
def authority_form : RE := rfc3986.authority
/-- syntax/rfc9112.py:127 `origin_form` -/
def origin_form : RE := (seqs [rfc9110.absolute_path, (opt rfc3986.query)])
/-- syntax/rfc9112.py:131 `request_target` -/
def request_target : RE := (alts [rfc9112.origin_form, rfc3986.absolute_URI, rfc3986.authority, (ch 42)])
/-- syntax/rfc9112.py:135 `request_line` -/
def request_line : RE := (seqs [rfc9110.token, rfc5234.SP, rfc9112.request_target, rfc5234.SP, (lit (str "HTTP/")), rfc5234.DIGIT, anyc, rfc5234.DIGIT, rfc5234.CRLF])
/-- syntax/rfc9112.py:139 `status_code` -/
def status_code : RE := rfc9111.warn_code
/-- syntax/rfc9112.py:142 `obs_text` -/
def obs_text : RE := rfc9110.obs_text
/-- syntax/rfc9112.py:146 `reason_phrase` -/
def reason_phrase : RE := (star (alts [rfc5234.HTAB, rfc5234.SP, rfc5234.VCHAR, rfc9110.obs_text]))
/-- syntax/rfc9112.py:150 `status_line` -/
def status_line : RE := (seqs [(lit (str "HTTP/")), rfc5234.DIGIT, anyc, rfc5234.DIGIT, rfc5234.SP, rfc9111.warn_code, rfc5234.SP, rfc9112.reason_phrase, rfc5234.CRLF])
/-- syntax/rfc9112.py:154 `start_line` -/
def start_line : RE := (alts [rfc9112.request_line, rfc9112.status_line])
/-- syntax/rfc9112.py:158 `message_body` -/
def message_body : RE := (star rfc5234.OCTET)
/-- syntax/rfc9112.py:162 `HTTP_message` -/
def HTTP_message : RE := (seqs [rfc9112.start_line, rfc9112.trailer_part, rfc5234.CRLF, (opt rfc9112.message_body)])
end rfc9112

namespace rfc9651
/-- syntax/rfc9651.py:17 `sf_integer` -/
def sf_integer : RE := (seqs [(opt (ch 45)), (RE.rep 1 (some 15) false rfc5234.DIGIT)])
/-- syntax/rfc9651.py:20 `sf_decimal` -/
def sf_decimal : RE := (seqs [(opt (ch 45)), (RE.rep 1 (some 12) false rfc5234.DIGIT), (ch 46), (RE.rep 1 (some 3) false rfc5234.DIGIT)])
/-- syntax/rfc9651.py:25 `sf_string` -/
def sf_string : RE := (seqs [(ch 34), (star (alts [(cls [(32,33), (35,91), (93,126)]), (seqs [(ch 92), (cls [(34,34), (92,92)])])])), (ch 34)])
/-- syntax/rfc9651.py:30 `sf_token` -/
def sf_token : RE := (seqs [(cls [(97,122), (65,90), (42,42)]), (star (cls [(97,122), (65,90), (48,57), (33,33), (35,35), (36,36), (37,37), (38,38), (39,39), (42,42), (43,43), (45,45), (46,46), (94,94), (95,95), (96,96), (124,124), (126,126), (58,58), (47,47)]))])
/-- syntax/rfc9651.py:34 `sf_binary` -/
def sf_binary : RE := (seqs [(ch 58), (star (cls [(97,122), (65,90), (48,57), (43,43), (47,47), (61,61)])), (ch 58)])
/-- syntax/rfc9651.py:37 `sf_boolean` -/
def sf_boolean : RE := (seqs [(ch 63), rfc5234.BIT])
/-- syntax/rfc9651.py:40 `sf_date` -/
def sf_date : RE := (seqs [(ch 64), (opt (ch 45)), (RE.rep 1 (some 15) false rfc5234.DIGIT)])
/-- syntax/rfc9651.py:43 `bare_item` -/
def bare_item : RE := (alts [rfc9651.sf_decimal, rfc9651.sf_integer, rfc9651.sf_string, rfc9651.sf_token, rfc9651.sf_binary, rfc9651.sf_boolean, rfc9651.sf_date])
/-- syntax/rfc9651.py:49 `key` -/
def key : RE := (seqs [(cls [(97,122), (42,42)]), (star (cls [(97,122), (48,57), (95,95), (45,45), (46,46), (42,42)]))])
/-- syntax/rfc9651.py:52 `param_key` -/
def param_key : RE := rfc9651.key
/-- syntax/rfc9651.py:55 `param_value` -/
def param_value : RE := rfc9651.bare_item
/-- syntax/rfc9651.py:58 `parameter` -/
def parameter : RE := (seqs [(ch 59), (star rfc5234.SP), (cls [(97,122), (42,42)]), (star (cls [(97,122), (48,57), (95,95), (45,45), (46,46), (42,42)])), (opt (seqs [(ch 61), rfc9651.bare_item]))])
/-- syntax/rfc9651.py:61 `parameters` -/
def parameters : RE := (star rfc9651.parameter)
/-- syntax/rfc9651.py:64 `sf_item` -/
def sf_item : RE := (seqs [rfc9651.bare_item, rfc9651.parameters])
/-- syntax/rfc9651.py:67 `inner_list` -/
def inner_list : RE := (seqs [(ch 40), (star rfc5234.SP), (opt (seqs [rfc9651.bare_item, rfc9651.parameters, (star (seqs [(plus rfc5234.SP), rfc9651.bare_item, rfc9651.parameters])), (star rfc5234.SP)])), (ch 41), rfc9651.parameters])
/-- syntax/rfc9651.py:73 `list_member` -/
def list_member : RE := (alts [rfc9651.sf_item, rfc9651.inner_list])
/-- syntax/rfc9651.py:74 `sf_list` -/
def sf_list : RE := (seqs [rfc9651.list_member, (star (seqs [rfc9110.OWS, (ch 44), rfc9110.OWS, rfc9651.list_member]))])
/-- syntax/rfc9651.py:80 `member_key` -/
def member_key : RE := rfc9651.key
/-- syntax/rfc9651.py:81 `member_value` -/
def member_value : RE := rfc9651.list_member
/-- syntax/rfc9651.py:82 `dict_member` -/
def dict_member : RE := (seqs [(cls [(97,122), (42,42)]), (star (cls [(97,122), (48,57), (95,95), (45,45), (46,46), (42,42)])), (opt (seqs [(ch 61), rfc9651.list_member]))])
/-- syntax/rfc9651.py:83 `sf_dictionary` -/
def sf_dictionary : RE := (seqs [(cls [(97,122), (42,42)]), (star (cls [(97,122), (48,57), (95,95), (45,45), (46,46), (42,42)])), (opt (seqs [(ch 61), rfc9651.list_member])), (star (seqs [rfc9110.OWS, (ch 44), rfc9110.OWS, (cls [(97,122), (42,42)]), (star (cls [(97,122), (48,57), (95,95), (45,45), (46,46), (42,42)])), (opt (seqs [(ch 61), rfc9651.list_member]))]))])
/-- syntax/rfc9651.py:86 `sf_value` -/
def sf_value : RE := (alts [rfc9651.sf_dictionary, rfc9651.sf_list, rfc9651.sf_item])
end rfc9651

end HL.Syntax
