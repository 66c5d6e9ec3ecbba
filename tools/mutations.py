"""Realistic wrong programs, as edits of the model (see mutate.py)."""
def M(id, file, old, new, definition, edit, claim, count=1):
    return dict(id=id, file=file, old=old, new=new, definition=definition, edit=edit, claim=claim, count=count)
MUTATIONS = [
 M('M01','Encoding.lean','else if h : count + out.length > maxDecompressed then','else if h : out.length > maxDecompressed then','inflateTail','the limit is compared with one piece, not with the total (dropped accumulation); termination proof adapted by Lean or not','C30: decoded output stays below the decompression limit'),
 M('M02','Encoding.lean','sample ++ chunk.take (contentSampleSize - sample.length) else sample','sample ++ chunk.take contentSampleSize else sample','sampleAppend','take a whole sample size from each chunk','C26/C32: the sample is the first 8192 bytes of the decoded content'),
 M('M03','Encoding.lean','(codings.filterMap codingDecoder).reverse','(codings.filterMap codingDecoder)','buildPipeline','codings removed in the order they were applied','C31: codings are undone in reverse order'),
 M('M04','Encoding.lean','(hasFlag flag 8) skipZ s','(hasFlag flag 16) skipZ s','skipOptional','FNAME tested with the FCOMMENT bit (copy-paste)','C29: the gzip header is skipped as RFC 1952 says'),
 M('M05','Encoding.lean','| a :: b :: r => skipN (a + 256 * b) r','| a :: b :: r => skipN (256 * a + b) r','skipExtra','extra-field length read big-endian','C29'),
 M('M06','Encoding.lean','{ dec := { d with ok := false, headerBuf := [] }\n        notes := [c.add.mk1 .BAD_GZIP','{ dec := { d with headerBuf := [] }\n        notes := [c.add.mk1 .BAD_GZIP','Decoder.gzipStep','a decoder that met a bad header goes on (ok not cleared)','C30: after an error nothing more is decoded and at most one error is reported'),
 M('M07','Encoding.lean','| .incomplete => { dec := { d with headerBuf := buf } }','| .incomplete => { dec := { d with headerBuf := chunk } }','Decoder.gzipStep','the header buffer keeps only the last chunk','C28: chunking does not matter for the gzip header'),
 M('M08','Message.lean','contentLength := m.contentLength + chunk.length','contentLength := chunk.length','Msg.feedContent','content_length overwritten instead of added to','C24: content_length is the sum of the chunks'),
 M('M09','Message.lean','hashed := m.hashed ++ chunk','hashed := chunk','Msg.feedContent','hash only of the last chunk','C25: content_hash is the MD5 of all content'),
 M('M10','Message.lean','!m.isHeadResponse && m.statusCode != some 304','!m.isHeadResponse && m.statusCode != some 204','Msg.canHaveContent','304 mistaken for 204','C27: content after HEAD/304 is reported, and only then'),
 M('M11','Message.lean','else if v.eqNat m.contentLength then','else if v.eqNat m.decoded.length then','lengthNotes','compares with the decoded length','C26: CL_CORRECT iff Content-Length equals the bytes fed'),
 M('M12','Message.lean','      if m.noContent then []\n      else if v.eqNat','      if v.eqNat','lengthNotes','the no_content exemption dropped','C26: no verdict with no_content'),
 M('M13','Message.lean','if uri.length > maxUriChars then','if uri.length ≥ maxUriChars then','Msg.setUri','off by one at 8000','C48: URI_TOO_LONG exactly over 8000 characters'),
 M('M14','Message.lean','| none => m.addNotes [add.mk1 .STATUS_CODE_NON_NUMERIC]','| none => m','Msg.responseTopline','non-numeric status not reported','C48: STATUS_CODE_NON_NUMERIC exactly for non-numbers'),
 M('M15','Cache.lean','return if d > 0 then max 0 ((F.truncRat t : Rat) - d) else 0','return if d > 0 then ((F.truncRat t : Rat) - d) else 0','apparentAge','a Date in the future gives a negative apparent age','C36: the current age as RFC 9111, never negative apparent age'),
 M('M16','Cache.lean','return { l with shared := n, explicit := true, hdrs := l.hdrs ++ [fcc] }','return { l with priv := n, shared := n, explicit := true, hdrs := l.hdrs ++ [fcc] }','lifetimeSMaxAge','s-maxage also sets the private lifetime','C35/C37: s-maxage is for shared caches only'),
 M('M17','Cache.lean','  let l ← i.lifetimeExpires {}\n  let l ← i.lifetimeMaxAge l\n','  let l ← i.lifetimeMaxAge {}\n  let l ← i.lifetimeExpires l\n','lifetimes','Expires overrides max-age','C37: max-age wins over Expires'),
 M('M18','Cache.lean','[200, 203, 206, 300, 301, 410]','[200, 203, 204, 206, 300, 301, 410]','heuristicStatus','204 treated as heuristically cacheable','C34: storability by status'),
 M('M19','Cache.lean','else if i.has (str "must-revalidate") then (st, publicAuth','else if i.has (str "no-cache") then (st, publicAuth','checkStorable','wrong directive lets an authenticated response be shared','C34: Authorization'),
 M('M20','Cache.lean','({ st with storeShared := false }, (do\n        i.note fcc .STORE_PRIVATE_CC','(st, (do\n        i.note fcc .STORE_PRIVATE_CC','checkStorable','private does not forbid shared caches','C33'),
 M('M21','Cache.lean','if left > 0 ∨ sleft > 0 then i.note subject .FRESHNESS_FRESH','if left ≥ 0 ∨ sleft ≥ 0 then i.note subject .FRESHNESS_FRESH','explicitNotes','boundary: fresh at exactly zero left','C38: FRESH exactly when the lifetime exceeds the age'),
 M('M22','Cache.lean','if l.priv - age > 0 then i.note fcc .FRESH_MUST_REVALIDATE','if l.shared - age > 0 then i.note fcc .FRESH_MUST_REVALIDATE','checkStale','shared instead of private freshness','C39: staleness notes'),
 M('M23','Cache.lean','| .ok true => (noStore st, pure false)','| .ok true => (noStore st, pure true)','checkBasic','checks go on after Vary: *','C33/C40: Vary * ends the checks'),
 M('M24','Status.lean','[str "GET", str "HEAD", str "OPTIONS", str "TRACE"]','[str "GET", str "HEAD", str "OPTIONS"]','safeMethods','TRACE forgotten','C41: CREATED_SAFE_METHOD'),
 M('M25','Status.lean','W.when (req r (str "upgrade")).isEmpty (note','W.when (!(req r (str "upgrade")).isEmpty) (note','s101','negated test','C41: 101 without Upgrade'),
 M('M26','Status.lean','| 410 => some (note c [] .STATUS_GONE)','| 410 => some (note c [] .STATUS_NOT_FOUND)','Status.method','wrong note for 410','C41: one note per status'),
 M('M27','Status.lean','if listed then note c (str "field-allow") .STATUS_405','if !listed then note c (str "field-allow") .STATUS_405','s405','negated','C42: 405 with Allow'),
 M('M28','Section.lean','(if more.isEmpty then [] else [add.mk1 .SINGLE_HEADER_REPEAT])','[]','Handler.finishSingleton','repeated singleton not reported','C17: SINGLE_HEADER_REPEAT'),
 M('M29','Section.lean','let t := nameToken name\n  if t.head? = some 95 then none','let t := nameToken name\n  if t.head? = some 45 then none','findModule','wrong character for private modules','C23: names starting with _ have no handler'),
 M('M30','Section.lean','match dget hs (lower name) with\n  | some h => h','match dget hs name with\n  | some h => h','findHandler','lookup without lower-casing','C12/C13: one handler per case-insensitive name'),
 M('M31','Section.lean','if !h.fid.validIn kind then\n    ({ h with value := .none }, false,','if !h.fid.validIn kind then\n    ({ h with value := .none }, true,','Handler.preCheck','a response field in a request is evaluated anyway','C10/C16'),
 M('M32','Section.lean','let start := i - 20\n    let stop := min value.length (i + 20)','let start := i - 20\n    let stop := min value.length (i + 40)','syntaxProblem','context too long','C21: the context has at most 40 characters'),
 M('M33','Section.lean','s.filter (· < 128)','s.filter (· ≤ 128)','decodeName','boundary of ASCII','C09/C14: non-ASCII octets are dropped from names'),
 M('M34','Section.lean','def maxFieldSize : Nat := 8 * 1024','def maxFieldSize : Nat := 4 * 1024','maxFieldSize','limit halved','C11: FIELD_TOO_LARGE over 8192 octets'),
 M('M35','Fields/Caching.lean','if n < 0 then do\n      add.add .AGE_NEGATIVE','if n ≤ 0 then do\n      add.add .AGE_NEGATIVE','age.parse','zero age rejected','C55: AGE_NEGATIVE exactly below zero'),
 M('M36','Fields/Caching.lean','W.when (u.length > 3) (add.add .VARY_COMPLEX','W.when (names.length > 3) (add.add .VARY_COMPLEX','vary.evaluate','counts repeated names','C57: VARY_COMPLEX counts distinct names'),
 M('M37','Fields/Caching.lean','return .list (u.map .str)','return h.value','vary.evaluate','duplicates kept in the value','C57: the value is a set'),
 M('M38','Fields/Negotiation.lean','W.when (n > 9223372036854775807) (add.add .CL_TOO_LARGE)','W.when (n > 9223372036854775808) (add.add .CL_TOO_LARGE)','content_length.parse','off by one at 2^63','C54: CL_TOO_LARGE over 2^63-1'),
 M('M39','Fields/Security.lean','if deny then add.add .FRAME_OPTIONS_DENY\n  else if same then add.add .FRAME_OPTIONS_SAMEORIGIN','if same then add.add .FRAME_OPTIONS_SAMEORIGIN\n  else if deny then add.add .FRAME_OPTIONS_DENY','x_frame_options.evaluate','order of the tests swapped','C64: DENY takes precedence'),
 M('M40','Section.lean','(m.addNotes big, .ok (offset + 1))','(m.addNotes big, .ok offset)','processLine','the line number is not advanced','C08: notes name the line they are about'),
 M('M41','Section.lean','if !ok then (m, .ok offset)','if !ok then (m, .ok (offset + 1))','processLine','refused lines are counted too','C08 (as the code numbers lines)'),
 M('M42','Section.lean','size := sec.size + fieldSize, text','size := fieldSize, text','processLine','section size overwritten','C11: FIELD_SECTION_TOO_LARGE by the total size'),
 M('M43','Section.lean','parsed := dset sec.parsed h\'.normName h\'.value','parsed := dset sec.parsed h\'.canonicalName h\'.value','finishHandler','keyed by the canonical name','C13: headers.parsed is keyed by the lower-cased name'),
 M('M44','Section.lean','(acc ++ [v])','(v :: acc)','Handler.brokenLoop','cookies in reverse order','C14/C18: values in order'),
 M('M45','Section.lean','| .ok h => ({ h with sfParsed := false }, pure ())','| .ok h => (h, pure ())','Handler.handleInput','flag not cleared','(equivalent for one section: the flag is only set at the end)'),
 M('M46','Note.lean','| some c => if cls.cat = .GENERAL then c else cls.cat','| some c => c','addCategory','the category always overridden','C03: a category is overridden only when GENERAL'),
 M('M47','Note.lean','vars := dupdate n.vars vrs }] }','vars := vrs }] }','Note.addChild','children do not inherit variables','C05: subnotes render'),
 M('M48','Note.lean','{ cls, subject, category := addCategory cls category, vars := dupdate defaults vrs }','{ cls, subject, category := addCategory cls category, vars := vrs }','mkNote','default variables dropped','C04: every template variable is bound'),
 M('M49','Note.lean','| .md s => .ok s\n  | v => do\n    let s ← e.toStr v\n    return removeC 96 s','| .md s => .ok s\n  | v => e.toStr v','RenderEnv.coerce','backticks not removed','C06: text from the message cannot close a code span'),
 M('M50','Cli.lean','if proto ≠ str "HTTP" ∨','if proto ≠ str "HTTP" ∧','Cli.responseTopline','and for or','C65: only HTTP/1.0, 1.1, 2 status lines'),
 M('M51','Cli.lean','[str "204", str "304"]','[str "204"]','noBodyStatus','304 forgotten','C66: no body after 304'),
 M('M52','Cli.lean','(if cur = some n.category then [] else [Line.category n.category])','(if cur = none then [Line.category n.category] else [])','printLoop','heading only once','C67: every note is printed under its category'),
 M('M53','I18n.lean','⟨token, a.log, a.res⟩','⟨(match a.res with | .ok () => token | .error _ => a.locale), a.log, a.res⟩','I18n.run','locale restored only on success (no finally)','C49: set_locale restores the locale also on exceptions'),
 M('M54','I18n.lean','| some s => if s.isEmpty then str "en" else s','| some s => s','effective','empty locale not defaulted','C49'),
 M('M55','Utils.lean','if giga ≠ 0 then dec giga ++ str "g"','if mega ≠ 0 then dec mega ++ str "g"','fNum','wrong unit','C53: f_num'),
 M('M56','Content.lean','([204, 205, 304, 206] : List Int)','([204, 205, 206] : List Int)','noRepresentation','304 not exempt','C46/C47'),
 M('M57','Content.lean','if sniffed = d then pure ()','if sniffed ≠ d then pure ()','verifyContentType','negated','C46: CONTENT_TYPE_MISMATCH'),
 M('M58','Content.lean','endsWith (str "+json") sub','endsWith (str "+json") mt','requiresUtf8','suffix tested on the whole type','(equivalent unless the type ends in +json without a slash)'),
 M('M59','Content.lean','decide (conf.getD 0 ≥ 1 / 2)','decide (conf.getD 0 > 1 / 2)','charsetChecks','boundary of the confidence','C47: mismatch at confidence ≥ 0.5'),
 M('M60','Content.lean','if same then pure ()\n            else if implicit','if !same then pure ()\n            else if implicit','charsetChecks','negated','C47'),
 M('M61','Py.lean','if ds.length > maxIntDigits then none','if ds.length ≥ maxIntDigits then none','pyInt','boundary','C54: up to 4300 digits'),
 M('M62','Fields/Cookies.lean','if 99 ≥ y ∧ y ≥ 70 then','if 99 ≥ y ∧ y ≥ 69 then','expandYear','boundary of two-digit years','C62: years 70..99 are 19xx'),
 M('M63','Fields/Cookies.lean','if ¬ (1 ≤ day ∧ day ≤ 31)','if ¬ (1 ≤ day ∧ day ≤ 30)','CookieDate.finish','31st refused','C62: the dates accepted'),
 M('M64','Fields/Cookies.lean','else if h > 23 then','else if h > 24 then','CookieDate.finish','hour 24 accepted','C62'),
 M('M65','Fields/Cookies.lean','if l.getLast? = some [] then l.dropLast else l','l','cookieAvs','a trailing semicolon gives an empty attribute','C60: attributes of a cookie'),
 M('M66','Fields/Cookies.lean','W.when (seen.contains (lower name))','W.when (seen.contains name)','cookieAttrLoop','repeated attributes compared case-sensitively','C60: SET_COOKIE_ATTRIBUTE_DUP in any case'),
 M('M67','Fields/Cookies.lean','def maxCookieLifetime : Int := 34560000','def maxCookieLifetime : Int := 31536000','maxCookieLifetime','365 instead of 400 days','C60: SET_COOKIE_LIFETIME_TOO_LONG'),
 M('M68','Fields/Cookies.lean','if delta > maxCookieLifetime ∧ lifetime = false then','if delta ≥ maxCookieLifetime ∧ lifetime = false then','processCookieAttribute','boundary of the lifetime','C60'),
 M('M69','Fields/Cookies.lean','W.when (startsWith (str "__secure-") l && !attrs.secure)','W.when (startsWith (str "__Secure-") cookieName && !attrs.secure)','checkPrefixes','prefix compared case-sensitively','C61: cookie name prefixes'),
 M('M70','Fields/Cookies.lean','W.when (name.length + value.length > 4096)','W.when (value.length > 4096)','looseParse','only the value is measured','C59: SET_COOKIE_TOO_LARGE'),
 M('M71','Fields/Cookies.lean','return (attrs ++ [(str "Domain", .str (if c = 46 then r else value))], lifetime)','return (attrs ++ [(str "Domain", .str value)], lifetime)','processCookieAttribute','leading dot kept','C60: the value of Domain'),
 M('M72','Fields/Security.lean','decide (n ≥ 1536000)','decide (n > 1536000)','hsts.notesToAdd','boundary of the preload age','C58: HSTS_PRELOAD'),
 M('M73','Fields/Security.lean','hsts.loop r.1 (seen ++ [n]) (kids ++ r.2) ds','hsts.loop r.1 seen (kids ++ r.2) ds','hsts.loop','seen directives forgotten','C58: repeated directives'),
 M('M74','Fields/Security.lean','x.maxAge.isSome && !hsts.overHttp c &&','x.maxAge.isSome &&','hsts.isValid','valid over plain HTTP','C58: HSTS_VALID'),
 M('M75','Fields/Security.lean','| none => (lower (strip d), none)\n    if seen','| none => (strip d, none)\n    if seen','hsts.loop','names without a value compared case-sensitively','C58'),
 M('M76','Fields/Caching.lean','W.when (n > 2147483648) (add.add .CC_MAX_AGE_TOO_LARGE','W.when (n > 2147483647) (add.add .CC_MAX_AGE_TOO_LARGE','cache_control.parse','boundary of delta-seconds','C56'),
 M('M77','Fields/Caching.lean','⟨str "no-cache", true, true, .unquote, str "quoted string"⟩','⟨str "no-cache", true, true, .none, str "quoted string"⟩','knownCC','no-cache may not have a value','C56: CC_SHOULD_NOT_HAVE_VALUE'),
 M('M78','Fields/Caching.lean','W.when (info.isSome && names.count d > 1)','W.when (names.count d > 1)','cache_control.checkDirective','unknown directives too','C56: CC_DUP for known directives'),
 M('M79','Fields/Caching.lean','str "pre-check", str "post-check"])]','str "pre-check"])]','conflictingCC','post-check forgotten','C56: conflicts'),
 M('M80','Utils.lean','W.when (dhas d kNorm) (add.add .PARAM_REPEATS','W.when (dhas d key) (add.add .PARAM_REPEATS','parseParam','repeats compared case-sensitively','C50: PARAM_REPEATS'),
 M('M81','Utils.lean','else if enc ≠ str "utf-8" then do','else if enc ≠ str "utf8" then do','parseParam','the wrong name of the charset','C50: PARAM_STAR_CHARSET'),
 M('M82','Utils.lean','if names.contains star && (!allowWildcard || (typeName == star && subtypeName != star)) then','if names.contains star && !allowWildcard then','checkMediaType','*/html allowed','C51/C82: */subtype is no media range'),
 M('M83','Utils.lean','def restrictedNameMaxLen : Nat := 127','def restrictedNameMaxLen : Nat := 128','restrictedNameMaxLen','boundary','C51: MEDIA_TYPE_LONG_NAME over 127'),
 M('M84','Utils.lean','(if y > 68 then y + 1900 else y + 2000)','(if y > 50 then y + 1900 else y + 2000)','parseHttpDate','pivot of two-digit years','C52'),
 M('M85','Utils.lean','W.when (matchFull rfc9110.obs_date v) (add.add .DATE_OBSOLETE [] cat)','pure ()','parseHttpDate','obsolete dates not reported','C52: DATE_OBSOLETE'),
 M('M86','Fields/Negotiation.lean','W.when (x > y) (add.add .RANGE_INVALID_range)','W.when (x ≥ y) (add.add .RANGE_INVALID_range)','range.parseSpec','one-octet ranges reported','C63: RANGE_INVALID'),
 M('M87','Fields/Negotiation.lean','W.when (last ≥ l) (add.add .RANGE_INVALID_content_range)','W.when (last > l) (add.add .RANGE_INVALID_content_range)','content_range.parse','boundary of the length','C63'),
 M('M88','Fields/Negotiation.lean','!(c.msg.statusCode == some 206 || c.msg.statusCode == some 416)','!(c.msg.statusCode == some 206)','content_range.checkStatus','416 forgotten','C63: CONTENT_RANGE_MEANINGLESS'),
 M('M89','Fields/Cors.lean','m.method == some (str "OPTIONS") && dhas m.headers.parsed (str "origin") &&','m.method == some (str "OPTIONS") &&','isPreflight','a preflight needs no Origin','C44'),
 M('M90','Fields/Cors.lean','else if acao = os then a.add .CORS_ORIGIN_MATCH','else if acao ≠ os then a.add .CORS_ORIGIN_MATCH','checkAllowOrigin','match and mismatch swapped','C45'),
 M('M91','Fields/Cors.lean','[str "access-control-allow-headers", str "access-control-allow-methods", str "access-control-max-age"]','[str "access-control-allow-headers", str "access-control-allow-methods"]','preflightOnly','max-age forgotten','C44: CORS_PREFLIGHT_ONLY'),
 M('M92','Fields/Security.lean','if dhas d n then csp.directives d (dups ++ [n]) xs','if dhas d n then csp.directives (dset d n (.str v)) (dups ++ [n]) xs','csp.directives','the last directive of a name wins','C77: the first one is in force'),
 M('M93','Fields/Security.lean','let n := lower n\n      if dhas','if dhas','csp.directives','directive names case-sensitive','C77'),
 M('M94','Fields/Security.lean','match valid.getLast? with','match valid.head? with','referrer_policy.evaluate','the first policy in effect','C74: the last known policy is in effect'),
 M('M95','Fields/Security.lean','(str "credentialless", .COEP_CREDENTIALLESS)','(str "credentialless", .COEP_REQUIRE_CORP)','coepTable','wrong verdict','C75'),
 M('M96','Fields/Security.lean','valid := (items.map Val.asStr).filter fun v => csdKnown.contains v && !unq.contains v','valid := (items.map Val.asStr).filter fun v => csdKnown.contains v','clear_site_data.evaluate','unquoted types listed as cleared','C76'),
 M('M97','Fields/Misc.lean','filter fun e => lower e != str "100-continue"','filter fun e => e != str "100-continue"','expect.evaluate','case-sensitive','C78: Expect'),
 M('M98','Fields/Misc.lean','def maxServerLength : Nat := 64','def maxServerLength : Nat := 63','maxServerLength','boundary','C78: Server'),
 M('M99','Fields/Misc.lean','[201, 300, 301, 302, 303, 305, 307, 308]','[201, 300, 301, 302, 303, 305, 307]','locationStatus','308 forgotten','C79: LOCATION_UNDEFINED'),
 M('M100','Fields/Negotiation.lean','fun x => !([str "chunked", str "identity"].contains x))','fun x => !([str "chunked"].contains x))','transfer_encoding.evaluate','identity reported as unwanted','C80'),
 M('M101','Fields/Negotiation.lean','pure (unwanted.filter fun x => !(tes.any (Val.pyEq (.str x))))','pure unwanted','transfer_encoding.evaluate','TE ignored','C80: what the client asked for'),
 M('M102','Fields/Negotiation.lean','W.when (filename.contains 37) (add.add .DISPOSITION_FILENAME_PERCENT)','W.when (filename.contains 47) (add.add .DISPOSITION_FILENAME_PERCENT)','content_disposition.parse','slash for percent','C81'),
 M('M103','Fields/Common.lean','if s.length > 5 then none','if s.length > 4 then none','qValue','weights with three decimals refused',"C82: a weight of RFC 9110's form isn't reported"),
 M('M104','Fields/Common.lean','if 0 ≤ q ∧ q ≤ 1 then some q else none','if 0 ≤ q ∧ q < 1 then some q else none','qValue','q=1 refused','C82'),
 M('M105','Fields/Negotiation.lean','(some .ACCEPT_POST_BAD_SYNTAX) (some FieldId.accept_post_.info.reference)\n    (allowWildcard := true)','(some .ACCEPT_POST_BAD_SYNTAX) (some FieldId.accept_post_.info.reference)\n    (allowWildcard := false)','accept_post.parse','wildcards refused','C83: Accept-Post takes media ranges'),
 M('M106','Utils.lean','.ncls [(34,34), (44,44)]','.ncls [(44,44)]','listItemRE','commas in quoted strings split elements','C19: quoted strings are kept whole'),
 M('M107','Cli.lean','(contentLength.any (· > 0))','(contentLength.any (· ≥ 0))','Cli.inputStart','a zero Content-Length allows a body','C72'),
 M('M108','Cli.lean','let isFinal := !startsWith (str "1") status','let isFinal := true','Cli.inputStart','1xx are final','C72'),
 M('M109','Cli.lean','inputBody env (if allowsBody then chunks else []) m','inputBody env chunks.tail m','lintText','the first chunk is lost','C73: the CLI prints what the library finds'),
 M('M110','Fields/Reporting.lean','return !s.isEmpty && !([str "https", str "wss"].contains s)','return !([str "https", str "wss"].contains s)','insecureScheme','a URL with no scheme is insecure','C92/C93: only a URL with another scheme is insecure'),
 M('M111','Fields/Reporting.lean','      if 0 ≤ q ∧ q ≤ 1 then return true','      if 0 ≤ q ∧ q < 1 then return true','nel.fraction','fraction 1.0 refused','C97: a fraction is between 0.0 and 1.0'),
 M('M112','Fields/Reporting.lean','let b ← nel.member add policy (str "max_age") true Val.isInt','let b ← nel.member add policy (str "max_age") false Val.isInt','nel.policy','max_age not required','C97: NEL_MISSING_KEY'),
 M('M113','Fields/Reporting.lean','return a && b && d && e && f','return a && b && d && e','nel.policy','the last check does not count','C103: only policies without fault are configured'),
 M('M114','Fields/Reporting.lean','          if !known.any (Val.pyEq rt) then do','          if !valid.any (Val.pyEq rt) then do','nel.postCheck','an endpoint with an insecure URL counts as undefined','C103: NEL_REPORT_TO_MISSING exactly for undefined endpoints'),
 M('M115','Fields/Reporting.lean','| some v => W.when (!v.isInt) (add.add .REPORT_TO_BAD_TYPE\n          [(str "key", .str (str "max_age"))','| some v => W.when (!v.isStr) (add.add .REPORT_TO_BAD_TYPE\n          [(str "key", .str (str "max_age"))','report_to.evaluate','max_age must be a string','C98: REPORT_TO_BAD_TYPE'),
 M('M116','Fields/Security.lean','let wild : List (NoteId × Dict Val) :=\n    if sensitiveFeatures.any (fun f => Val.pyEq feature (.str f)) && v == .token (str "*") then','let wild : List (NoteId × Dict Val) :=\n    if v == .token (str "*") then','permissions_policy.feature','every wildcard reported','C96: only for sensitive features'),
 M('M117','Fields/Security.lean','if [str "self", str "src"].contains t then return []','if [str "self"].contains t then return []','permissions_policy.item','the token src forgotten','C96: PERMISSIONS_POLICY_UNKNOWN_TOKEN'),
 M('M118','Fields/Security.lean','W.when (pr.scheme != pu.scheme || pr.netloc != pu.netloc)','W.when (pr.scheme != pu.scheme && pr.netloc != pu.netloc)','referer.evaluate','and for or','C94: another origin'),
 M('M119','Fields/Security.lean','if !rt.truthy then pure ()\n    else do\n      let names ← W.lift (endpointNames c)\n      W.when (!names.any (Val.pyEq rt))','if !rt.truthy then pure ()\n    else do\n      let names ← W.lift (endpointNames c)\n      W.when (names.any (Val.pyEq rt))','tokenPolicyPostCheck','negated','C100: report-to naming an undefined endpoint'),
 M('M120','Fields/Security.lean','n == str "report-to" && !names.any','n == str "report-uri" && !names.any','csp.missingEndpoints','the wrong directive','C104'),
 M('M121','Fields/Security.lean','    if n.cls = .CONTENT_SECURITY_POLICY then some (n.addChild kid.1 kid.2 :: ns)\n    else (addToFirstCsp kid ns).map (n :: ·)','    match addToFirstCsp kid ns with\n    | some l => some (n :: l)\n    | none => if n.cls = .CONTENT_SECURITY_POLICY then some (n.addChild kid.1 kid.2 :: ns) else none','addToFirstCsp','the last policy instead of the first','C104: the sub-notes are on the first policy'),
 M('M122','Fields/Negotiation.lean','W.when (startsWith (str "http:") (lower u)) (add.add .ACCEPT_CH_IN_PLAIN_HTTP)','W.when (startsWith (str "http:") u) (add.add .ACCEPT_CH_IN_PLAIN_HTTP)','accept_ch.postCheck','scheme compared case-sensitively','C101: http: in any case'),
 M('M123','Fields/Negotiation.lean','W.when (!ok) (add.add .AVAILABLE_DICTIONARY_MISSING_AE)','W.when (!ok && !items.isEmpty) (add.add .AVAILABLE_DICTIONARY_MISSING_AE)','available_dictionary.postCheck','not reported without Accept-Encoding','C102'),
 M('M124','Fields/Negotiation.lean','    if items.any (fun e => Val.pyEq e (.str (str "dcb")) || Val.pyEq e (.str (str "dcz"))) && storable c then do','    if items.any (fun e => Val.pyEq e (.str (str "dcb"))) && storable c then do','content_encoding.postCheck','dcz forgotten','C102'),
 M('M125','Fields/Caching.lean','W.when (v != .bool true) (bad (str "no value"))','W.when (v == .bool true) (bad (str "no value"))','cdn_cache_control.member','negated','C88: CDN-Cache-Control directives without value'),
 M('M126','Fields/Caching.lean','if ageValue > 5 ∧ 5 > ageValue - skew then','if ageValue > 5 ∧ 5 ≥ ageValue - skew then','date.evaluate','boundary of the skew','C91: AGE_PENALTY'),
 M('M127','Fields/Caching.lean','else if skew > 5 ∨ skew < -5 then','else if skew > 5 then','date.evaluate','clocks that are behind are not reported','C91: DATE_INCORRECT'),
 M('M128','Fields/Caching.lean','if (lm : Rat) > s then add.add .LM_FUTURE','if (lm : Rat) ≥ s then add.add .LM_FUTURE','last_modified.evaluate','boundary','C91: LM_FUTURE'),
 M('M129','Fields/Caching.lean','decide ((s : Rat) < t)) (add.add .SUNSET_PAST)','decide ((s : Rat) > t)) (add.add .SUNSET_PAST)','sunset.evaluate','reversed','C90: SUNSET_PAST'),
 M('M130','Fields/Caching.lean','if (d : Rat) > t then add.add .DEPRECATION_FUTURE','if (d : Rat) < t then add.add .DEPRECATION_FUTURE','deprecation.evaluate','reversed','C90'),
 M('M131','Fields/Caching.lean','  W.when (!l.isEmpty) (add.add note [(str "status", .str (join (str "\\n\\n") l))])','  W.when (l.length > 1) (add.add note [(str "status", .str (join (str "\\n\\n") l))])','statusList','one entry is not described','C95: CACHE_STATUS'),
 M('M132','Fields/Caching.lean','{ name := str "ttl", type := .int,','{ name := str "ttl", type := .str,','cache_status.known','wrong type of ttl','C95: CACHE_STATUS_BAD_PARAM_VAL'),
 M('M133','Fields/Misc.lean','| none | some .none => add.add .SERVER_TIMING_MISSING_DUR','| none => add.add .SERVER_TIMING_MISSING_DUR','server_timing.evaluate','dur without value is not missing','C84-C87: Server-Timing'),
 M('M134','Fields/Misc.lean','def linkHints : List Str := [str "preload", str "preconnect", str "dns-prefetch"]','def linkHints : List Str := [str "preload", str "preconnect", str "prefetch"]','linkHints','prefetch instead of dns-prefetch','C92/C93: resource hints of Link'),
 M('M135','Fields/Misc.lean','def badHintScheme (s : Str) : Bool := !s.isEmpty && s != str "http" && s != str "https"','def badHintScheme (s : Str) : Bool := !s.isEmpty && s != str "https"','badHintScheme','http refused','LINK_BAD_HINT_TARGET'),
 M('M136','Fields/Misc.lean','W.when (xs.any (Val.pyEq (.str (str "clear"))) && xs.length > 1)','W.when (xs.any (Val.pyEq (.str (str "clear"))) && xs.length > 2)','alt_svc.evaluate','boundary','ALTSVC_CLEAR_LIST: clear with any other value'),
 M('M137','Cache.lean','else if i.has (str "proxy-revalidate") || i.has (str "s-maxage") then\n    if l.shared - age > 0','else if i.has (str "proxy-revalidate") then\n    if l.shared - age > 0','checkStale','s-maxage forgotten','C105: s-maxage forbids serving stale'),
 M('M138','Cache.lean','(str "freshness_left", relAbs left)','(str "freshness_left", relAbs sleft)','explicitNotes','shared instead of private (the two are equal there)','(equivalent: only used when the lifetimes are equal)'),
 M('M139','Cache.lean','(str "share_left", relAbs sleft)','(str "share_left", relAbs left)','explicitNotes','private time left reported as shared','C105: the values in the notes'),
 M('M140','Cache.lean','W.when (i.has (str "public") && (l.explicit || i.heuristic))','W.when (i.has (str "public") && l.explicit)','freshnessNotes','heuristic statuses forgotten','C105: STORE_PUBLIC_UNNECESSARY'),
 M('M141','Cache.lean','if i.lm = .none ∧ i.etag = .none then i.note fcc .FRESHNESS_NO_CACHE_NO_VALIDATOR','if i.lm = .none then i.note fcc .FRESHNESS_NO_CACHE_NO_VALIDATOR','freshnessNotes','ETag forgotten','C105: no-cache without validator'),
 M('M142','Fields/Misc.lean','def tcn.parse (add : AddNote) (wireName v : Str) : W Val := do\n  add.add .UNNECESSARY_HEADER [(str "header_name", .str wireName)]','def tcn.parse (add : AddNote) (_wireName v : Str) : W Val := do\n  W.when v.isEmpty (add.add .UNNECESSARY_HEADER [(str "header_name", .str _wireName)])','tcn.parse','only empty values reported','C107'),
 M('M143','FieldTable.lean','str "x-runtime", str "x-rack-cache"','str "x-rack-cache"','unnecessaryNames','X-Runtime forgotten','C107'),
 M('M144','Note.lean','    return removeC 96 s','    return s','RenderEnv.coerce','backticks are not removed from values','C114/C04: a value shown in a code span cannot close it'),
 M('M145','Note.lean','.md (join [10] ((items.map (removeC 96)).map fun i => str "- " ++ markup ++ i ++ markup))','.md (join [10] (items.map fun i => str "- " ++ markup ++ i ++ markup))','markdownList','backticks are not removed from the items of a list','C114: list items cannot close their code span'),
 M('M146','Fields/Security.lean','.md (join [10] (items.map fun i => str "* `" ++ removeC 96 i ++ str "`"))','.md (join [10] (items.map fun i => str "* " ++ removeC 96 i))','csp.makeList','directives are not put into code','C114'),
 M('M147','Fields/Cookies.lean','.md (join (str ", ") (hardened.map fun n => [96] ++ removeC 96 n ++ [96]))','.str (join (str ", ") (hardened.map fun n => [96] ++ removeC 96 n ++ [96]))','set_cookie.evaluate','the list of cookies is not marked MarkdownSafe, so that its backticks are removed','C114: cookie names are shown in code'),
 M('M148','NoteTable.lean','The `%(field_name)s` field only has meaning in requests.','The %(field_name)s field only has meaning in requests.','NoteId.text','REQUEST_HDR_IN_RESPONSE shows the name outside code','C114'),
 M('M149','Section.lean','[(str "field_name", .str h.canonicalName), (str "field_type", fieldType trailer)]','[(str "field_name", .str h.wireName), (str "field_type", fieldType trailer)]','Msg.fieldAdder','notes name the field as spelt','C111: notes name their field in the form its class gives'),
 M('M150','Section.lean','.str (if trailer then str "trailer" else str "header")','.str (if trailer then str "header" else str "trailer")','fieldType','swapped','C111: whether it is a header or a trailer'),
 M('M151','Section.lean','          (add.add .BAD_SYNTAX [(str "ref_uri", .str h.reference)] (some h.category))','          (add.add .BAD_SYNTAX [(str "ref_uri", .str h.reference)])','Handler.elementSyntax','the category is dropped','C111: list syntax in the category of the field'),
 M('M152','Section.lean','(str "field_size", .str (fNum fieldSize))','(str "field_size", .str (fNum value.length))','processLine','the size reported leaves the name out','C112: FIELD_TOO_LARGE says the size'),
 M('M153','Section.lean','(str "section_size", .str (fNum size))','(str "section_size", .str (fNum maxTotalSize))','sectionSizeNotes','the limit is reported instead of the size','C112: FIELD_SECTION_TOO_LARGE'),
 M('M154','Section.lean','def contextChars : Nat := 35','def contextChars : Nat := 30','contextChars','shorter excerpt','C112: an excerpt of up to 35 characters'),
 M('M155','Section.lean','dec (i + 1) ++ str ":" ++','dec i ++ str ":" ++','syntaxProblem','position counted from zero','C21/C112: the position of the character'),
 M('M156','Section.lean','[(str "key", .str p.1), (str "context", .str p.2)]','[(str "key", .str p.2), (str "context", .str p.1)]','dupKeyNotes','swapped','C112: DUPLICATE_KEY'),
 M('M157','Message.lean','[add.mk1 .URI_TOO_LONG [(str "uri_len", .str (fNum uri.length))]]','[add.mk1 .URI_TOO_LONG [(str "uri_len", .str (fNum maxUriChars))]]','Msg.setUri','the limit is reported','C113: URI_TOO_LONG says the length'),
 M('M158','Message.lean','[(str "content_length", .str (fNum m.contentLength))]]','[(str "content_length", .str (fNum m.decoded.length))]]','lengthNotes','the decoded length is reported','C113: CL_INCORRECT says how many octets arrived'),
 M('M159','Content.lean','[(str "declared_type", declared), (str "sniffed_type", .str sniffed)]','[(str "declared_type", .str sniffed), (str "sniffed_type", declared)]','sniff','swapped','C113: CONTENT_TYPE_MISMATCH'),
 M('M160','Utf8.lean','!(a == 237 && b ≥ 160)','!(a == 237 && b > 160)','second','U+D800 accepted','C108: surrogates are ill-formed'),
 M('M161','Utf8.lean','        | c :: _ => if isCont c then 3 else 2','        | c :: _ => if isCont c then 3 else 1','badLength','a truncated sequence of two bytes is replaced twice','C109: one U+FFFD per ill-formed sequence'),
 M('M162','Utf8.lean','def displayLength : Nat := 40','def displayLength : Nat := 80','displayLength','longer','C108: at most forty characters'),
 M('M163','Utf8.lean','if printable c then [c] else escapeBytes ((utf8Enc c).getD [])','if printable c then [c] else escapeBytes [c]','displayBytes','the code point instead of its encoding','C108: hexadecimal digits of the encoding'),
 M('M164','Env.lean','let path ← urlquote (pcharSafe ++ str "/") u.path','let path ← urlquote (pcharSafe ++ str "/?") u.path','Env.iriToUri','? left alone in paths','C109: exactly the characters a URI does not allow there'),
 M('M165','Env.lean','| some (host, port) => (env.idna host).map (· ++ [58] ++ port)','| some (host, _) => env.idna host','Env.iriAuthority','the port is lost','C109'),
 M('M166','Fields/Caching.lean','[(str "directive", .str d), (str "other_message", .str (str "response"))]','[(str "directive", .str d), (str "other_message", .str (str "request"))]','cache_control.checkDirective','the wrong kind of message is named','C56: what CC_WRONG_MESSAGE says'),
 M('M167','Fields/Caching.lean','(str "vary_count", .str (fNum u.length))','(str "vary_count", .str (fNum names.length))','vary.evaluate','repeated names are counted in the text','C57: what VARY_COMPLEX says'),
 M('M168','Fields/Caching.lean','[(str "directive_lower", .str lname), (str "directive", .str name)]','[(str "directive_lower", .str name), (str "directive", .str lname)]','cache_control.parse','swapped','C56: what CC_MISCAP says'),
 M('M169','Fields/Cookies.lean','(str "set_cookie_value_length", .str (commaNum value.length ++ str " bytes"))','(str "set_cookie_value_length", .str (commaNum unparsed.length ++ str " bytes"))','set_cookie.parse','length of the attributes reported','C60: SET_COOKIE_VALUE_TOO_LARGE'),
 M('M170','Fields/Cookies.lean','add.add .SET_COOKIE_UNKNOWN_ATTRIBUTE (cn ++ [(str "attribute", .str name)])','add.add .SET_COOKIE_UNKNOWN_ATTRIBUTE (cn ++ [(str "attribute", .str value)])','processCookieAttribute','the value is named instead of the attribute','C60: SET_COOKIE_UNKNOWN_ATTRIBUTE'),
 M('M171','Fields/Negotiation.lean','(add.add .ENCODING_UNWANTED [(str "coding", .str v)])','(add.add .ENCODING_UNWANTED [(str "coding", .str (lower v))])','content_encoding.parse','the coding is named in lower case','what ENCODING_UNWANTED says'),
 M('M172','Fields/Negotiation.lean','    add.add .CONTENT_LANGUAGE_DUP [(str "lang", .str l)]','    add.add .CONTENT_LANGUAGE_DUP [(str "lang", .str (lower l))]','content_language.evaluate','named in lower case','what CONTENT_LANGUAGE_DUP says'),
 M('M173','Fields/Negotiation.lean','add.add .RANGE_INVALID_INTEGER [(str "value", .str a)]','add.add .RANGE_INVALID_INTEGER [(str "value", .str b)]','content_range.span','the wrong end is named','C63: RANGE_INVALID_INTEGER'),
 M('M174','Fields/Caching.lean','[(str "pre_check", .int pre), (str "post_check", .int post)]','[(str "pre_check", .int post), (str "post_check", .int pre)]','cache_control.prePost','swapped','C56: CHECK_POST_PRE'),
 M('M175','Fields/Caching.lean','| 87 :: 47 :: r => pure (.tuple [.bool true, .str (unquoteString r)])','| 87 :: 47 :: r => pure (.tuple [.bool false, .str (unquoteString r)])','etag.parse','weak tags recorded as strong','C118: ETag'),
 M('M176','Fields/Misc.lean','let lv := trimEnds (strip lv)','let lv := strip lv','link.parse','the angle brackets stay','C119: Link'),
 M('M177','Fields/Negotiation.lean','| some q => return acceptValue m (derase d (str "q")) (some q)','| some q => return acceptValue m d (some q)','accept.parse','q stays among the parameters','C119: Accept'),
 M('M178','Fields/Misc.lean','| some (a, b) => .tuple [.str (lower a), .str (unquoteString b)]','| some (a, b) => .tuple [.str a, .str (unquoteString b)]','keep_alive.parse','names keep their case','C118: Keep-Alive'),
 M('M179','Fields/Misc.lean','if v = str "clear" then return .str v','if v.isEmpty then return .str v','alt_svc.parse','clear is refused','C118: Alt-Svc'),
 M('M180','Fields/Misc.lean','def tcn.parse (add : AddNote) (wireName v : Str) : W Val := do\n  add.add .UNNECESSARY_HEADER [(str "header_name", .str wireName)]','def tcn.parse (add : AddNote) (wireName v : Str) : W Val := do\n  add.add .UNNECESSARY_HEADER [(str "header_name", .str (lower wireName))]','tcn.parse','the name in lower case','C107: the name as first spelt'),
 M('M181','Note.lean','if us / 86400000000 < -999999999 ∨ us / 86400000000 > 999999999 then .error .overflowError else .ok us','.ok us','timedeltaOf','no limit','C06/C117: what cannot be shown'),
 M('M182','Utils.lean','W.when (dhas d kNorm) (add.add .PARAM_REPEATS [(str "param", .str kNorm)])','W.when (dhas d kNorm) (add.add .PARAM_REPEATS [(str "param", .str key)])','parseParam','the name as spelt','C115: what PARAM_REPEATS says'),
 M('M183','Utils.lean','else if enc ≠ str "utf-8" then do','else if enc ≠ str "utf-8" ∧ enc ≠ str "utf8" then do','parseParam','utf8 accepted','C115: PARAM_STAR_CHARSET'),
 M('M184','Utils.lean','else return dset d kNorm (.str (env.urlunquote escV))','else return dset d base (.str (env.urlunquote escV))','parseParam','the extended value is recorded under the plain name','C116/C119: parameters by name'),
 M('M185','Fields/Negotiation.lean','    (allowWildcard := true) (nostar := .names [str "q"])\n  match dget d (str "q") with','    (allowWildcard := false) (nostar := .names [str "q"])\n  match dget d (str "q") with','accept.parse','wildcards refused','C82: ACCEPT_BAD_SYNTAX'),
 M('M186','Encoding.lean','else (inflateTail env (history ++ [tail]) (count + out.length) tail\').cons out','else (inflateTail env (history ++ [tail]) (count + out.length) []).cons out','inflateTail','the tail is read only once','C120: decoding does not depend on the chunks'),
 M('M187','Encoding.lean','| .incomplete => { dec := { d with headerBuf := buf } }','| .incomplete => { dec := { d with headerBuf := chunk } }','Decoder.gzipStep','the header buffer is overwritten','C28/C120'),
 M('M188','Message.lean','let m := { m with contentLength := m.contentLength + chunk.length }','let m := { m with contentLength := m.contentLength + (if chunk.isEmpty then 1 else chunk.length) }','Msg.feedContent','empty chunks are counted','C24/C120'),
 M('M189','Threads.lean','({ t with ctl := .present l m u }, (l, c) :: tab)','({ t with ctl := .present l m u }, (m, c) :: tab)','Threads.step','the catalogue is stored under the message','C121: the shared table'),
 M('M190','Threads.lean','md := some (L.reset m) }, tab)','md := some m }, tab)','Threads.step','the converter is not reset','C121: as if alone'),
 M('M191','Threads.lean','| .restore l :: k => ({ t with ctl := .throw e, stack := k, locale := l }, tab)','| .restore _ :: k => ({ t with ctl := .throw e, stack := k }, tab)','Threads.step','the locale is not restored when something raises (no finally)','C121: the locale is what it was'),
 M('M192','Threads.lean','| .ok c => ({ t with ctl := .loaded l m c u }, tab)','| .ok _ => ({ t with ctl := .present l m u }, tab)','Threads.step','loaded but not stored','C121: no KeyError'),
 M('M193','Threads.lean','    | none => ({ t with ctl := .missing l m u }, tab)','    | none => ({ t with ctl := .looked l m u }, tab)','Threads.step','a thread waits for another to load the catalogue','C121: no thread waits'),
 M('M194','Status.lean','  | some r => W.when (req r (str "upgrade")).isEmpty (note c (str "status") .UPGRADE_NOT_REQUESTED)','  | some r => W.when ((req r (str "upgrade")).isEmpty && r.complete) (note c (str "status") .UPGRADE_NOT_REQUESTED)','Status.s101','only reported for complete requests','C122: the order of the calls'),
 M('M195','Status.lean','  | some r => W.when (req r (str "range")).isEmpty (note c [] .PARTIAL_NOT_REQUESTED)','  | some r => W.when ((req r (str "range")).isEmpty && r.notes.isEmpty) (note c [] .PARTIAL_NOT_REQUESTED)','Status.s206','depends on the notes on the request','C122: the order of the calls'),
 M('M196','Message.lean','W.when (!dhas m.headers.parsed (str "user-agent")) (','W.when (!dhas m.headers.parsed (str "user-agent") && m.notes.isEmpty) (','requestPostChecks','only when there is no other note','C122: the request does not depend on its response'),
 M('M197','Syntax.lean','(RE.rep 0 (some 3) false (cls [(48,48)]))','(RE.rep 0 (some 4) false (cls [(48,48)]))','rfc9110.qvalue','1.0000 is a qvalue','C123: weights'),
 M('M198','Syntax.lean','(alts [(ch 33), (cls [(35,126)]), rfc9110.obs_text])','(alts [(ch 33), (cls [(35,127)]), rfc9110.obs_text])','rfc9110.etagc','DEL in entity tags','C123: entity tags'),
 M('M199','Syntax.lean','(lit (str "Oct")), (lit (str "Nov"))','(lit (str "Nov"))','rfc9110.month','no October','C123: dates'),
 M('M200','Syntax.lean','(seqs [(ch 50), (cls [(48,52)]), rfc5234.DIGIT])','(seqs [(ch 50), (cls [(48,53)]), rfc5234.DIGIT])','rfc3986.dec_octet','259 is an octet','C123: hosts'),
 M('M201','FieldTable.lean','syn := some rfc9110.media_range','syn := some rfc9110.media_type','accept_post syntax','Accept-Post takes media types only','C123: Accept-Post'),
 M('M202','Syntax.lean','def credentials : RE := (seqs [rfc9110.token, (opt (seqs [(plus rfc5234.SP),','def credentials : RE := (seqs [rfc9110.token, (opt (seqs [rfc5234.SP,','rfc9110.credentials','one space only','C123: credentials'),
 M('M203','Syntax.lean','def query : RE := (star (alts [rfc3986.pchar, (ch 47), (ch 63)]))','def query : RE := (star (alts [rfc3986.pchar, (ch 47), (ch 63), (ch 32)]))','rfc3986.query','a space in a query','C124: nothing that is not a URI passes'),
 M('M204','Syntax.lean','def IPvFuture : RE := (seqs [(ch 118),','def IPvFuture : RE := (seqs [(ch 86),','rfc3986.IPvFuture','a large V','C124: the target'),
 M('M205','Message.lean','rfc3986.URI.spaced false','rfc3986.URI.spaced true','Msg.setUri','letter case is ignored','C124: the target'),
 M('M206','Message.lean','rfc3986.URI.spaced false','rfc3986.URI_reference.spaced false','Msg.setUri','relative references pass','C124: the target'),
M('M207','Fields/Caching.lean','W.when (t != 0 && s != 0 && decide ((s : Rat) < t)) (add.add .SUNSET_PAST)','W.when (t != 0 && s != 0 && decide ((s : Rat) < t) && !dhas c.msg.headers.parsed (str "date")) (add.add .SUNSET_PAST)','sunset.evaluate','only reported when there is no Date','C125: fields judged alone'),
 M('M208','Fields/Misc.lean','W.when (c.msg.version == str "1.0") (add.add .EXPECT_HTTP_1_0)','W.when (c.msg.version == str "1.0" && c.msg.notes.isEmpty) (add.add .EXPECT_HTTP_1_0)','expect.evaluate','only reported when nothing else was','C125: fields judged alone'),
 M('M209','Section.lean','let ns := (if more.isEmpty then [] else [add.mk1 .SINGLE_HEADER_REPEAT]) ++','let ns := (if more.isEmpty || c.msg.headers.handlers.length = 1 then [] else [add.mk1 .SINGLE_HEADER_REPEAT]) ++','Handler.finishSingleton','not reported when the field is the only one','C125: fields judged alone'),
 M('M210','Fields/Caching.lean','  match dget c.msg.headers.parsed (str "date") with','  match dget c.msg.headers.parsed (str "expires") with','servDate','Expires is looked at instead of Date','C125, C91: Last-Modified is judged by Date'),
 M('M211','Section.lean','let big := if fieldSize > maxFieldSize then','let big := if (m.section trailer).size > maxFieldSize then','processLine','the size of the section so far is compared','C126: lines are judged with the lines of their field only'),
 M('M212','Section.lean','(if nonAscii value then [(m.adder subject).mk1 .FIELD_VALUE_ENCODING enc] else [])','(if nonAscii value && m.notes.isEmpty then [(m.adder subject).mk1 .FIELD_VALUE_ENCODING enc] else [])','processLine','reported once only','C126: lines are judged with the lines of their field only'),
 M('M213','Section.lean','| .broken => ({ h with raw := h.raw ++ [(value, offset)] }, pure ())','| .broken => ({ h with raw := h.raw ++ [(value, offset + 1)] }, pure ())','Handler.handleInput','the number of the next line is kept','C126: notes on cookies are about the corresponding line'),
 M('M214','Section.lean','    handlers := dset sec.handlers (lower strName) h }\n  let m := (m','    handlers := dset (sec.handlers.take 20) (lower strName) h }\n  let m := (m','processLine','only twenty fields are kept','C125, C127: fields are judged alone; the order of fields'),
 M('M215','Section.lean','    finishHandlers env related trailer ((m.section trailer).handlers.map (·.1)) m','    finishHandlers env related trailer (((m.section trailer).handlers.map (·.1)).drop ((m.section trailer).handlers.length - 50)) m','processSection','only the last fifty fields are finished','C127: the order of fields'),
M('M216','Message.lean','Run.andThen (postCheckHandlers env related false (m.headers.handlers.map (·.2)) m) fun','Run.andThen (postCheckHandlers env related false ((m.headers.handlers.map (·.2)).drop 1) m) fun','Msg.finishContent','the first field is not checked at the end','C128: the order of fields, C112'),
 M('M217','Status.lean','def has (c : Ctx) (name : Str) : Bool := dhas c.msg.headers.parsed name','def has (c : Ctx) (name : Str) : Bool := dhas (c.msg.headers.parsed.take 30) name','Status.has','only thirty fields are looked at','C128: the order of fields'),
 M('M218','Message.lean','    match dget m.headers.parsed (str "content-length") with\n    | none => []','    match dget (m.headers.parsed.drop 1) (str "content-length") with\n    | none => []','lengthNotes','the first field is not looked at','C128: the order of fields'),
 M('M219','Cache.lean','names := h.names','names := h.names.take 40','cacheInputs','only forty lines are looked at','C128: the order of fields'),
 M('M220','Message.lean','    if h.value = .none then postCheckHandlers env related trailer hs m\n','    if h.value = .none then (m, .ok ())\n','postCheckHandlers','ends at the first field without a value','C128: the order of fields, C112'),
]
