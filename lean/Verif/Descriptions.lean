import Verif.Section

/-!
GENERATED by tools/gen_descriptions.py from the text of /repo/httplint/field/parsers/*.py and field/unnecessary.py:
the `description` of every field class.
-/

set_option maxRecDepth 8000

namespace HL

/-- the class attribute `description`; `[]` for the two classes that make it in their constructor -/
def FieldId.description : FieldId → Str
  /- parsers/accept.py -/
  | .accept_ => str "The `Accept` header field can be used by user agents to specify response media types that are\nacceptable in responses."
  /- parsers/accept_ch.py -/
  | .accept_ch_ => str "The `Accept-CH` response header field allows servers to indicate the Client Hints that they are\nwilling to process."
  /- parsers/accept_encoding.py -/
  | .accept_encoding_ => str "The `Accept-Encoding` header field can be used by user agents to indicate what response content-codings are\nacceptable in the response."
  /- parsers/accept_language.py -/
  | .accept_language_ => str "The `Accept-Language` header field can be used by user agents to indicate the set of natural languages that are\npreferred in the response."
  /- parsers/accept_patch.py -/
  | .accept_patch_ => str "The `Accept-Patch` response header advertises which media types are accepted by the server in a\nPATCH request."
  /- parsers/accept_post.py -/
  | .accept_post_ => str "The `Accept-Post` response header advertises which media types are accepted by the server in a\nPOST request."
  /- parsers/accept_query.py -/
  | .accept_query_ => str "The `Accept-Query` response header advertises which media types are accepted by the server in the\ncontent of a QUERY request."
  /- parsers/accept_ranges.py -/
  | .accept_ranges_ => str "The `Accept-Ranges` response header allows the server to indicate that it accepts range requests\nfor a resource."
  /- parsers/access_control.py -/
  | .access_control_ => str "The `Access-Control` header was an experimental header for controlling access to resources. It is\nobsolete and should not be used."
  /- parsers/access_control_allow_credentials.py -/
  | .access_control_allow_credentials_ => str "The `Access-Control-Allow-Credentials` response header tells browsers whether to expose the response\nto frontend code when the request's credentials mode (`Request.credentials`) is\n`include`."
  /- parsers/access_control_allow_headers.py -/
  | .access_control_allow_headers_ => str "The `Access-Control-Allow-Headers` response header is used in response to a CORS preflight\nrequest to indicate which HTTP headers can be used during the actual request."
  /- parsers/access_control_allow_methods.py -/
  | .access_control_allow_methods_ => str "The `Access-Control-Allow-Methods` response header specifies the method or methods allowed when\naccessing the resource in response to a CORS preflight request."
  /- parsers/access_control_allow_origin.py -/
  | .access_control_allow_origin_ => str "The `Access-Control-Allow-Origin` response header indicates whether the response can be shared with\nrequesting code from the given origin."
  /- parsers/access_control_expose_headers.py -/
  | .access_control_expose_headers_ => str "The `Access-Control-Expose-Headers` response header allows a server to indicate which response\nheaders should be made available to scripts running in the browser, in response to a cross-origin\nrequest."
  /- parsers/access_control_max_age.py -/
  | .access_control_max_age_ => str "The `Access-Control-Max-Age` response header indicates how long the results of a CORS preflight\nrequest (as scoped by the `Access-Control-Allow-Methods` and\n`Access-Control-Allow-Headers` request headers) can be cached."
  /- parsers/access_control_request_headers.py -/
  | .access_control_request_headers_ => str "The `Access-Control-Request-Headers` request header is used by browsers when issuing a CORS\npreflight request, to let the server know which HTTP headers the client might send when the actual\nrequest is made."
  /- parsers/access_control_request_method.py -/
  | .access_control_request_method_ => str "The `Access-Control-Request-Method` request header is used by browsers when issuing a CORS\npreflight request, to let the server know which HTTP method will be used when the actual request\nis made."
  /- parsers/age.py -/
  | .age_ => str "The `Age` response header conveys the sender's estimate of the amount of time since the response\n(or its validation) was generated at the origin server."
  /- parsers/allow.py -/
  | .allow_ => str "The `Allow` response header advertises the set of methods that are supported by the resource."
  /- parsers/alt_svc.py -/
  | .alt_svc_ => str "The `Alt-Svc` HTTP header field identifies an alternative service that can be arranged to access the\nresources identifying the origin serving the field."
  /- parsers/authentication_info.py -/
  | .authentication_info_ => str "The `Authentication-Info` header field is used to communicate information after \nthe client's authentication credentials have been accepted."
  /- parsers/authorization.py -/
  | .authorization_ => str "The `Authorization` header field allows a user agent to authenticate itself with an origin server\n-- usually, but not necessarily, after receiving a 401 (Unauthorized) response."
  /- parsers/available_dictionary.py -/
  | .available_dictionary_ => str "The `Available-Dictionary` header field is used by a client to indicate that it has a matching\ndictionary available for use in compressing the response."
  /- parsers/cache_control.py -/
  | .cache_control_ => str "The `Cache-Control` header is used to specify required directives to all caches that\nhandle the response. It can also occur in requests, but caches have the option of\nignoring it there."
  /- parsers/cache_group_invalidation.py -/
  | .cache_group_invalidation_ => str "The `Cache-Group-Invalidation` header field allows a response to invalidate a group of cached\nresponses."
  /- parsers/cache_groups.py -/
  | .cache_groups_ => str "The `Cache-Groups` header field helps caches group responses together for invalidation."
  /- parsers/cache_status.py -/
  | .cache_status_ => str "The `Cache-Status` header field indicates how caches have handled the response, to help with\ndebugging caches."
  /- parsers/cdn_cache_control.py -/
  | .cdn_cache_control_ => str "The `CDN-Cache-Control` header field targets cache directives to Content Delivery Networks."
  /- parsers/clear_site_data.py -/
  | .clear_site_data_ => str "The `Clear-Site-Data` header clears the data associated with the requesting website in the user's\nbrowser. It allows web developers to have more control over the data stored by a client for their\norigin."
  /- parsers/connection.py -/
  | .connection_ => str "The `Connection` header allows senders to specify which headers are hop-by-hop; that is, those that\nare not forwarded by intermediaries.\n\nIt also indicates options that are desired for this particular connection; e.g., `close` means that\nit should not be reused.\n\nConnection is only valid in HTTP/1.x; HTTP/2 and HTTP/3 forbit it."
  /- parsers/connectiox.py -/
  | .connectiox_ => str "The `%(field_name)s` field usually means that a HTTP load balancer, proxy or other intermediary in\nfront of the server has rewritten the `Connection` header, to allow it to insert its own.\n\nUsually, this is done so that clients won't see `Connection: close` so that the connection can be\nreused.\n\nIt takes this form because the most efficient way of assuring that clients don't see the header is\nto rearrange or change individual characters in its name.\n"
  /- parsers/content_base.py -/
  | .content_base_ => str "The `Content-Base` header established the base URI of the message. It has been\ndeprecated, because it was not implemented widely.\n"
  /- parsers/content_disposition.py -/
  | .content_disposition_ => str "The `Content-Disposition` header suggests a name to use when saving the file.\n\nWhen the disposition (the first value) is set to `attachment`, it also prompts browsers to download\nthe file, rather than display it."
  /- parsers/content_encoding.py -/
  | .content_encoding_ => str "The `Content-Encoding` header's value indicates what content codings have\nbeen applied, and thus what decoding mechanisms must be used to obtain the\nmedia-type referenced by the Content-Type header.\n\nContent-Encoding is primarily used to allow a document to be compressed without losing the identity\nof its underlying media type; e.g., `gzip` and `deflate`."
  /- parsers/content_language.py -/
  | .content_language_ => str "The `Content-Language` header describes the natural language(s) of the intended audience for the\nmesssage. Note that this might not convey all of the languages used."
  /- parsers/content_length.py -/
  | .content_length_ => str "The `Content-Length` header indicates the size of the content, in number of bytes. In responses to\nthe HEAD method, it indicates the size of the content that would have been sent had the request\nbeen a GET.\n\nIf Content-Length is incorrect, HTTP/1.1 persistent connections will not work, and caches may not\nstore the response (since they can't be sure if they have the whole response)."
  /- parsers/content_location.py -/
  | .content_location_ => str "The `Content-Location` response header can used to supply an address for the\nrepresentation when it is accessible from a location separate from the request\nURI."
  /- parsers/content_md5.py -/
  | .content_md5_ => str "The `Content-MD5` header is an MD5 digest of the content, and provides an end-to-end message\nintegrity check (MIC).\n\nNote that while a MIC is good for detecting accidental modification of content in transit, it is\nnot proof against malicious attacks."
  /- parsers/content_range.py -/
  | .content_range_ => str "The `Content-Range` response header is sent in a `206` (Partial Content) response to indicate\nwhere in the full response content the partial content is located. It is also used\nin `416` (Requested Range Not Satisfiable) responses."
  /- parsers/content_security_policy.py -/
  | .content_security_policy_ => str "The `Content-Security-Policy` response header allows web site administrators to declare approved\nsources of content that browsers are allowed to load on a page."
  /- parsers/content_security_policy_report_only.py -/
  | .content_security_policy_report_only_ => str "The `Content-Security-Policy-Report-Only` response header allows web site administrators to monitor\nthe effects of a content security policy without enforcing it."
  /- parsers/content_transfer_encoding.py -/
  | .content_transfer_encoding_ => str "The `Content-Transfer-Encoding` isn't part of HTTP, but it is used in MIME protocols in a manner\nanalogous to `Transfer-Encoding`."
  /- parsers/content_type.py -/
  | .content_type_ => str "The `Content-Type` header indicates the media type of the content sent to the recipient or, in the\ncase of responses to the HEAD method, the media type that would have been sent had the request been\na GET."
  /- parsers/cookie.py -/
  | .cookie_ => str "The `Cookie` header field contains stored HTTP cookies previously sent by the server with the\n`Set-Cookie` header."
  /- parsers/cross_origin_embedder_policy.py -/
  | .cross_origin_embedder_policy_ => str "The `Cross-Origin-Embedder-Policy` header field prevents a document from loading any cross-origin\nresources that don't explicitly grant the document permission (using CORP or CORS)."
  /- parsers/cross_origin_embedder_policy_report_only.py -/
  | .cross_origin_embedder_policy_report_only_ => str "The `Cross-Origin-Embedder-Policy-Report-Only` header field allows a document to report on\npotential violations of its Cross-Origin Embedder Policy without enforcing them."
  /- parsers/cross_origin_opener_policy.py -/
  | .cross_origin_opener_policy_ => str "The `Cross-Origin-Opener-Policy` header field allows a document to disown its opener, ensuring that\nit doesn't have a reference to the opener's window object."
  /- parsers/cross_origin_opener_policy_report_only.py -/
  | .cross_origin_opener_policy_report_only_ => str "The `Cross-Origin-Opener-Policy-Report-Only` header field allows a document to report on\npotential violations of its Cross-Origin Opener Policy without enforcing them."
  /- parsers/cross_origin_resource_policy.py -/
  | .cross_origin_resource_policy_ => str "The `Cross-Origin-Resource-Policy` header field allows a resource to indicate whether it can be\nloaded by a cross-origin document."
  /- parsers/cteonnt_length.py -/
  | .cteonnt_length_ => str "The `%(field_name)s` field usually means that a HTTP load balancer, proxy or\nother intermediary in front of the server has rewritten the `Content-Length`\nheader, to allow it to insert its own.\n\nUsually, this is done because an intermediary has dynamically compressed the\nmessage.\n\nIt takes this form because the most efficient way of assuring that clients\ndon't see the header is to rearrange or change individual characters in its\nname. "
  /- parsers/date.py -/
  | .date_ => str "The `Date` header represents the time when the message was generated, regardless of caching that\nhappened since.\n\nIt is used by caches as input to expiration calculations, and to detect clock drift."
  /- parsers/deprecation.py -/
  | .deprecation_ => str "The `Deprecation` header field allows a server to communicate to a client that the resource is or\nwill be deprecated."
  /- parsers/etag.py -/
  | .etag_ => str "The `ETag` header provides an opaque identifier for the representation."
  /- parsers/expect.py -/
  | .expect_ => str "The `Expect` header field in a request indicates behaviors (expectations) that need to be\nfulfilled by the server in order to properly handle the request."
  /- parsers/expires.py -/
  | .expires_ => str "The `Expires` response header gives a time after which the response is considered stale by\ncaches."
  /- parsers/from_field.py -/
  | .from_field_ => str "The `From` header field contains an Internet email address for the human user who controls the\nrequesting user agent."
  /- parsers/host.py -/
  | .host_ => str "The `Host` header field provides the host and port information from the target URI, enabling the\norigin server to distinguish between resources while servicing requests for multiple host names on\na single IP address."
  /- parsers/if_match.py -/
  | .if_match_ => str "The `If-Match` header field makes the request method conditional on the recipient origin server\nhaving a current representation of the target resource."
  /- parsers/if_modified_since.py -/
  | .if_modified_since_ => str "The `If-Modified-Since` header field makes a request method conditional on the\nselected representation's modification date being more recent than the date provided in the\nfield-value."
  /- parsers/if_none_match.py -/
  | .if_none_match_ => str "The `If-None-Match` header field makes the request method conditional on the\nabsence of a matching entity tag, or if the field-value is \"*\", the absence of\nany current representation of the target resource."
  /- parsers/if_range.py -/
  | .if_range_ => str "The `If-Range` header field allows a client to \"short-circuit\" the second request. It means: if\nthe representation is unchanged, send me the part(s) that I am missing; otherwise, send me the\nentire new representation."
  /- parsers/if_unmodified_since.py -/
  | .if_unmodified_since_ => str "The `If-Unmodified-Since` header field makes the request method conditional on the selected\nrepresentation's last modification date being earlier than or equal to the date provided in the\nfield-value."
  /- parsers/keep_alive.py -/
  | .keep_alive_ => str "The `Keep-Alive` header is completely optional; it is defined primarily because the `keep-alive`\nconnection token implies that such a header exists, not because anyone actually uses it.\n\nSome implementations (e.g., [Apache](http://httpd.apache.org/)) do generate a `Keep-Alive` header\nto convey how many requests they're willing to serve on a single connection, what the connection\ntimeout is and other information. However, this isn't usually used by clients.\n\nIt's safe to remove this header if you wish to save a few bytes."
  /- parsers/last_modified.py -/
  | .last_modified_ => str "The `Last-Modified` response header indicates the time that the origin server believes the\nrepresentation was last modified."
  /- parsers/link.py -/
  | .link_ => str "The `Link` header allows links related to the content to be conveyed. A link can be viewed as a\nstatement of the form \"[context IRI] has a [relation type] resource at [target IRI], which has\n[target attributes]."
  /- parsers/location.py -/
  | .location_ => str "The `Location` response header is used in `3xx` responses to redirect the recipient to a different location\nto complete the request.\n\nIn `201` (Created) responses, it identifies a newly created resource."
  /- parsers/max_forwards.py -/
  | .max_forwards_ => str "The `Max-Forwards` header field provides a mechanism to limit\nthe number of times that the request is forwarded by intermediaries."
  /- parsers/mime_version.py -/
  | .mime_version_ => str "HTTP is not a MIME-compliant protocol. However, HTTP/1.1 messages can include a single MIME-Version\nheader to indicate what version of the MIME protocol was used to construct the message. Use\nof the MIME-Version header indicates that the message is in full compliance with the MIME\nprotocol."
  /- parsers/nel.py -/
  | .nel_ => str "The `NEL` header field configures Network Error Logging policies. \nIt allows websites to declare that they want to receive reports about network errors."
  /- parsers/origin.py -/
  | .origin_ => str "The `Origin` header field indicates where a fetch originates from. It is used to prevent Cross-Site\nRequest Forgery (CSRF) and in Cross-Origin Resource Sharing (CORS)."
  /- parsers/p3p.py -/
  | .p3p_ => str "The `P3P` response header allows a server to describe its privacy policy in a\nmachine-readable way. It has been deprecated, because client support was poor.\n"
  /- parsers/permissions_policy.py -/
  | .permissions_policy_ => str "The `Permissions-Policy` response header allows a site to control the use of browser features."
  /- parsers/pragma.py -/
  | .pragma_ => str "The `Pragma` header is used to include implementation-specific directives that might apply to any\nrecipient along the request chain.\n\nThis header is deprecated, in favour of `Cache-Control`."
  /- parsers/proxy_authenticate.py -/
  | .proxy_authenticate_ => str "The `Proxy-Authenticate` response header consists of a challenge that indicates the authentication\nscheme and parameters applicable to the proxy for this request-target."
  /- parsers/proxy_authentication_info.py -/
  | .proxy_authentication_info_ => str "The `Proxy-Authentication-Info` header field is used to communicate information after\nthe client's authentication credentials have been accepted by a proxy."
  /- parsers/proxy_authorization.py -/
  | .proxy_authorization_ => str "The `Proxy-Authorization` header field allows a user agent to authenticate itself with a proxy\n-- usually, but not necessarily, after receiving a 407 (Proxy Authentication Required) response."
  /- parsers/proxy_status.py -/
  | .proxy_status_ => str "The `Proxy-Status` header field indicates how intermediaries have handled the response."
  /- parsers/range.py -/
  | .range_ => str "The `Range` header field on a GET request modifies the method semantics to request only those\nparts of the representation that are specified."
  /- parsers/referer.py -/
  | .referer_ => str "The `Referer` [sic] header field allows the user agent to specify a URI Reference for the\nresource from which the target URI was obtained (i.e., the \"referrer\")."
  /- parsers/referrer_policy.py -/
  | .referrer_policy_ => str "The `Referrer-Policy` response header controls how much referrer information (sent via the `Referer`\nheader) should be included with requests."
  /- parsers/report_to.py -/
  | .report_to_ => str "The `Report-To` header field configured the browser to send reports to specified endpoints.\nIt has been replaced by the Reporting-Endpoints header field."
  /- parsers/reporting_endpoints.py -/
  | .reporting_endpoints_ => str "The `Reporting-Endpoints` header field defines one or more reporting endpoints for the Reporting\nAPI."
  /- parsers/retry_after.py -/
  | .retry_after_ => str "The `Retry-After` response header can be used with a `503` (Service Unavailable) response to\nindicate how long the service is expected to be unavailable to the requesting client.\n\nThe value of this field can be either a date or an integer number of seconds."
  /- parsers/server.py -/
  | .server_ => str "The `Server` response header contains information about the software used by the origin server to\nhandle the request."
  /- parsers/server_timing.py -/
  | .server_timing_ => str "The `Server-Timing` header field communicates one or more metrics and descriptions for the given\nrequest-response cycle. It is used to surface any backend server timing metrics (e.g. database\nread/write, CPU time, file system access, etc.) in the developer tools in the browser or any other\nconsumer of Server-Timing."
  /- parsers/set_cookie.py -/
  | .set_cookie_ => str "The `Set-Cookie` response header sets a stateful \"cookie\" on the client, to be included in future\nrequests to the server."
  /- parsers/set_cookie2.py -/
  | .set_cookie2_ => str "The `Set-Cookie2` header has been deprecated; use `Set-Cookie` instead."
  /- parsers/soapaction.py -/
  | .soapaction_ => str "The `SOAPAction` request header is used by SOAP, which isn't really HTTP. Stop it."
  /- parsers/speculation_rules.py -/
  | .speculation_rules_ => str "The `Speculation-Rules` header field allows the server to provide the client with a list of URLs that\npoint to speculation rules files."
  /- parsers/strict_transport_security.py -/
  | .strict_transport_security_ => str "The `Strict-Transport-Security` response header (often abbreviated as HSTS) lets a web site tell\nbrowsers that it should only be communicated with using HTTPS, instead of using HTTP."
  /- parsers/sunset.py -/
  | .sunset_ => str "The `Sunset` header field indicates that the resource is likely to become unresponsive at the\nspecified timestamp."
  /- parsers/tcn.py -/
  | .tcn_ => str "The `TCN` response header is part of an experimental transparent content negotiation scheme. It\nis not widely supported in clients.\n"
  /- parsers/te.py -/
  | .te_ => str "The `TE` request header indicates what HTTP/1.1 transfer-codings the client is willing to accept in\nthe response. Additionally, if it contains the special value `trailers` it indicates that the sender is willing to accept trailer fields after the content.\n\nThe most common transfer-coding, `chunked`, doesn't need to be listed in `TE`.\n\n`TE` can only be used with the value `trailers` in HTTP/2 and HTTP/3.\n"
  /- parsers/trailer.py -/
  | .trailer_ => str "The `Trailer` header indicates that the given set of headers will be\npresent in the trailer of the message, after the content."
  /- parsers/transfer_encoding.py -/
  | .transfer_encoding_ => str "The `Transfer-Encoding` header indicates what (if any) type of transformation has been applied to\nthe message content.\n\nThis differs from `Content-Encoding` in that transfer codings are a property of the message, not of\nthe representation; i.e., it will be removed by the next \"hop\", whereas content codings are\nend-to-end.\n\nThe most commonly used transfer coding is `chunked`, which allows HTTP/1.1 persistent connections\nto be used without knowing the content's length.\n\nTransfer codings can only be used in HTTP/1; HTTP/2 and HTTP/3 do not support them.\n"
  /- parsers/upgrade.py -/
  | .upgrade_ => str "The `Upgrade` header allows the client to specify what additional communication\nprotocols it supports and would like to use if the server finds it appropriate\nto switch protocols. Servers use it to confirm upgrade to a specific\nprotocol.\n\n`Upgrade` cannot be used in HTTP/2 or HTTP/3.\n"
  /- parsers/use_as_dictionary.py -/
  | .use_as_dictionary_ => str "The `Use-As-Dictionary` header field is used by a server to indicate that the response can be used\nas a compression dictionary for future requests."
  /- parsers/user_agent.py -/
  | .user_agent_ => str "The `User-Agent` header field contains information about the user agent originating the request."
  /- parsers/vary.py -/
  | .vary_ => str "The `Vary` response header indicates the set of request headers that determines whether a cache is\npermitted to use the response to reply to a subsequent request without validation.\n\nIn uncacheable or stale responses, the Vary field value advises the user agent about the criteria\nthat were used to select the representation."
  /- parsers/via.py -/
  | .via_ => str "The `Via` header is added to requests and responses by proxies and other HTTP intermediaries. It\ncan be used to help avoid request loops and identify the protocol capabilities of all senders along\nthe request/response chain."
  /- parsers/warning.py -/
  | .warning_ => str "The `Warning` response header was used to carry additional information about the status or\ntransformation of a message that might not be reflected in it. It has been deprecated."
  /- parsers/www_authenticate.py -/
  | .www_authenticate_ => str "The `WWW-Authenticate` response header consists of at least one challenge that\nindicates the authentication scheme(s) and parameters applicable."
  /- parsers/x_cache.py -/
  | .x_cache_ => str "The `X-Cache` response header is used by some caches to indicate whether or not the response was\nserved from cache; if it contains `HIT`, it was."
  /- parsers/x_cache_lookup.py -/
  | .x_cache_lookup_ => str "The `X-Cache-Lookup` response header is used by some caches to show whether there was a response in\ncache for this URL; if it contains `HIT`, it was in cache (but not necessarily used)."
  /- parsers/x_content_type_options.py -/
  | .x_content_type_options_ => str "Indicates that the client should not 'sniff' the `Content-Type` of the message from its content."
  /- parsers/x_frame_options.py -/
  | .x_frame_options_ => str "\nThe X-Frame-Options response header declares a policy regarding whether the browser may display\nthe transmitted content in frames that are part of other web pages.\n"
  /- parsers/x_pad.py -/
  | .x_pad_ => str "    The `%(field_name)s` response header is used to \"pad\" the size of the response's headers.\n\n    Very old versions of the Netscape browser had a bug whereby a response whose headers were exactly\n    256 or 257 bytes long, the browser would consider the response invalid.\n\n    Since the affected browsers (specifically, Netscape 2.x, 3.x and 4.0 up to beta 2) are no longer\n    widely used, it's safe to omit this header."
  /- finder.py:94 -/
  | .unknownField => str "Unknown"
  | .deprecatedField => []
  | .unnecessaryField => []

/-- field/unnecessary.py:7-25 `UNNECESSARY_FIELDS` -/
def unnecessaryDescriptions : Dict Str := [
  (str "x-aspnet-version", str "x-aspnet-version reveals the ASP.NET version."),
  (str "x-aspnetmvc-version", str "x-aspnetmvc-version reveals the ASP.NET MVC version."),
  (str "x-powered-by", str "x-powered-by reveals the technology used to generate the response."),
  (str "x-generator", str "x-generator reveals the software used to generate the response."),
  (str "x-drupal-cache", str "x-drupal-cache reveals Drupal caching information."),
  (str "x-varnish", str "x-varnish reveals Varnish caching information."),
  (str "x-mod-pagespeed", str "x-mod-pagespeed reveals that mod_pagespeed is in use, which is usually not needed by the client."),
  (str "x-pingback", str "x-pingback advertises a Pingback endpoint, which is rarely used."),
  (str "x-runtime", str "x-runtime reveals the time taken to generate the response, which is usually not needed by the client."),
  (str "x-rack-cache", str "x-rack-cache reveals Rack::Cache information, which is usually not needed by the client."),
  (str "x-content-encoded-by", str "x-content-encoded-by reveals the software used to encode the content, which is usually not needed by the client."),
  (str "x-backend-server", str "x-backend-server reveals the backend server identity.")]

/-- deprecated.py:209-211: the description made by the constructor -/
def deprecatedDescription (canonical reference : Str) : Str :=
  str "The " ++ canonical ++ str " field is deprecated; it is not actively used by HTTP software.\nIt is safe to remove it from this message. For more information, see [here](" ++
    reference ++ str ")."

/-- `handler_class(field_name, _linter).description` (field/__init__.py:103-109, deprecated.py:203-211, unnecessary.py:33-36).
`DeprecatedField` asserts that it knows the (stripped, lower-cased) name. -/
def handlerDescription (fid : FieldId) (name : Str) : Except Exn Str :=
  match fid with
  | .deprecatedField => match deprecatedTable.find? (fun p => p.1 == lower (strip name)) with
    | some (_, canon, _, ref) => .ok (deprecatedDescription canon ref)
    | none => .error .otherError
  | .unnecessaryField => .ok ((dget unnecessaryDescriptions (lower (strip name))).getD [])
  | f => .ok f.description

/-- field/description.py:10-17 `get_field_description`.  The linter given to the handler is not used by its constructor. -/
def getFieldDescription (translate : Str → Str) (name : Str) : Except Exn (Option Str) :=
  match findHandlerClass name with
  | none => .ok none
  | some fid => match handlerDescription fid name with
    | .error e => .error e
    | .ok d => .ok (if d.isEmpty then none else some (translate d))

end HL
