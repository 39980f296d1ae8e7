{
 "claims": [
  {
   "property": "C01",
   "status": "proved",
   "theorems": [
    "Psion.Props.C01_base64url_roundtrip",
    "Psion.Props.C01_length"
   ],
   "note": "All byte strings."
  },
  {
   "property": "C02",
   "status": "partial",
   "theorems": [
    "Psion.Props.C02_distinct_spellings_partial",
    "Psion.Props.C02_distinct_spellings_refuted",
    "Psion.Props.C02_lenient_examples"
   ],
   "note": "The property is false of the code (\"QQ\" and \"QR\" decode alike, foreign characters are skipped). Proved: over the url-safe alphabet the spelling is unique up to the last character of an incomplete group of four."
  },
  {
   "property": "C03",
   "status": "partial",
   "theorems": [
    "Psion.Props.C03_int_roundtrip_partial",
    "Psion.Props.C03_int_roundtrip_refuted",
    "Psion.Props.C03_injective",
    "Psion.Props.C03_negative"
   ],
   "note": "False at 0 (int_to_b64(0) is empty, b64_to_int refuses it). Proved for all positive numbers, injectivity and rejection of negatives for all."
  },
  {
   "property": "C04",
   "status": "proved",
   "theorems": [
    "Psion.Props.C04_string_roundtrip",
    "Psion.Props.C04_bytes_roundtrip",
    "Psion.Props.C04_collision"
   ],
   "note": "to_string is a total function of the model. C04_collision shows the fallback is not injective."
  },
  {
   "property": "C05",
   "status": "proved",
   "theorems": [
    "Psion.Props.C05_urlencode_roundtrip",
    "Psion.Props.C05_urlencode_total"
   ],
   "note": "All parameter dictionaries with distinct keys (every Python dict has distinct keys)."
  },
  {
   "property": "C06",
   "status": "proved",
   "theorems": [
    "Psion.Props.C06_location_safe",
    "Psion.Props.C06_location_identity",
    "Psion.Props.C06_location_total"
   ],
   "note": ""
  },
  {
   "property": "C07",
   "status": "partial",
   "theorems": [
    "Psion.Props.C07_fulldict_partial",
    "Psion.Props.C07_fulldict_refuted",
    "Psion.Props.C07_assign",
    "Psion.Props.C07_construction"
   ],
   "note": "Construction and all assignment sequences proved; refuted for the inherited update()."
  },
  {
   "property": "C08",
   "status": "proved",
   "theorems": [
    "Psion.Props.C08_basic_roundtrip",
    "Psion.Props.C08_basic_sound",
    "Psion.Props.C08_basic_exact"
   ],
   "note": "Header values are texts."
  },
  {
   "property": "C09",
   "status": "partial",
   "theorems": [
    "Psion.Props.C09_header_never_raises_partial",
    "Psion.Props.C09_header_never_raises_refuted",
    "Psion.Props.C09_only_value_error",
    "Psion.Props.C09_exact"
   ],
   "note": "False: \"Basic \" and non-ASCII Basic tokens raise ValueError. Proved for ASCII values of the form word-space-text and values without space; the only exception ever raised is ValueError."
  },
  {
   "property": "C10",
   "status": "proved",
   "theorems": [
    "Psion.Props.C10_secret_token"
   ],
   "note": "Parametric in the random choices."
  },
  {
   "property": "C11",
   "status": "proved",
   "theorems": [
    "Psion.Props.C11_json_roundtrip",
    "Psion.Props.C11_json_roundtrip_bytes"
   ],
   "note": "Assumes FloatLaws: repr of a finite float is a JSON number that reads back as the same float. C129_assumptions proves FloatLaws for numbers as IEEE 754 and Python define them."
  },
  {
   "property": "C12",
   "status": "proved",
   "theorems": [
    "Psion.Props.C12_half_hash",
    "Psion.Props.C12_unknown"
   ],
   "note": "Parametric in the hash functions, with their digest lengths as hypothesis."
  },
  {
   "property": "C13",
   "status": "partial",
   "theorems": [
    "Psion.Props.C13_reload_partial",
    "Psion.Props.C13_reload_refuted",
    "Psion.Props.C13_zero_refuted",
    "Psion.Props.C13_public_reload"
   ],
   "note": "False for keys without private part and for numbers equal to zero. Proved: reload succeeds with the same material and members exactly when the key has a private part and no number is zero."
  },
  {
   "property": "C14",
   "status": "partial",
   "theorems": [
    "Psion.Props.C14_public_dump_partial",
    "Psion.Props.C14_noninterference",
    "Psion.Props.C14_public_dump_refuted",
    "Psion.Props.C14_key_set_partial",
    "Psion.Props.C19_public_dump_verifies"
   ],
   "note": "False: the public dump of an oct key contains k, and extra members are copied. Proved for EC and RSA keys without private extra members, with non-interference."
  },
  {
   "property": "C15",
   "status": "proved",
   "theorems": [
    "Psion.Props.C15_key_set",
    "Psion.Props.C15_get_key",
    "Psion.Props.C15_load"
   ],
   "note": "Also what JsonWebKeySet.load loads."
  },
  {
   "property": "C16",
   "status": "proved",
   "theorems": [
    "Psion.Props.C16_parse_public"
   ],
   "note": ""
  },
  {
   "property": "C17",
   "status": "partial",
   "theorems": [
    "Psion.Props.C17_export_refuted",
    "Psion.Props.C17_export_refuted_key",
    "Psion.Props.C17_export_partial"
   ],
   "note": "False for secrets that are not text reading back alike. Proved: exact condition."
  },
  {
   "property": "C18",
   "status": "proved",
   "theorems": [
    "Psion.Props.C18_public_cannot_sign"
   ],
   "note": ""
  },
  {
   "property": "C19",
   "status": "proved",
   "theorems": [
    "Psion.Props.C19_jws_roundtrip",
    "Psion.Props.C19_oct_pair",
    "Psion.Props.C19_serialize_total"
   ],
   "note": "For every pair of keys that the cryptography treats as genuine (GenuinePair: what the first signs the second verifies), proved to hold for oct keys."
  },
  {
   "property": "C20",
   "status": "proved",
   "theorems": [
    "Psion.Props.C20_expected_algorithm"
   ],
   "note": ""
  },
  {
   "property": "C21",
   "status": "proved",
   "theorems": [
    "Psion.Props.C21_key_bound_alg"
   ],
   "note": ""
  },
  {
   "property": "C22",
   "status": "proved",
   "theorems": [
    "Psion.Props.C22_no_key_confusion",
    "Psion.Props.C22_hmac_with_rsa"
   ],
   "note": ""
  },
  {
   "property": "C23",
   "status": "partial",
   "theorems": [
    "Psion.Props.C23_unsigned_refuted",
    "Psion.Props.C23_unsigned_partial"
   ],
   "note": "False: without expected algorithm a token with alg none is accepted. Proved: whatever else is accepted was verified by the key."
  },
  {
   "property": "C24",
   "status": "proved",
   "theorems": [
    "Psion.Props.C24_integrity"
   ],
   "note": "Unforgeability of the signature scheme is a hypothesis."
  },
  {
   "property": "C25",
   "status": "partial",
   "theorems": [
    "Psion.Props.C25_malformed_refuted",
    "Psion.Props.C25_dots",
    "Psion.Props.C25_malformed_partial"
   ],
   "note": "False: several builtin exceptions escape. Proved: the dot count clause and the exact list of possible exceptions."
  },
  {
   "property": "C26",
   "status": "partial",
   "theorems": [
    "Psion.Props.C26_header_validation",
    "Psion.Props.C26_crit_refuted"
   ],
   "note": "Acceptance is characterised exactly (iff); the last clause is false: unknown critical extensions are accepted."
  },
  {
   "property": "C27",
   "status": "partial",
   "theorems": [
    "Psion.Props.C27_key_ops_refuted",
    "Psion.Props.C27_key_usage_partial"
   ],
   "note": "key_ops clause is false (sign/verify are not told apart); the rest is proved."
  },
  {
   "property": "C28",
   "status": "partial",
   "theorems": [
    "Psion.Props.C28_jwt_roundtrip_partial",
    "Psion.Props.C28_all_null_refuted"
   ],
   "note": "False when all claims are null; proved in all other cases."
  },
  {
   "property": "C29",
   "status": "partial",
   "theorems": [
    "Psion.Props.C29_expired_partial",
    "Psion.Props.C29_exp_zero_refuted",
    "Psion.Props.C29_clock_refuted",
    "Psion.Props.C29_clock_utc"
   ],
   "note": "False for exp = 0 and, because of utcnow().timestamp(), on machines east of UTC. Proved for all other exp values relative to the clock the library reads."
  },
  {
   "property": "C30",
   "status": "partial",
   "theorems": [
    "Psion.Props.C30_future_partial",
    "Psion.Props.C30_future_all",
    "Psion.Props.C30_boundary",
    "Psion.Props.C30_clock_refuted"
   ],
   "note": "Proved relative to the clock the library reads, including the boundary; false relative to real time on machines not set to UTC."
  },
  {
   "property": "C31",
   "status": "proved",
   "theorems": [
    "Psion.Props.C31_claim_types",
    "Psion.Props.C31_decoded",
    "Psion.Props.C31_exact"
   ],
   "note": ""
  },
  {
   "property": "C32",
   "status": "partial",
   "theorems": [
    "Psion.Props.C32_options_partial",
    "Psion.Props.C32_no_lists_partial",
    "Psion.Props.C32_options_refuted"
   ],
   "note": "False: a match in a list-valued claim ends the loop, and falsy expected values are not enforced. Proved: options not preceded by a list match are enforced for truthy expectations."
  },
  {
   "property": "C33",
   "status": "proved",
   "theorems": [
    "Psion.Props.C33_no_validation",
    "Psion.Props.C33_default_checks",
    "Psion.Props.C33_validation_only_restricts"
   ],
   "note": ""
  },
  {
   "property": "C34",
   "status": "proved",
   "theorems": [
    "Psion.Props.C34_only_utf8_objects"
   ],
   "note": ""
  },
  {
   "property": "C35",
   "status": "proved",
   "theorems": [
    "Psion.Props.C35_authentication_sound",
    "Psion.Props.C35_single_lookup",
    "Psion.Props.C35_failures"
   ],
   "note": "All requests, adapters (any answer or exception of the lookup) and allowed-method lists."
  },
  {
   "property": "C36",
   "status": "partial",
   "theorems": [
    "Psion.Props.C36_one_method_refuted",
    "Psion.Props.C36_one_method_partial",
    "Psion.Props.C36_no_downgrade"
   ],
   "note": "Refuted: a request with a Basic header and other credentials in the form is accepted although the class documents InvalidClient. Proved instead: credentials are never mixed (the Basic header decides, then the form), and a request that presents a secret in the form is never treated as a public client. Missing: rejection."
  },
  {
   "property": "C37",
   "status": "proved",
   "theorems": [
    "Psion.Props.C37_confidential",
    "Psion.Props.C37_no_refresh_token",
    "Psion.Props.C37_no_refresh_token_returned"
   ],
   "note": "For all adapters, clients and hooks that keep to the library's members (Benign, see DESIGN)."
  },
  {
   "property": "C38",
   "status": "proved",
   "theorems": [
    "Psion.Props.C38_grant_types",
    "Psion.Props.C38_refresh_tokens",
    "Psion.Props.C38_other_operations"
   ],
   "note": ""
  },
  {
   "property": "C39",
   "status": "proved",
   "theorems": [
    "Psion.Props.C39_pkce",
    "Psion.Props.C39_pkce_refresh",
    "Psion.Props.C39_stored"
   ],
   "note": "All requests, adapters and interleavings within a request; hooks must keep to the library's members (Benign)."
  },
  {
   "property": "C40",
   "status": "proved",
   "theorems": [
    "Psion.Props.C40_code_binding",
    "Psion.Props.C40_code_binding_refresh"
   ],
   "note": ""
  },
  {
   "property": "C41",
   "status": "proved",
   "theorems": [
    "Psion.Props.C41_expiry",
    "Psion.Props.C41_expiry_refresh"
   ],
   "note": ""
  },
  {
   "property": "C42",
   "status": "proved",
   "theorems": [
    "Psion.Props.C42_code_deleted",
    "Psion.Props.C42_endpoint",
    "Psion.Props.C42_success"
   ],
   "note": ""
  },
  {
   "property": "C43",
   "status": "partial",
   "theorems": [
    "Psion.Props.C43_window",
    "Psion.Props.C43_partial",
    "Psion.Props.C43_refuted",
    "Psion.Props.C43_refuted_crash"
   ],
   "note": "False: the code is deleted after the tokens are created, so two interleaved requests, or a request that dies before the deletion, redeem a code twice. Proved: two redemptions need the second request to read the code before the first one deletes it; without such an overlap a code is redeemed at most once."
  },
  {
   "property": "C44",
   "status": "partial",
   "theorems": [
    "Psion.Props.C44_refuted",
    "Psion.Props.C44_refuted_verifier",
    "Psion.Props.C44_refuted_header",
    "Psion.Props.C44_status",
    "Psion.Props.C44_partial"
   ],
   "note": "False: KeyError without code, UnicodeEncodeError for a non-ASCII verifier, ValueError for a Basic header without credentials. Proved: every other request is answered as stated if the application cooperates (Cooperates)."
  },
  {
   "property": "C45",
   "status": "partial",
   "theorems": [
    "Psion.Props.C45_refuted",
    "Psion.Props.C45_partial"
   ],
   "note": "False for lone surrogates in the URL (UnicodeEncodeError escapes). Proved for all other requests if the application cooperates (CooperatesA)."
  },
  {
   "property": "C46",
   "status": "partial",
   "theorems": [
    "Psion.Props.C46_refuted",
    "Psion.Props.C46_open_redirects",
    "Psion.Props.C46_partial",
    "Psion.Props.C46_logged_in_partial"
   ],
   "note": "False: access_denied and unsupported_response_type are sent to the unchecked redirect_uri (open redirect). Proved: nothing else is, and a code only goes to a registered URI."
  },
  {
   "property": "C47",
   "status": "partial",
   "theorems": [
    "Psion.Props.C47_refuted",
    "Psion.Props.C47_partial"
   ],
   "note": "False: access_denied drops the state. Proved in all other cases for errors not raised by the application."
  },
  {
   "property": "C48",
   "status": "partial",
   "theorems": [
    "Psion.Props.C48_refuted",
    "Psion.Props.C48_partial",
    "Psion.Props.C48_query_refuted",
    "Psion.Props.C48_fragment_refuted"
   ],
   "note": "False for registered URIs with a query (a second question mark is appended). Proved for URIs without query and fragment. C48_query_refuted and C48_fragment_refuted: it is false for all others, not only for the witness of C48_refuted."
  },
  {
   "property": "C49",
   "status": "partial",
   "theorems": [
    "Psion.Props.C49_stored",
    "Psion.Props.C49_stored_for",
    "Psion.Props.C49_example",
    "Psion.Props.C49_client_credentials",
    "Psion.Props.C49_refresh",
    "Psion.Props.C49_refuted"
   ],
   "note": "The storing and requesting clauses are proved. The last clause is false for the code grant: stored scopes are not checked again."
  },
  {
   "property": "C50",
   "status": "proved",
   "theorems": [
    "Psion.Props.C50_refresh_narrows",
    "Psion.Props.C50_refresh_narrows_refresh"
   ],
   "note": "Assumes the documented contract of get_allowed_scopes (Narrows)."
  },
  {
   "property": "C51",
   "status": "partial",
   "theorems": [
    "Psion.Props.C51_scope_reported_partial",
    "Psion.Props.C51_empty_scope_refuted"
   ],
   "note": "False for an empty list of scopes: the member is left out. Proved for all others."
  },
  {
   "property": "C52",
   "status": "proved",
   "theorems": [
    "Psion.Props.C52_no_escalation",
    "Psion.Props.C52_example"
   ],
   "note": "Over all interleavings; the adapter returns only what was stored (Honest), which C52_example proves for the example adapter."
  },
  {
   "property": "C53",
   "status": "partial",
   "theorems": [
    "Psion.Props.C53_operations",
    "Psion.Props.C53_once",
    "Psion.Props.C53_answers",
    "Psion.Props.C53_refuted",
    "Psion.Props.C53_refuted_header",
    "Psion.Props.C53_partial"
   ],
   "note": "The operations and the answers are proved. False where an exception that is no OAuth2Error escapes (malformed Basic header, adapter errors); C53_partial excludes exactly these."
  },
  {
   "property": "C54",
   "status": "proved",
   "theorems": [
    "Psion.Props.C54_isolation",
    "Psion.Props.C54_unusable"
   ],
   "note": "For every state of the database and every interleaving of requests with the example adapter, including failing database operations. Unusable: unless the adapter draws the same random token again after the revocation."
  },
  {
   "property": "C55",
   "status": "partial",
   "theorems": [
    "Psion.Props.C55_refuted",
    "Psion.Props.C55_refuted_one_provider",
    "Psion.Props.C55_registered_per_grant",
    "Psion.Props.C55_other_grants",
    "Psion.Props.C55_partial"
   ],
   "note": "False: all grant classes share one table of hooks, so a hook registered for one grant (or by another provider) runs in the code grant of every provider. Proved: the client credentials and refresh token grants run no hooks; if all registrations are for the code grant of the provider itself, exactly these run."
  },
  {
   "property": "C56",
   "status": "partial",
   "theorems": [
    "Psion.Props.C56_exact",
    "Psion.Props.C56_refuted_name",
    "Psion.Props.C56_refuted_empty",
    "Psion.Props.C56_without_openid",
    "Psion.Props.C56_partial"
   ],
   "note": "False: the test is for a substring, and a code without scopes makes the hook raise KeyError. Proved exactly: an ID token is returned iff a granted scope contains the text openid."
  },
  {
   "property": "C57",
   "status": "partial",
   "theorems": [
    "Psion.Props.C57_refuted",
    "Psion.Props.C57_partial"
   ],
   "note": "False where the user information of the adapter contains iss, aud, exp, iat, nbf or at_hash. Proved otherwise, for the time id_token_lifespan from the clock reading of the library."
  },
  {
   "property": "C58",
   "status": "partial",
   "theorems": [
    "Psion.Props.C58_refuted",
    "Psion.Props.C58_exact",
    "Psion.Props.C58_partial"
   ],
   "note": "False: the nonce is stored with the code (C58_partial) but never put into the ID token; C58_exact says what is there instead."
  },
  {
   "property": "C59",
   "status": "partial",
   "theorems": [
    "Psion.Props.C59_exact",
    "Psion.Props.C59_partial",
    "Psion.Props.C59_refuted",
    "Psion.Props.C59_refuted_expired"
   ],
   "note": "False: get_or_create returns an older refresh token of the same client and user with its old scopes and expiration. Proved: exactly this, and that the first refresh token of a client for a user is as promised."
  },
  {
   "property": "C60",
   "status": "proved",
   "theorems": [
    "Psion.Props.C60_form_overrides",
    "Psion.Props.C60_no_empty_parameter",
    "Psion.Props.C60_header_names",
    "Psion.Props.C60_methods"
   ],
   "note": "Header names are lowered as ASCII. A request can be built for GET and POST, unless the host has one bracket only."
  },
  {
   "property": "C61",
   "status": "partial",
   "theorems": [
    "Psion.Props.C61_data",
    "Psion.Props.C61_redirect_partial",
    "Psion.Props.C61_read_only",
    "Psion.Props.C61_lookup_refuted"
   ],
   "note": "Proved unless the adapter raises an OAuth2Error in find_client; then the error goes to the unchecked URI."
  },
  {
   "property": "C62",
   "status": "proved",
   "theorems": [
    "Psion.Props.C62_error_redirect",
    "Psion.Props.C62_error_body",
    "Psion.Props.C62_token_endpoint",
    "Psion.Props.C62_authorization_endpoint"
   ],
   "note": "Redirects: members that are set and not empty; bodies: members that are set. Conditional on the response being built (a lone surrogate in a redirect URI makes it raise, see C45)."
  },
  {
   "property": "C63",
   "status": "partial",
   "theorems": [
    "Psion.Props.C63_partial",
    "Psion.Props.C63_refuted"
   ],
   "note": "False without a nonce: the adapter raises KeyError. Proved for all valid requests with a nonce that fits into its column."
  },
  {
   "property": "C64",
   "status": "proved",
   "theorems": [
    "Psion.Props.C64_end_to_end"
   ],
   "note": "Over all interleavings; the adapter returns only what was stored (Honest)."
  },
  {
   "property": "C65",
   "status": "proved",
   "theorems": [
    "Psion.Props.C65_content",
    "Psion.Props.C65_expires",
    "Psion.Props.C65_authorized"
   ],
   "note": "Floating point printing is assumed to satisfy FloatLaws. Expiry: for creation times after 1970 (a time of zero does not count in the checks of the library)."
  },
  {
   "property": "C66",
   "status": "proved",
   "theorems": [
    "Psion.Props.C66_bearer_exact"
   ],
   "note": ""
  },
  {
   "property": "C67",
   "status": "proved",
   "theorems": [
    "Psion.Props.C67_loaded"
   ],
   "note": "The acceptance test of the cryptography package is a parameter of the model."
  },
  {
   "property": "C68",
   "status": "proved",
   "theorems": [
    "Psion.Props.C68_parse_options",
    "Psion.Props.C68_parse_same_key",
    "Psion.Props.C68_generate",
    "Psion.Props.C68_generate_refused"
   ],
   "note": "The random numbers are inputs of the model: nonzero and accepted by the primitives, as every generated key pair is."
  },
  {
   "property": "C69",
   "status": "proved",
   "theorems": [
    "Psion.Props.C69_sessions"
   ],
   "note": "Over all interleavings of all requests of the application, wherever they fail; at the beginning there are no sessions of the user."
  },
  {
   "property": "C70",
   "status": "partial",
   "theorems": [
    "Psion.Props.C70_sessions",
    "Psion.Props.C70_refresh",
    "Psion.Props.C70_partial",
    "Psion.Props.C70_quiet_partial",
    "Psion.Props.C70_refuted"
   ],
   "note": "False: the logout deletes sessions and refresh tokens, but codes issued before can still be exchanged for access and refresh tokens. Proved: dead sessions and refresh tokens stay dead, and every token after a logout goes back to an authorization before it or to a new login."
  },
  {
   "property": "C71",
   "status": "proved",
   "theorems": [
    "Psion.Props.C71_end_to_end"
   ],
   "note": "Over all interleavings; at the beginning there are no sessions, codes and refresh tokens of the user."
  },
  {
   "property": "C72",
   "status": "proved",
   "theorems": [
    "Psion.Props.C72_login_detour"
   ],
   "note": "For the address of the site without question mark and fragment."
  },
  {
   "property": "C73",
   "status": "partial",
   "theorems": [
    "Psion.Props.C73_partial",
    "Psion.Props.C73_refuted"
   ],
   "note": "False: the value of next is not checked; C73_refuted gives the query string for every target. Proved: the redirect goes to the start page or to the value of next."
  },
  {
   "property": "C74",
   "status": "partial",
   "theorems": [
    "Psion.Props.C74_partial",
    "Psion.Props.C74_refuted",
    "Psion.Props.C74_refuted_head",
    "Psion.Props.C74_refuted_host"
   ],
   "note": "False: a revocation request without token ends with AttributeError, a HEAD request to the authorization endpoint with RuntimeError, a request with the host `[` with ValueError. Proved: in all other cases the response of the library is sent as it is, or its exception escapes."
  },
  {
   "property": "C75",
   "status": "partial",
   "theorems": [
    "Psion.Props.C75_cookie",
    "Psion.Props.C75_login_partial",
    "Psion.Props.C75_refuted"
   ],
   "note": "The first half is proved. The second is false for users who share their e-mail address with an earlier one; proved for the first user with an address, when the database works."
  },
  {
   "property": "C76",
   "status": "proved",
   "theorems": [
    "Psion.Props.C76_client_credentials",
    "Psion.Props.C76_authorization_code",
    "Psion.Props.C76_refresh_token"
   ],
   "note": "If the adapter works and the hooks of the token endpoint do not raise."
  },
  {
   "property": "C77",
   "status": "proved",
   "theorems": [
    "Psion.Props.C77_authorize",
    "Psion.Props.C77_consent"
   ],
   "note": "If the adapter works and the hooks of the authorization endpoint do not raise."
  },
  {
   "property": "C78",
   "status": "proved",
   "theorems": [
    "Psion.Props.C78_revoke"
   ],
   "note": "If the adapter works."
  },
  {
   "property": "C79",
   "status": "proved",
   "theorems": [
    "Psion.Props.C79_serialize",
    "Psion.Props.C79_deserialize"
   ],
   "note": "For keys made by the library. The algorithm none is a case of its own, as in the code."
  },
  {
   "property": "C80",
   "status": "proved",
   "theorems": [
    "Psion.Props.C80_options",
    "Psion.Props.C80_issue",
    "Psion.Props.C80_decode",
    "Psion.Props.C80_decode_text"
   ],
   "note": "The signature part of C80_decode is C79_deserialize. That the check of options ends at the first match inside a list is the finding of C32."
  },
  {
   "property": "C81",
   "status": "proved",
   "theorems": [
    "Psion.Props.C81_exchange"
   ],
   "note": "If the adapter works, the user information leaves the claims of the provider alone, and the clock neither runs backwards nor passes the lifespan during the request."
  },
  {
   "property": "C82",
   "status": "proved",
   "theorems": [
    "Psion.Props.C82_token",
    "Psion.Props.C82_authorize"
   ],
   "note": "For hooks that do not touch stored codes and tokens."
  },
  {
   "property": "C83",
   "status": "proved",
   "theorems": [
    "Psion.Props.C83_identity",
    "Psion.Props.C83_login"
   ],
   "note": "From an empty set of codes, refresh tokens and sessions."
  },
  {
   "property": "C84",
   "status": "proved",
   "theorems": [
    "Psion.Props.C84_exchange",
    "Psion.Props.C84_refresh",
    "Psion.Props.C84_flow"
   ],
   "note": "Undisturbed: nothing else happens during and between the requests, random texts are new, the database works, the clock does not run backwards, a request takes less than an hour, and the rows of user and client contain no lone surrogates."
  },
  {
   "property": "C85",
   "status": "proved",
   "theorems": [
    "Psion.Props.C85_published",
    "Psion.Props.C85_reload"
   ],
   "note": "For keys loaded from dictionaries that JSON can represent and without zero numbers (the finding of C13). That an octet key is published with its secret is the finding of C14."
  },
  {
   "property": "C86",
   "status": "proved",
   "theorems": [
    "Psion.Props.C86_grammar",
    "Psion.Props.C86_unambiguous",
    "Psion.Props.C86_printed",
    "Psion.Props.C86_members",
    "Psion.Props.C86_stable"
   ],
   "note": "The grammar is in Spec/Json.lean. The recursion limit and the limit on the digits of an int of CPython are not modelled. For the floats, see C129."
  },
  {
   "property": "C87",
   "status": "partial",
   "theorems": [
    "Psion.Props.C87_refuted",
    "Psion.Props.C87_refuted_client",
    "Psion.Props.C87_partial",
    "Psion.Props.C44_json_type"
   ],
   "note": "The code violates the property: an unknown code or refresh token, a code of an unknown user and an expired refresh token are reported as invalid_request, a refresh token of another client as invalid_client. Proved for all other reasons, and exactly these values for the five exceptions."
  },
  {
   "property": "C88",
   "status": "proved",
   "theorems": [
    "Psion.Props.C88_authorize",
    "Psion.Props.C88_consent",
    "Psion.Props.C88_revoke"
   ],
   "note": "The reasons and their values of `error` are in Verif/Spec/Errors.lean."
  },
  {
   "property": "C89",
   "status": "proved",
   "theorems": [
    "Psion.Props.C89_written",
    "Psion.Props.C89_parameters",
    "Psion.Props.C89_query",
    "Psion.Props.C89_form",
    "Psion.Props.C89_request"
   ],
   "note": "The format is in Spec/Form.lean. `parse_qsl` with its default arguments; its limit on the number of fields is off by default. A URL whose host has one bracket only is refused (C60)."
  },
  {
   "property": "C90",
   "status": "partial",
   "theorems": [
    "Psion.Props.C90_partial",
    "Psion.Props.C90_performed_partial",
    "Psion.Props.C90_refuted_nonce",
    "Psion.Props.C90_refuted_long_nonce",
    "Psion.Props.C90_refuted_blank",
    "Psion.Props.C90_refuted_code",
    "Psion.Props.C90_refuted_verifier",
    "Psion.Props.C90_refuted_header",
    "Psion.Props.C90_refuted_revoke",
    "Psion.Props.C90_refuted_head",
    "Psion.Props.C90_refuted_host"
   ],
   "note": "False for nine kinds of requests, each with a witness: an authorization without nonce, or with a nonce of more than 256 characters, the exchange of a code for blank scopes, a code exchange without code, or with a verifier outside ASCII, a malformed Basic header, a revocation without token, a HEAD request for an authorization, a host with one bracket. Proved for all other requests, and for all requests with them going on at the same time, except authorizations for blank scopes, which spoil a later exchange."
  },
  {
   "property": "C91",
   "status": "partial",
   "theorems": [
    "Psion.Props.C91_partial",
    "Psion.Props.C91_refuted_auth_time",
    "Psion.Props.C91_refuted_nonce"
   ],
   "note": "The code violates the property: `validate_auth_time` looks at `max_age` instead of `auth_time`, and the nonce is compared with the option itself, not with its value, so that the right nonce is refused if it is expected in the documented form. The partial theorem says exactly what is accepted."
  },
  {
   "property": "C92",
   "status": "proved",
   "theorems": [
    "Psion.Props.C92_parse",
    "Psion.Props.C92_one"
   ],
   "note": "The primitives (PEM parsing, the file system) are parameters; what they load is supposed to be valid numbers other than zero, and extra members not to name numbers of the key (C68 says what happens if they do)."
  },
  {
   "property": "C93",
   "status": "partial",
   "theorems": [
    "Psion.Props.C93_partial",
    "Psion.Props.C93_refuted_encrypted",
    "Psion.Props.C93_refuted_der"
   ],
   "note": "The code violates the property: the label of encrypted private keys is not among the marks, and with the format `der` no mark is looked for. Proved for the eight marks and the format `pem`."
  },
  {
   "property": "C94",
   "status": "partial",
   "theorems": [
    "Psion.Props.C94_partial",
    "Psion.Props.C94_refuted_letters",
    "Psion.Props.C94_refuted_name"
   ],
   "note": "The code violates the property: a public key in whose base64 text the letters PRIVATE occur is taken for a private key, and the text of a key is first opened as a file name, where the error for names that are too long (more than 255 bytes before the first slash) is not caught. Proved for all other texts. The PEM writer and reader are parameters with the laws `PemLaws`. C127_roundtrip_partial makes the same statement for the formats of the standards themselves, without these laws."
  },
  {
   "property": "C95",
   "status": "partial",
   "theorems": [
    "Psion.Props.C95_partial",
    "Psion.Props.C95_refuted_zero",
    "Psion.Props.C95_refuted_file"
   ],
   "note": "The code violates the property: the secret is first opened as a file name; a secret with a zero byte raises ValueError, and one that names a file is replaced by its content. Proved for all other secrets."
  },
  {
   "property": "C96",
   "status": "partial",
   "theorems": [
    "Psion.Props.C96_revoke",
    "Psion.Props.C96_token_partial",
    "Psion.Props.C96_refuted_status",
    "Psion.Props.C96_refuted_empty"
   ],
   "note": "The code violates the property: the token endpoint answers with status 400, and credentials with an empty secret are ignored instead of refused. Proved with status 401 for the revocation endpoint, and with status 400 for the token endpoint, for all other credentials that are looked up. That no other response has the header holds unless the application raises it."
  },
  {
   "property": "C97",
   "status": "proved",
   "theorems": [
    "Psion.Props.C97_error_page",
    "Psion.Props.C97_refused"
   ],
   "note": "Pages are texts; a reader for tags, attribute values and character references (`Spec/Html.lean`) stands for the user agent. A missing parameter is shown as None. Errors that the application itself raises as OAuth2Error are a separate case of C97_refused."
  },
  {
   "property": "C98",
   "status": "proved",
   "theorems": [
    "Psion.Props.C98_login_form",
    "Psion.Props.C98_detour"
   ],
   "note": "The markup of the fields comes from the form library and is left open. The user agent sends the form to the URL that it reads from the page, and the query string of a request is the one of its URL."
  },
  {
   "property": "C99",
   "status": "partial",
   "theorems": [
    "Psion.Props.C99_accept_partial",
    "Psion.Props.C99_sign_partial",
    "Psion.Props.C99_ecdsa_refuted",
    "Psion.Props.C99_ecdsa_sign_refuted",
    "Psion.Props.C99_pss_refuted"
   ],
   "note": "The code violates the property for the ES* and PS* algorithms: ECDSA signatures are DER encoded instead of two numbers of fixed length, and the salt of PSS is as long as possible instead of as long as the digest. Proved for HS* and RS*. What the package cryptography documents about its signatures is a hypothesis (Documented)."
  },
  {
   "property": "C100",
   "status": "partial",
   "theorems": [
    "Psion.Props.C100_generate_partial",
    "Psion.Props.C100_refuted"
   ],
   "note": "The code violates the property: no secret is refused as too short, and RSA keys are generated from 512 bits on. Proved for keys that are generated with the default size or with the size that the algorithm needs."
  },
  {
   "property": "C101",
   "status": "partial",
   "theorems": [
    "Psion.Props.C101_dump_partial",
    "Psion.Props.C101_load",
    "Psion.Props.C101_refuted"
   ],
   "note": "The code violates the property: coordinates of EC keys with leading zero octets are written in fewer octets than the curve has. Proved exactly when a number is written as prescribed (for RSA always, except zero), and that keys written as prescribed are read."
  },
  {
   "property": "C102",
   "status": "proved",
   "theorems": [
    "Psion.Props.C102_authorize",
    "Psion.Props.C102_consent",
    "Psion.Props.C102_token",
    "Psion.Props.C102_revoke",
    "Psion.Props.C102_hooks"
   ],
   "note": "Hooks of the provider must not look at the secret themselves; the hooks of the library do not. How long the comparison of two secrets takes is not modelled."
  },
  {
   "property": "C103",
   "status": "proved",
   "theorems": [
    "Psion.Props.C103"
   ],
   "note": "How long the comparison of two secrets or passwords takes is not modelled."
  },
  {
   "property": "C104",
   "status": "partial",
   "theorems": [
    "Psion.Props.C104_login",
    "Psion.Props.C104_revoke_partial",
    "Psion.Props.C104_token_partial",
    "Psion.Props.C104_refuted"
   ],
   "note": "The code violates the property for clients: the error_description tells whether the client exists, whether the secret is wrong, or whether only the method is. Proved for the login of users, and for clients up to error_description. How long an answer takes is not modelled."
  },
  {
   "property": "C105",
   "status": "proved",
   "theorems": [
    "Psion.Props.C105"
   ],
   "note": "The requests are not disturbed by others and nothing happens in between; the client has no refresh token for this user before. The request carries a nonce (needed for the ID token) and asks for at least one scope."
  },
  {
   "property": "C106",
   "status": "partial",
   "theorems": [
    "Psion.Props.C106_partial",
    "Psion.Props.C106_refuted"
   ],
   "note": "The code violates the property: the credentials are not decoded as in a form, so an id or secret with any character that the encoding changes is read wrongly (C106_refuted, for all of them). Proved for letters, digits and -._"
  },
  {
   "property": "C107",
   "status": "partial",
   "theorems": [
    "Psion.Props.C107_authenticate",
    "Psion.Props.C107_revoke",
    "Psion.Props.C107_refuted"
   ],
   "note": "The code violates the property at the token endpoint, which also takes codes and refresh tokens from the query string. Proved for client authentication and the revocation endpoint."
  },
  {
   "property": "C108",
   "status": "partial",
   "theorems": [
    "Psion.Props.C108_partial",
    "Psion.Props.C108_refuted"
   ],
   "note": "The code violates the property: requests with repeated parameters are served. Proved instead that exactly the last occurrence counts."
  },
  {
   "property": "C109",
   "status": "partial",
   "theorems": [
    "Psion.Props.C109_token_partial",
    "Psion.Props.C109_authorize_partial",
    "Psion.Props.C109_refuted"
   ],
   "note": "The code violates the property: descriptions quote texts of the request in quotation marks (C109_refuted, for all requests for an unknown grant). Proved for error, unless the application raises the error itself."
  },
  {
   "property": "C110",
   "status": "partial",
   "theorems": [
    "Psion.Props.C39_stored",
    "Psion.Props.C110_plain_partial",
    "Psion.Props.C110_verifier_refuted",
    "Psion.Props.C110_challenge_refuted"
   ],
   "note": "The code violates the property: the characters of challenges are not checked, and verifiers not at all. Proved that the length of stored challenges is as prescribed (C39_stored), and that with the method plain a challenge as prescribed needs a verifier as prescribed."
  },
  {
   "property": "C111",
   "status": "proved",
   "theorems": [
    "Psion.Props.C111_refused",
    "Psion.Props.C111_answers"
   ],
   "note": "A session whose user was deleted is answered by the framework, as a separate case. What the endpoints of the library answer is the subject of other claims; here only that they are reached."
  },
  {
   "property": "C112",
   "status": "partial",
   "theorems": [
    "Psion.Props.C112_partial",
    "Psion.Props.C112_refuted"
   ],
   "note": "The code violates the property: a logout is a GET request, and it deletes all sessions and refresh tokens of the user, so a link or image on any site logs the user out (C112_refuted). Proved for all other URLs."
  },
  {
   "property": "C113",
   "status": "proved",
   "theorems": [
    "Psion.Props.C113_pair",
    "Psion.Props.C113_ec_sound",
    "Psion.Props.C113_roundtrip",
    "Psion.Props.C113_rfc"
   ],
   "note": "The algorithms are those of Verif/Real, which are checked against the recorded values of the tests of the repository and the vectors of the standards in Verif/Real/Vectors.lean. The theorems also cover EC keys, see C120. Numbers of the key that are 0 are excluded (NoZero), since such a key is not loaded from its dump (C16)."
  },
  {
   "property": "C114",
   "status": "partial",
   "theorems": [
    "Psion.Props.C114_partial",
    "Psion.Props.C114_refuted"
   ],
   "note": "The code violates the property: a modulus below 2^744 is too short for RS512, and the error is a ValueError of the package (C114_refuted), though keys from 512 bits on are generated. Proved for all other keys (at least 745 bits)."
  },
  {
   "property": "C115",
   "status": "partial",
   "theorems": [
    "Psion.Props.C115_header_partial",
    "Psion.Props.C115_refuted"
   ],
   "note": "The code violates the property: an algorithm that is a list or an object is looked up in a dictionary and raises TypeError (C115_refuted). C115_header_partial says for every header exactly which error it is refused with."
  },
  {
   "property": "C116",
   "status": "proved",
   "theorems": [
    "Psion.Props.C116_errors",
    "Psion.Props.C116_expired",
    "Psion.Props.C116_early",
    "Psion.Props.C116_decode"
   ],
   "note": "The exact order is part of the theorems: an audience of a wrong type is reported before the end of the validity, and the other claims except sub before its begin."
  },
  {
   "property": "C117",
   "status": "proved",
   "theorems": [
    "Psion.Props.C117_token",
    "Psion.Props.C117_header",
    "Psion.Props.C117_sign"
   ],
   "note": "Assumes that the check of RSA signatures of the package raises nothing but InvalidSignature (Decides) and that key_ops is missing or a list (a number there is a TypeError). A payload that is no base64url text is reported with the error of Python, after the signature has been checked."
  },
  {
   "property": "C118",
   "status": "partial",
   "theorems": [
    "Psion.Props.C118_type_partial",
    "Psion.Props.C118_invalid_partial",
    "Psion.Props.C118_refuted"
   ],
   "note": "The code violates the property: missing members are a TypeError, wrong numbers a ValueError, wrong encodings a binascii.Error (C118_refuted). Proved: exactly when the two errors of the library are raised."
  },
  {
   "property": "C119",
   "status": "partial",
   "theorems": [
    "Psion.Props.C119_partial",
    "Psion.Props.C119_refuted"
   ],
   "note": "The code violates the property: a public key where the private one is asked for is refused with RuntimeError, a text that is no base64 with binascii.Error, and the errors of the PEM reader are passed on (C119_refuted). C119_partial says exactly with which error every raw key is refused."
  },
  {
   "property": "C120",
   "status": "proved",
   "theorems": [
    "Psion.Props.C120_loaded",
    "Psion.Props.C120_loads",
    "Psion.Props.C120_private",
    "Psion.Props.C120_accept",
    "Psion.Props.C120_sign",
    "Psion.Props.C120_roundtrip"
   ],
   "note": "FIPS 186-4 is stated over the elliptic curve groups of Mathlib (Verif/Spec/Fips186.lean). That the arithmetic of Verif/Real/Curve.lean is the one of these groups, that the numbers p and n of the curves are prime and that the curves have n points is proved. Signatures are in DER, not in the form of RFC 7518 (C99_ecdsa_refuted). The first coordinate 0 is excluded in C120_roundtrip, since the dump of such a key is not loaded (C13_zero_refuted)."
  },
  {
   "property": "C121",
   "status": "partial",
   "theorems": [
    "Psion.Props.C121_partial",
    "Psion.Props.C121_text_refuted",
    "Psion.Props.C121_ecdsa_refuted"
   ],
   "note": "The code violates the property: characters outside of the alphabet are skipped in the signature, whatever the algorithm (C121_text_refuted), and of every ECDSA signature (r, s) also (r, n - s) is accepted (C121_ecdsa_refuted). Proved: under HMAC and RSASSA-PKCS1-v1_5 the octets of the signature are unique, for RSA keys with two primes."
  },
  {
   "property": "C122",
   "status": "proved",
   "theorems": [
    "Psion.Props.C122_token",
    "Psion.Props.C122_web"
   ],
   "note": "C122_token is about the provider of the example application, C122_web about a request to its URL."
  },
  {
   "property": "C123",
   "status": "partial",
   "theorems": [
    "Psion.Props.C123_stored",
    "Psion.Props.C123_credentials",
    "Psion.Props.C123_refresh",
    "Psion.Props.C123_written",
    "Psion.Props.C123_refuted",
    "Psion.Props.C123_authorize_refuted"
   ],
   "note": "The code violates the property: scopes separated by tabulators or any other white space of Python are accepted at both endpoints (C123_refuted, C123_authorize_refuted). Proved: values of the standard are read as the standard says, and the answers are written as it says; the hooks are assumed to return dictionaries (without repeated keys) and to leave the reserved members alone."
  },
  {
   "property": "C124",
   "status": "proved",
   "theorems": [
    "Psion.Props.C124_hash",
    "Psion.Props.C124_accept",
    "Psion.Props.C124_sign",
    "Psion.Props.C124_challenge"
   ],
   "note": "FIPS 180-4 is stated over bit vectors with the roots of the prime numbers as constants (Verif/Spec/Fips180.lean), as a relation between bits. The lengths of messages are not limited: the length is written modulo 2 ^ 64 or 2 ^ 128, as any program does. In C124_challenge it is assumed that hashlib.sha256 is the function of the standard."
  },
  {
   "property": "C125",
   "status": "proved",
   "theorems": [
    "Psion.Props.C125_accept",
    "Psion.Props.C125_sign"
   ],
   "note": "RFC 8017 is stated as relations over bits and numbers (Verif/Spec/Rfc8017.lean). The salt of PSS is the longest one, not the one of RFC 7518 (C99_pss_refuted). The counter of MGF1 is taken modulo 2 ^ 32, which no key of less than a terabit reaches. In C125_sign the numbers of the private key belong together as RFC 8017 says."
  },
  {
   "property": "C126",
   "status": "partial",
   "theorems": [
    "Psion.Props.C126_base64url",
    "Psion.Props.C126_base64url_decode",
    "Psion.Props.C126_base64_decode",
    "Psion.Props.C126_number_partial",
    "Psion.Props.C126_number_refuted",
    "Psion.Props.C126_number_read",
    "Psion.Props.C126_utf8",
    "Psion.Props.C126_utf8_error",
    "Psion.Props.C126_to_string"
   ],
   "note": "The code violates the property for the number zero: RFC 7518 section 2 asks for AA, and int_to_b64 gives the empty text. Proved for all positive numbers, and for everything else without exception. The encodings are stated over bits (Verif/Spec/Encodings.lean)."
  },
  {
   "property": "C127",
   "status": "partial",
   "theorems": [
    "Psion.Props.C127_private",
    "Psion.Props.C127_password",
    "Psion.Props.C127_public_partial",
    "Psion.Props.C127_export",
    "Psion.Props.C127_roundtrip_partial",
    "Psion.Props.C127_public_refuted"
   ],
   "note": "The code violates the property: a public key in whose base64 text the letters PRIVATE occur is refused (a point of P-256 with such a text is the witness). Proved for all other keys, with the reader and the writer of PEM texts themselves and an arbitrary file system; ASN.1 and PEM are stated as relations in Verif/Spec/Asn1.lean. Encrypted texts are not modelled; the form RSA PUBLIC KEY is not either. NoZero excludes the keys of C13_zero_refuted."
  },
  {
   "property": "C128",
   "status": "proved",
   "theorems": [
    "Psion.Props.C128_at_hash",
    "Psion.Props.C128_token"
   ],
   "note": "FipsHashes says that the functions of hashlib are those of FIPS 180-4; it holds for the functions of C124 (fipsEnv_fips)."
  },
  {
   "property": "C129",
   "status": "proved",
   "theorems": [
    "Psion.Props.C129_read",
    "Psion.Props.C129_literal",
    "Psion.Props.C129_nearest",
    "Psion.Props.C129_overflow",
    "Psion.Props.C129_write",
    "Psion.Props.C129_zero",
    "Psion.Props.C129_roundtrip",
    "Psion.Props.C129_stable",
    "Psion.Props.C129_assumptions"
   ],
   "note": "Real.floats is the pair of conversions that CPython uses (correctly rounded strtod, shortest repr). Nearest, Shortest and ReprText in Spec/Ieee754.lean state rounding to nearest even, the shortest digits and the format without reference to the model. C129_assumptions shows that the hypotheses FloatLaws, HashLengths, Decides and Foreign of the other theorems hold for the real operations."
  },
  {
   "property": "C130",
   "status": "partial",
   "theorems": [
    "Psion.Props.C130_partial",
    "Psion.Props.C130_refuted"
   ],
   "note": "The code violates the property for codes: any authenticated client that presents a code removes it, also a code that was made for another client (C130_refuted: the code of the other client is gone after the request). Proved without this condition for every operation of every request in every history; administration may change the database in between."
  },
  {
   "property": "C131",
   "status": "partial",
   "theorems": [
    "Psion.Props.C131_partial",
    "Psion.Props.C131_refuted",
    "Psion.Props.C131_small_refuted"
   ],
   "note": "With the real primitives (Real.crypto) and generators of which only what FIPS 186-4 and RFC 8017 say is known (Drawn). The code violates the property twice: a drawn point of P-256 whose first coordinate is zero makes generate raise ValueError (C131_refuted), and RSA keys below 745 bits are generated though they cannot sign under all algorithms (C131_small_refuted, exactly which: C114). Proved for all other draws."
  },
  {
   "property": "C132",
   "status": "partial",
   "theorems": [
    "Psion.Props.C132_partial",
    "Psion.Props.C132_answers_partial",
    "Psion.Props.C132_refuted"
   ],
   "note": "The code violates the property: the errors tell whether a presented code exists (invalid_grant if it belongs to another client, invalid_request if there is none), C132_refuted. Proved: nothing else is revealed, that is, what is stored with codes and refresh tokens of other clients (user, scopes, redirect URI, challenge, nonce, expiration, and which other client) has no influence. Logouts are excluded, because they remove refresh tokens by user and so change which ones exist."
  },
  {
   "property": "C133",
   "status": "partial",
   "theorems": [
    "Psion.Props.C133_refresh",
    "Psion.Props.C133_session",
    "Psion.Props.C133_code_partial",
    "Psion.Props.C133_refuted"
   ],
   "note": "The code violates the property for codes: any authenticated client that presents a code removes it (C133_refuted). Proved in full for refresh tokens and sessions, and for codes without the condition on the client. Follows from C130 by induction over the history."
  },
  {
   "property": "C134",
   "status": "proved",
   "theorems": [
    "Psion.Props.C134",
    "Psion.Props.C134_session",
    "Psion.Props.C134_code",
    "Psion.Props.C134_refresh"
   ],
   "note": "The requests of the flow themselves are performed without failures and one operation after the other (Visit); what happens between them is arbitrary (Meanwhile), except that nobody administers the database and no authorization is asked for blank scopes only (see C90). Assumes FloatLaws and HashLengths, which C129_assumptions discharges for the real algorithms."
  },
  {
   "property": "C135",
   "status": "partial",
   "theorems": [
    "Psion.Props.C135_keys_partial",
    "Psion.Props.C135_load_partial",
    "Psion.Props.C135_texts_partial",
    "Psion.Props.C135_refuted"
   ],
   "note": "exactly which error every list of keys and every loaded value is refused with; for ids that are texts exactly InvalidKeySet for the three reasons. Violated: a kid that is a list or an object and a member keys that is a number raise TypeError, a member keys that is a text or an object raises InvalidKey (C135_refuted)."
  },
  {
   "property": "C136",
   "status": "proved",
   "theorems": [
    "Psion.Props.C136_token",
    "Psion.Props.C136_revoke",
    "Psion.Props.C136_authorize",
    "Psion.Props.C136_consent"
   ],
   "note": "exact list of headers of every answer of the four entry points, for all executions; errors raised by the application may bring headers of their own."
  },
  {
   "property": "C137",
   "status": "proved",
   "theorems": [
    "Psion.Props.C137_access",
    "Psion.Props.C137_identity",
    "Psion.Props.C137_client",
    "Psion.Props.C137_server",
    "Psion.Props.C137_distinct"
   ],
   "note": "for every decoding that succeeds with the key of the application, whatever the options and the clock; assumes FloatLaws (discharged by C129_assumptions). The resource server may not have an option about the claim address, which can be a list (a match inside a list ends the check of the options, see C32)."
  },
  {
   "property": "C138",
   "status": "partial",
   "theorems": [
    "Psion.Props.C138_partial",
    "Psion.Props.C138_refuted"
   ],
   "note": "everything but the audience is there in every token; violated: no access token of the example application contains the claim aud (C138_refuted)."
  },
  {
   "property": "C139",
   "status": "partial",
   "theorems": [
    "Psion.Props.C139_partial",
    "Psion.Props.C139_only",
    "Psion.Props.C139_refuted"
   ],
   "note": "the ID tokens are accepted with the secret of the application, during their lifespan (C139_partial), and only with secrets that give the same code for the text of the token (C139_only). Violated: the application signs with its own secret, which the clients do not have; with their own secret they can check nothing (C139_refuted, in an environment where different secrets give different codes)."
  },
  {
   "property": "C140",
   "status": "partial",
   "theorems": [
    "Psion.Props.C140_partial",
    "Psion.Props.C140_refuted"
   ],
   "note": "the binding to the authenticated client holds for every adapter (C140_partial). Violated: the grant never invalidates a refresh token, and the example adapter returns the same token again; so every refresh token of the example application can be used again and again until it expires, whatever happens in between (C140_refuted, for all stores, clients and histories, under the hypotheses of C134)."
  },
  {
   "property": "C141",
   "status": "partial",
   "theorems": [
    "Psion.Props.C141_partial",
    "Psion.Props.C141_access",
    "Psion.Props.C141_refuted"
   ],
   "note": "tokens for a user are made only within a day of the creation of the code, or within fourteen days of the creation of the refresh token (C141_partial, for all histories with failures and administration); expires_in is exactly the time for which the access token is accepted (C141_access). Violated for codes: they can be exchanged during a whole day, and every code can (C141_refuted, under the hypotheses of C134), while RFC 6749 recommends ten minutes at most."
  },
  {
   "property": "C142",
   "status": "proved",
   "theorems": [
    "Psion.Props.C142_answered",
    "Psion.Props.C142_code",
    "Psion.Props.C142_refresh",
    "Psion.Props.C142_session"
   ],
   "note": "strengthens C134 and C90: the operations of other requests can come between any two operations of the request, and can fail. For the code, the hypothesis is that nobody else presents it (another client can remove it, C130_refuted)."
  },
  {
   "property": "C143",
   "status": "partial",
   "theorems": [
    "Psion.Props.C143_partial",
    "Psion.Props.C143_refuted"
   ],
   "note": "C143_partial: a code that was exchanged is refused with the status 400 for ever, without effect, unless the same 64 characters are drawn once more. C143_refuted: the refresh token from the first use still works after the second use, as no request to the token endpoint removes a refresh token; so the recommended revocation does not take place."
  },
  {
   "property": "C144",
   "status": "partial",
   "theorems": [
    "Psion.Props.C144_token_partial",
    "Psion.Props.C144_authorize_partial",
    "Psion.Props.C144_consent_partial",
    "Psion.Props.C144_revoke",
    "Psion.Props.C144_web_partial",
    "Psion.Props.C144_piece",
    "Psion.Props.C144_omitted",
    "Psion.Props.C144_refuted"
   ],
   "note": "The theorems state that the programs are equal, so all executions and answers are the same. C144_web_partial is about requests to the example application as they are written (URL and body). What is missing: requests without any parameters are told so, but with a parameter that is not recognised the error has another description (C144_refuted)."
  },
  {
   "property": "C145",
   "status": "partial",
   "theorems": [
    "Psion.Props.C145_claims",
    "Psion.Props.C145_header",
    "Psion.Props.C145_key_partial",
    "Psion.Props.C145_use",
    "Psion.Props.C145_self_refuted",
    "Psion.Props.C145_keyset_refuted",
    "Psion.Props.C145_unknown_refuted",
    "Psion.Props.C145_oth_refuted"
   ],
   "note": "Claims, headers and the use of keys: proved in full. Missing for keys: a member self is refused with TypeError (C145_self_refuted). Key sets: every additional member and every key of an unknown type makes the whole set be refused (C145_keyset_refuted, C145_unknown_refuted). The member oth, which must not be ignored, is ignored (C145_oth_refuted)."
  },
  {
   "property": "C146",
   "status": "partial",
   "theorems": [
    "Psion.Props.C146_none_partial",
    "Psion.Props.C146_none_refuted",
    "Psion.Props.C146_login_refuted",
    "Psion.Props.C146_auth_time_refuted"
   ],
   "note": "C146_none_partial: a recognised user is never shown a page. What is missing is false: a user who is not recognised is sent to the login page whatever the client demands (C146_none_refuted); prompt, max_age and the other demands do not change how the request of a recognised user is served, the programs are equal (C146_login_refuted); no ID token has auth_time (C146_auth_time_refuted)."
  },
  {
   "property": "C147",
   "status": "proved",
   "theorems": [
    "Psion.Props.C147_token",
    "Psion.Props.C147_authorize",
    "Psion.Props.C147_revoke",
    "Psion.Props.C147_example_token",
    "Psion.Props.C147_example_authorize",
    "Psion.Props.C147_example_store",
    "Psion.Props.C147_web"
   ],
   "note": "Refused means answered with an error. A request that ends with another exception of Python (answered with 500) may have stored something before. Hooks are assumed not to use the store themselves (Benign)."
  },
  {
   "property": "C148",
   "status": "partial",
   "theorems": [
    "Psion.Props.C148_login_partial",
    "Psion.Props.C148_unasked_refuted",
    "Psion.Props.C148_refuted"
   ],
   "note": "Proved for the login; violated for authorizations and logouts, with a general statement (no form is looked at) and a history as a witness. Whether the token of the page is valid is an input of the model."
  },
  {
   "property": "C149",
   "status": "partial",
   "theorems": [
    "Psion.Props.C149_partial",
    "Psion.Props.C149_access_refuted"
   ],
   "note": "Proved for refresh tokens; violated for access tokens, for every access token of the application and every such request. The request is undisturbed; for revocations among other requests see C54."
  },
  {
   "property": "C150",
   "status": "partial",
   "theorems": [
    "Psion.Props.C150_partial",
    "Psion.Props.C150_refuted"
   ],
   "note": "Proved for users and clients with different ids; if the ids are the same, the two tokens are the same text. Nothing in the code compares the ids of the two tables; random UUIDs make the case improbable."
  }
 ]
}