{"id": "C01", "title": "base64url round trip", "statement": "For every byte string b, base64url_decode(base64url_encode(b)) returns exactly b, and base64url_encode(b) consists only of the characters A-Z a-z 0-9 - _ (no padding, no '.').", "quantifier": "all byte strings of every length", "why_tests_cant": "lengths mod 3/mod 4 and every byte value interact with the hand-rolled padding rule; tests sample a few lengths", "anchors": ["src/psion/webtools.py:base64url_decode", "src/psion/webtools.py:base64url_encode"]}
{"id": "C02", "title": "base64url decoding of tampered text", "statement": "Two different unpadded base64url texts never decode to the same bytes (an encoded signature has a single accepted spelling).", "quantifier": "all pairs of texts", "why_tests_cant": "a test cannot enumerate all alternative spellings accepted by the lenient decoder", "anchors": ["src/psion/webtools.py:base64url_decode"]}
{"id": "C03", "title": "integer codec round trip", "statement": "For every natural number n, b64_to_int(int_to_b64(n)) returns n, distinct numbers have distinct encodings, and negative numbers are rejected with ValueError.", "quantifier": "all integers", "why_tests_cant": "unbounded integers; boundary at powers of 256 and at zero", "anchors": ["src/psion/webtools.py:int_to_b64", "src/psion/webtools.py:b64_to_int"]}
{"id": "C04", "title": "text/bytes conversion", "statement": "to_string never raises on a byte string; to_string(to_bytes(s)) == s for every text s that UTF-8 can encode; to_bytes(to_string(b)) == b exactly when b is valid UTF-8 (otherwise the result is the base64url text of b).", "quantifier": "all byte strings and all texts", "why_tests_cant": "the set of invalid UTF-8 strings is infinite and the silent fallback makes two inputs collide", "anchors": ["src/psion/webtools.py:to_bytes", "src/psion/webtools.py:to_string"]}
{"id": "C05", "title": "query string round trip", "statement": "For every base URL and every dictionary of text parameters, decoding the query string produced by urlencode(url, **params) with urldecode returns exactly the parameters whose value is neither None nor empty, in order, with no injected or merged parameters.", "quantifier": "all parameter dictionaries, including values containing & = + % spaces and non-ASCII text", "why_tests_cant": "escaping must work for every character in every position", "anchors": ["src/psion/webtools.py:urlencode", "src/psion/webtools.py:urldecode"]}
{"id": "C06", "title": "redirect Location is header safe", "statement": "For every URL text, the Location header produced by RedirectResponse contains only printable ASCII characters with no space, CR or LF, and already-encoded query strings pass through unchanged.", "quantifier": "all URL texts", "why_tests_cant": "header injection must be excluded for every character sequence", "anchors": ["src/psion/oauth2/models/http.py:RedirectResponse"]}
{"id": "C07", "title": "FullDict holds no None", "statement": "A FullDict never exposes a None value: not after construction from any dictionary and keyword arguments, nor after any sequence of item assignments, and assignments of non-None values behave like a plain dictionary.", "quantifier": "all initial dictionaries and all sequences of assignments/updates", "why_tests_cant": "histories of operations are unbounded", "anchors": ["src/psion/webtools.py:FullDict"]}
{"id": "C08", "title": "Basic credentials round trip", "statement": "For every client id without ':' and every secret, the header 'Basic ' + base64(id:secret) is parsed back to exactly (id, secret), whatever the letter case of the scheme name; credentials that are not valid UTF-8 or have no ':' are never returned.", "quantifier": "all ids and secrets, all header values", "why_tests_cant": "unbounded strings; separators and non-UTF-8 payloads", "anchors": ["src/psion/webtools.py:get_basic_authorization"]}
{"id": "C09", "title": "Authorization header parsing never raises", "statement": "get_basic_authorization and get_bearer_authorization return a value (possibly None) and never raise, for every Authorization header value.", "quantifier": "all header values", "why_tests_cant": "malformed values are infinite in number", "anchors": ["src/psion/webtools.py:get_basic_authorization", "src/psion/webtools.py:get_bearer_authorization"]}
{"id": "C10", "title": "secret_token shape", "statement": "secret_token(n) with n>=1 always has exactly n characters from a 64 character URL-safe alphabet, maps different random choices to different tokens, and is unchanged by URL encoding.", "quantifier": "all sizes and all random outcomes", "why_tests_cant": "64^n outcomes", "anchors": ["src/psion/webtools.py:secret_token"]}
{"id": "C11", "title": "JSON round trip", "statement": "For every JSON value v (nulls, booleans, integers of any size, texts, nested lists and dictionaries with distinct keys), json_loads(json_dumps(v)) == v.", "quantifier": "all JSON values of any depth", "why_tests_cant": "unbounded nesting, every escape sequence", "anchors": ["src/psion/webtools.py:json_dumps", "src/psion/webtools.py:json_loads"]}
{"id": "C12", "title": "at_hash half hash", "statement": "create_half_hash(token, alg) for alg in *256/*384/*512 is the unpadded base64url text of exactly the left-most half of the SHA-256/384/512 digest of the UTF-8 token, and raises for an algorithm name without such a hash.", "quantifier": "all tokens and algorithm names", "why_tests_cant": "every token text", "anchors": ["src/psion/webtools.py:create_half_hash"]}
{"id": "C13", "title": "JWK private dump reloads to the same key", "statement": "For every JsonWebKey that can be built, JsonWebKey(key.dump(public=False)) succeeds and has the same key material and the same additional members (kid, use, alg, ...).", "quantifier": "all keys of type oct, EC and RSA with arbitrary extra members", "why_tests_cant": "key space is unbounded; leading zero bytes and zero coordinates matter", "anchors": ["src/psion/jose/jwk.py:JsonWebKey.dump", "src/psion/jose/jwa/jwk.py:ECKey.dump", "src/psion/jose/jwa/jwk.py:RSAKey.dump", "src/psion/jose/jwa/jwk.py:OCTKey.dump"]}
{"id": "C14", "title": "public dump discloses no secret", "statement": "key.dump(public=True) (and JsonWebKeySet.dump()) never contains private key material: for EC keys no d, for RSA keys no d, p, q, dp, dq, qi or oth, for oct keys no k.", "quantifier": "all keys", "why_tests_cant": "must hold for every key and every set of extra members", "anchors": ["src/psion/jose/jwk.py:JsonWebKey.dump", "src/psion/jose/jwa/jwk.py:OCTKey.dump"]}
{"id": "C15", "title": "key set ids are unique and lookup is exact", "statement": "A JsonWebKeySet can only be built from a non-empty list in which all keys have an id and no id is repeated; get_key(kid) then returns the one key with that id, or None iff no key has it.", "quantifier": "all lists of keys and all ids", "why_tests_cant": "all sizes and orders of key sets", "anchors": ["src/psion/jose/jwk.py:JsonWebKeySet"]}
{"id": "C16", "title": "parsing as public removes signing power", "statement": "JsonWebKey.parse(raw, alg, public=True) of an EC or RSA private key, without extra options, yields a key that refuses to sign and whose private dump is refused.", "quantifier": "all raw keys and key types", "why_tests_cant": "all keys", "anchors": ["src/psion/jose/jwk.py:JsonWebKey.parse"]}
{"id": "C17", "title": "oct key export/parse round trip", "statement": "For every symmetric key, OCTKey.parse(key.export()) is a key with the same secret.", "quantifier": "all secrets", "why_tests_cant": "all byte strings", "anchors": ["src/psion/jose/jwa/jwk.py:OCTKey.export", "src/psion/jose/jwa/jwk.py:OCTKey.parse"]}
{"id": "C18", "title": "public keys cannot sign", "statement": "An EC or RSA JsonWebKey built without d always raises InvalidKey on sign, and never produces a signature, with every JWS algorithm.", "quantifier": "all public keys, algorithms and data", "why_tests_cant": "all inputs", "anchors": ["src/psion/jose/jwa/jwk.py:ECKey.sign", "src/psion/jose/jwa/jwk.py:RSAKey.sign"]}
{"id": "C19", "title": "JWS round trip", "statement": "For every payload, every valid header and every private key acceptable for the header's algorithm, deserialize(serialize(key), matching key, alg) returns the same payload and the same header (without null members).", "quantifier": "all payloads, headers, keys, algorithms", "why_tests_cant": "unbounded payloads and headers, randomised signatures", "anchors": ["src/psion/jose/jws.py:JsonWebSignature.serialize", "src/psion/jose/jws.py:JsonWebSignature.deserialize"]}
{"id": "C20", "title": "expected algorithm is enforced", "statement": "If JsonWebSignature.deserialize(token, key, algorithm=a) returns with a non-empty and a != 'none', then the token's header algorithm is a and the key verified the token's signature over exactly the transmitted header.payload text.", "quantifier": "all byte strings as token, all keys, all a", "why_tests_cant": "adversarial tokens cannot be enumerated", "anchors": ["src/psion/jose/jws.py:JsonWebSignature.deserialize"]}
{"id": "C21", "title": "a key bound to an algorithm is only used with it", "statement": "If the key has a (non-empty) alg member, no token with a different header algorithm is ever accepted or produced with it, even when no expected algorithm is given.", "quantifier": "all tokens, headers and keys", "why_tests_cant": "adversarial tokens", "anchors": ["src/psion/jose/jws.py:_validate_key", "src/psion/jose/jwa/jws.py:JWSAlgorithm.validate_key"]}
{"id": "C22", "title": "no key type confusion", "statement": "No token is ever accepted or produced with an HS* algorithm unless the key is an oct key, with RS*/PS* unless it is an RSA key, with ES256/384/512 unless it is an EC key on P-256/P-384/P-521.", "quantifier": "all tokens, headers and keys", "why_tests_cant": "classic attack space (public key used as HMAC secret) is adversarial", "anchors": ["src/psion/jose/jwa/jws.py:_HMAC", "src/psion/jose/jwa/jws.py:_EC.validate_key", "src/psion/jose/jwa/jws.py:_RSA_PSS", "src/psion/jose/jwa/jws.py:_RSA_PKCS1v15"]}
{"id": "C23", "title": "unsigned tokens are not accepted by default", "statement": "deserialize with validation on and without an expected algorithm never accepts a token that the key did not sign.", "quantifier": "all tokens and keys", "why_tests_cant": "adversarial tokens", "anchors": ["src/psion/jose/jwa/jws.py:none", "src/psion/jose/jws.py:JsonWebSignature.deserialize"]}
{"id": "C24", "title": "JWS integrity", "statement": "If signatures cannot be forged (the key verifies only messages that were signed with it), then every header and payload returned by a verifying deserialize with an expected algorithm other than none equal the header and payload of a message that was serialized with that key.", "quantifier": "all tokens, all histories of signed messages", "why_tests_cant": "adversarial tokens and histories", "anchors": ["src/psion/jose/jws.py:JsonWebSignature.deserialize", "src/psion/jose/jws.py:JsonWebSignature.serialize"]}
{"id": "C25", "title": "malformed tokens raise documented errors", "statement": "JsonWebSignature.deserialize on arbitrary bytes either returns or raises one of the library's JoseError exceptions; a token without exactly two dots is always rejected with InvalidJWSSerialization.", "quantifier": "all byte strings", "why_tests_cant": "all byte strings", "anchors": ["src/psion/jose/jws.py:JsonWebSignature.deserialize"]}
{"id": "C26", "title": "header validation", "statement": "A JWS header is accepted only if alg is supported, kid/typ/cty if present are non-empty texts, and crit if present is a non-empty list of non-empty names that all occur in the header; critical extensions that the implementation does not understand are rejected.", "quantifier": "all header dictionaries", "why_tests_cant": "all dictionaries", "anchors": ["src/psion/jose/jws.py:JsonWebSignatureHeader"]}
{"id": "C27", "title": "key usage restrictions", "statement": "A key whose use is not sig, whose kid differs from the header's kid, or whose key_ops does not permit the operation performed (sign for serialize, verify for deserialize) is never used.", "quantifier": "all keys, headers and tokens", "why_tests_cant": "all combinations", "anchors": ["src/psion/jose/jws.py:_validate_key"]}
{"id": "C28", "title": "JWT round trip", "statement": "For every claims dictionary and header accepted by JsonWebToken and every suitable key, JsonWebToken.decode(token.encode(key), key, alg) evaluated while the claims are still in their validity window returns the same header and the same non-null claims.", "quantifier": "all claims, headers, keys and decode times in the window", "why_tests_cant": "unbounded claims", "anchors": ["src/psion/jose/jwt.py:JsonWebToken.encode", "src/psion/jose/jwt.py:JsonWebToken.decode"]}
{"id": "C29", "title": "expired tokens are rejected", "statement": "JsonWebToken.decode never returns a token whose exp claim is a number not greater than the current time.", "quantifier": "all tokens and times", "why_tests_cant": "all tokens and clock values, including boundary values", "anchors": ["src/psion/jose/jwt.py:JsonWebTokenClaims._validate_default_claims"]}
{"id": "C30", "title": "tokens from the future are rejected", "statement": "JsonWebToken.decode never returns a token whose integer nbf or iat claim is greater than the current time, and accepts the boundary where it equals the current time.", "quantifier": "all tokens and times", "why_tests_cant": "all clock values", "anchors": ["src/psion/jose/jwt.py:JsonWebTokenClaims._validate_default_claims"]}
{"id": "C31", "title": "registered claim types", "statement": "Every JsonWebTokenClaims object has iss, sub and jti absent or text, aud absent/falsy, text or list of texts, and exp/iat/nbf absent/falsy or a true integer (not a boolean).", "quantifier": "all claims dictionaries", "why_tests_cant": "all dictionaries", "anchors": ["src/psion/jose/jwt.py:JsonWebTokenClaims"]}
{"id": "C32", "title": "claim options are all enforced", "statement": "If decode(..., options=o) returns, every option in o is satisfied: essential claims are present, claims with an expected value have it, claims with expected values have one of them.", "quantifier": "all claims and all option dictionaries, in every order", "why_tests_cant": "combinations and orders of options are unbounded", "anchors": ["src/psion/jose/jwt.py:JsonWebTokenClaims._validate_claims"]}
{"id": "C33", "title": "validate=False only skips signature and options", "statement": "decode(token, validate=False) never consults the key and still enforces the default claim checks; its result never depends on the signature segment.", "quantifier": "all tokens", "why_tests_cant": "all tokens", "anchors": ["src/psion/jose/jwt.py:JsonWebToken.decode"]}
{"id": "C34", "title": "non UTF-8 or non object content never accepted", "statement": "A token whose decoded header or claims are not valid UTF-8, or are not a JSON object, is never accepted, even though to_string silently re-encodes invalid UTF-8.", "quantifier": "all byte strings", "why_tests_cant": "all byte strings", "anchors": ["src/psion/webtools.py:json_loads", "src/psion/webtools.py:to_string", "src/psion/jose/jws.py:JsonWebSignature.deserialize"]}
{"id": "C35", "title": "client authentication is sound", "statement": "Whenever client authentication returns a client, that client is the one stored under the id presented in the request, its registered authentication method is the one used and allowed by the caller, and either the request presented exactly its stored secret or the client has no secret and authenticated as a public client without presenting a secret.", "quantifier": "all requests, all adapters, all allowed-method lists", "why_tests_cant": "all requests and stores", "anchors": ["src/psion/oauth2/authentication/client_authentication.py:ClientAuthentication", "src/psion/oauth2/authentication/methods/client_secret_basic.py", "src/psion/oauth2/authentication/methods/client_secret_post.py", "src/psion/oauth2/authentication/methods/none.py"]}
{"id": "C36", "title": "one authentication method per request", "statement": "A request that uses more than one client authentication method is rejected with InvalidClient.", "quantifier": "all requests", "why_tests_cant": "all combinations", "anchors": ["src/psion/oauth2/authentication/client_authentication.py:ClientAuthentication"]}
{"id": "C37", "title": "client_credentials is for confidential clients and issues no refresh token", "statement": "Whatever the request and adapter, the client_credentials grant issues an access token only to a client authenticated with its secret, on its own behalf, and never creates or returns a refresh token.", "quantifier": "all requests and adapter behaviours", "why_tests_cant": "all requests", "anchors": ["src/psion/oauth2/grants/client_credentials.py:ClientCredentialsGrant", "src/psion/oauth2/endpoints/token.py:TokenEndpoint"]}
{"id": "C38", "title": "grant types are enforced", "statement": "The token endpoint creates a token only for an authenticated client registered for the requested grant type, which is one of the grants of the provider; refresh tokens are only created for clients registered for refresh_token.", "quantifier": "all requests and adapter behaviours, all crash points", "why_tests_cant": "all requests", "anchors": ["src/psion/oauth2/endpoints/token.py:TokenEndpoint"]}
{"id": "C39", "title": "PKCE is enforced", "statement": "An authorization code is only ever exchanged for a token by a request whose code_verifier matches the stored challenge under the stored method (equal for plain, base64url SHA-256 for S256), and codes are only stored with a 43..128 character challenge and a supported method.", "quantifier": "all requests, codes and adapter behaviours", "why_tests_cant": "all verifiers", "anchors": ["src/psion/oauth2/grants/authorization_code.py:AuthorizationCodeGrant._validate_authorization_code", "src/psion/oauth2/grants/authorization_code.py:S256_challenge"]}
{"id": "C40", "title": "codes are bound to client and redirect URI", "statement": "An access token is created from an authorization code only if the authenticated client is the one the code was stored for and the redirect_uri equals the stored one and is registered for the client; the token carries the stored user and scopes.", "quantifier": "all requests and adapter behaviours", "why_tests_cant": "all requests", "anchors": ["src/psion/oauth2/grants/authorization_code.py:AuthorizationCodeGrant.token"]}
{"id": "C41", "title": "expired codes and refresh tokens are refused", "statement": "No token is ever created from an authorization code or refresh token at or after its expiration time.", "quantifier": "all times and requests", "why_tests_cant": "clock boundary", "anchors": ["src/psion/oauth2/grants/authorization_code.py:AuthorizationCodeGrant._validate_authorization_code", "src/psion/oauth2/grants/refresh_token.py:RefreshTokenGrant._validate_refresh_token"]}
{"id": "C42", "title": "a presented code is always deleted", "statement": "Every token request that reaches the authorization_code grant with a code asks the adapter to delete that code as its last action, on success and on every failure, including exceptions raised by the adapter or by hooks.", "quantifier": "all requests, adapter responses and exceptions", "why_tests_cant": "all failure points", "anchors": ["src/psion/oauth2/grants/authorization_code.py:AuthorizationCodeGrant.token"]}
{"id": "C43", "title": "authorization codes are redeemed at most once", "statement": "Over every history of requests, each issued authorization code yields tokens for at most one token request (also when requests are interleaved or the process crashes).", "quantifier": "all histories, interleavings and crash points", "why_tests_cant": "schedules cannot be enumerated by tests", "anchors": ["src/psion/oauth2/grants/authorization_code.py:AuthorizationCodeGrant.token", "src/psion/oauth2/endpoints/token.py:TokenEndpoint"]}
{"id": "C44", "title": "the token endpoint always answers", "statement": "For every request the token endpoint returns a JSON response with status 200 or 400 and the headers Cache-Control: no-store and Pragma: no-cache, and never raises.", "quantifier": "all requests (adapter calls that do not fail)", "why_tests_cant": "all requests", "anchors": ["src/psion/oauth2/endpoints/token.py:TokenEndpoint"]}
{"id": "C45", "title": "the authorization endpoint always redirects", "statement": "For every request the authorization endpoint returns a 303 redirect and never raises.", "quantifier": "all requests (adapter calls that do not fail)", "why_tests_cant": "all requests", "anchors": ["src/psion/oauth2/endpoints/authorization.py:AuthorizationEndpoint"]}
{"id": "C46", "title": "no open redirect at the authorization endpoint", "statement": "The authorization endpoint only redirects to the provider's own error page or to a redirect URI registered for the client identified in the request; a code is only ever put in a redirect to a registered URI.", "quantifier": "all requests and adapter behaviours", "why_tests_cant": "adversarial requests", "anchors": ["src/psion/oauth2/endpoints/authorization.py:AuthorizationEndpoint"]}
{"id": "C47", "title": "state is echoed", "statement": "Every redirect back to the client (success or error) carries exactly the state parameter of the request, or none if the request had none.", "quantifier": "all requests", "why_tests_cant": "all state values and all error paths", "anchors": ["src/psion/oauth2/endpoints/authorization.py:AuthorizationEndpoint", "src/psion/oauth2/grants/authorization_code.py:AuthorizationCodeGrant.authorize"]}
{"id": "C48", "title": "the client can read the authorization response", "statement": "For every registered redirect URI, parsing the query of the Location header yields exactly the code and state.", "quantifier": "all redirect URIs, codes and states", "why_tests_cant": "all texts", "anchors": ["src/psion/oauth2/grants/authorization_code.py:AuthorizationCodeGrant._create_authorization_response", "src/psion/oauth2/models/http.py:RedirectResponse"]}
{"id": "C49", "title": "granted scopes are supported and allowed", "statement": "Every scope stored with an authorization code, and every scope explicitly requested through client_credentials, is supported by the provider and allowed for the client; the scopes handed to token creation never exceed what the client is allowed.", "quantifier": "all requests and adapter behaviours", "why_tests_cant": "all requests", "anchors": ["src/psion/oauth2/grants/base.py:BaseGrant._validate_requested_scopes"]}
{"id": "C50", "title": "refresh never broadens scope", "statement": "A refresh request creates tokens only for the client and user of the stored refresh token and only with scopes contained in the stored scopes (and in the requested ones when given).", "quantifier": "all requests, stored tokens and set orders", "why_tests_cant": "all requests", "anchors": ["src/psion/oauth2/grants/refresh_token.py:RefreshTokenGrant"]}
{"id": "C51", "title": "token response reports reduced scope", "statement": "When the scopes granted by a refresh differ from the scopes of the refresh token, the response has a scope member listing exactly the granted scopes; otherwise it has none.", "quantifier": "all requests and stored tokens", "why_tests_cant": "all requests", "anchors": ["src/psion/oauth2/grants/refresh_token.py:RefreshTokenGrant.token", "src/psion/oauth2/grants/base.py:BaseGrant._create_token"]}
{"id": "C52", "title": "no privilege escalation over histories", "statement": "In every history of interleaved, possibly crashed requests against an adapter that only returns what was stored, every access token created for a user was preceded by an authorization of the same client by that user whose scopes contain the token's scopes.", "quantifier": "all histories, interleavings, crash points", "why_tests_cant": "histories and schedules are unbounded", "anchors": ["src/psion/oauth2/endpoints/token.py:TokenEndpoint", "src/psion/oauth2/endpoints/authorization.py:AuthorizationEndpoint", "src/psion/oauth2/grants/refresh_token.py:RefreshTokenGrant"]}
{"id": "C53", "title": "revocation endpoint contract", "statement": "For every request the revocation endpoint returns a response (200, 400 or 401) and never raises; it asks the adapter to revoke exactly the submitted token on behalf of the authenticated client at most once, and never when authentication fails or the hint is unsupported.", "quantifier": "all requests and adapter behaviours", "why_tests_cant": "all requests", "anchors": ["src/psion/oauth2/endpoints/revocation.py:RevocationEndpoint"]}
{"id": "C54", "title": "revocation isolation", "statement": "With the example adapter, a revocation request never removes a refresh token of another client or another user session, and after it completes the revoked refresh token of the requesting client is unusable.", "quantifier": "all stores and requests", "why_tests_cant": "all stores", "anchors": ["example/adapter.py:Adapter.revoke_token", "src/psion/oauth2/endpoints/revocation.py:RevocationEndpoint"]}
{"id": "C55", "title": "hooks stay with their grant", "statement": "add_hook(G, hook) changes the behaviour of grants of class G of that provider only.", "quantifier": "all providers, grants and registrations", "why_tests_cant": "cross-object aliasing over histories of registrations", "anchors": ["src/psion/oauth2/providers/base.py:BaseProvider.add_hook", "src/psion/oauth2/grants/base.py:BaseGrant.__hooks__"]}
{"id": "C56", "title": "ID token iff openid scope", "statement": "With the OpenID Connect hook, the code exchange response contains an id_token if and only if the scope openid was granted, and never fails for lack of scopes.", "quantifier": "all scope lists", "why_tests_cant": "all scope texts", "anchors": ["src/psion/oidc/flows/authorization_code.py:AuthorizationCodeFlow.token_response"]}
{"id": "C57", "title": "ID token content", "statement": "The ID token issued verifies with the provider's key, names the provider as issuer, the client as audience, expires id_token_lifespan after issue and carries the at_hash of the access token returned with it.", "quantifier": "all tokens, clients, users, times", "why_tests_cant": "all inputs", "anchors": ["src/psion/oidc/flows/authorization_code.py:AuthorizationCodeFlow._generate_id_token"]}
{"id": "C58", "title": "nonce is echoed in the ID token", "statement": "If the authorization request carried a nonce, the ID token obtained with the resulting code carries the same nonce.", "quantifier": "all nonces", "why_tests_cant": "all nonces", "anchors": ["src/psion/oidc/flows/authorization_code.py:AuthorizationCodeFlow", "src/psion/oidc/claims.py:IDToken"]}
{"id": "C59", "title": "refresh tokens issued with a code carry the authorized scopes", "statement": "With the example adapter, the refresh token returned by a code exchange is stored with exactly the scopes of that code and is not already expired.", "quantifier": "all stores and histories", "why_tests_cant": "histories of previous grants", "anchors": ["example/adapter.py:Adapter.create_refresh_token"]}
{"id": "C60", "title": "request parameters", "statement": "For every request, form parameters override query parameters of the same name, no parameter has an empty value, and header names are matched case-insensitively.", "quantifier": "all requests", "why_tests_cant": "all bodies and queries", "anchors": ["src/psion/oauth2/models/http.py:Request"]}
{"id": "C61", "title": "consent data never leaks to unregistered URIs", "statement": "get_consent_data only returns data for an existing client with a registered redirect URI and response type, offers only scopes the client is allowed among those requested, and redirects errors only to the provider's error page or a registered URI.", "quantifier": "all requests and adapter behaviours", "why_tests_cant": "adversarial requests", "anchors": ["src/psion/oauth2/endpoints/authorization.py:AuthorizationEndpoint.get_consent_data"]}
{"id": "C62", "title": "error responses carry exactly the error", "statement": "Every error redirect or error body contains error, error_description, error_uri and state exactly when set, and no request-controlled text can add or alter another parameter.", "quantifier": "all errors and all texts", "why_tests_cant": "all texts", "anchors": ["src/psion/oauth2/exceptions.py:OAuth2Error.dump", "src/psion/oauth2/endpoints/authorization.py:AuthorizationEndpoint"]}
{"id": "C63", "title": "registering a code with the example adapter", "statement": "With the example adapter and the OpenID Connect hook, every valid authorization request (with or without nonce) stores a code and redirects back with it.", "quantifier": "all valid authorization requests", "why_tests_cant": "all requests", "anchors": ["example/adapter.py:Adapter.save_authorization_code"]}
{"id": "C64", "title": "codes are end to end bound to their authorization", "statement": "Over every interleaving of requests: an access token issued for an authorization code is preceded by an authorization request of the same user for the same client that stored exactly this code, with the redirect URI presented now, exactly the scopes of the token, and the code challenge that belongs to the verifier presented now.", "quantifier": "all interleavings of requests, all providers, adapters that return what was stored, and hooks that keep to the library's members", "why_tests_cant": "all interleavings of unboundedly many requests", "anchors": ["src/psion/oauth2/grants/authorization_code.py:AuthorizationCodeGrant.token", "src/psion/oauth2/grants/authorization_code.py:AuthorizationCodeGrant.authorize"]}
{"id": "C65", "title": "access tokens of the example application tell the truth", "statement": "Every access token created by the example adapter is accepted with its key at every time of the hour after its creation and at no other time, and names exactly the client, the owner and the scopes it was created for; in every history of requests, the user named in it has authorized the named client for the named scopes.", "quantifier": "all clients, owners, scopes, clock readings, and all histories of interleaved requests of the example application", "why_tests_cant": "unbounded histories and arbitrary texts in identifiers and scopes", "anchors": ["example/adapter.py:Adapter.create_access_token", "src/psion/jose/jwt.py:JsonWebToken"]}
{"id": "C66", "title": "bearer tokens are read exactly", "statement": "get_bearer_authorization returns a token if and only if the Authorization header consists of the word Bearer in any letter case, white space containing a space, and this token.", "quantifier": "all header dictionaries", "why_tests_cant": "all texts", "anchors": ["src/psion/webtools.py:get_bearer_authorization"]}
{"id": "C67", "title": "a loaded key is the one its members describe", "statement": "If JsonWebKey(data) succeeds, the key object has the type named by kty, its numbers are the base64url decodings of the members (missing RSA factors and exponents are computed from the others), and the cryptographic backend accepted the public numbers and, if d is there, the private ones.", "quantifier": "all member dictionaries, all backends", "why_tests_cant": "all texts and numbers", "anchors": ["src/psion/jose/jwk.py:JsonWebKey.__init__", "src/psion/jose/jwa/jwk.py:ECKey.__init__", "src/psion/jose/jwa/jwk.py:OCTKey.__init__", "src/psion/jose/jwa/jwk.py:RSAKey.__init__"]}
{"id": "C68", "title": "parse and generate keep the extra members", "statement": "Extra members passed to JsonWebKey.parse are members of the resulting key and, unless they name the type or a number of the key, do not change the key. JsonWebKey.generate makes the fresh key that was asked for, with its private part and the extra members; it refuses secrets of less than 32 bytes, moduli of less than 512 bits, unknown curves and unknown types.", "quantifier": "all raw keys, options, sizes and members", "why_tests_cant": "all inputs", "anchors": ["src/psion/jose/jwk.py:JsonWebKey.parse", "src/psion/jose/jwk.py:JsonWebKey.generate"]}
{"id": "C69", "title": "web requests are recognised only by live password sessions", "statement": "If the middleware of the example application recognises a request as one of a user, the session cookie names this user and a session that was created by a login with the password of this user, and no logout of this user was carried out since.", "quantifier": "all interleavings of all web requests, failing anywhere, all states of the database without sessions of the user", "why_tests_cant": "all interleavings and failures", "anchors": ["example/middlewares/authentication.py:SessionAuthBackend.authenticate", "example/views/auth.py:LoginView.post", "example/views/auth.py:LogoutView.get", "example/models/sessions.py"]}
{"id": "C70", "title": "a logout ends the access of clients", "statement": "After a logout of a user was carried out, no request is recognised by the old sessions, no refresh token from before is found, and no token is created for the user unless they log in again.", "quantifier": "all interleavings of all web requests, failing anywhere", "why_tests_cant": "all interleavings and failures", "anchors": ["example/views/auth.py:LogoutView.get", "example/views/connect.py"]}
{"id": "C71", "title": "every token goes back to a login with the password", "statement": "Every access or refresh token that the example application creates for a user goes back to an authorization request for the same client and at least these scopes, sent by a browser that was recognised by a live session of this user, which was created by a login with the password of this user.", "quantifier": "all interleavings of all web requests, failing anywhere", "why_tests_cant": "all interleavings and failures", "anchors": ["example/main.py", "example/views/auth.py", "example/views/connect.py", "example/middlewares/authentication.py", "src/psion/oauth2/endpoints/token.py:TokenEndpoint"]}
{"id": "C72", "title": "the login detour preserves the authorization request", "statement": "An authorization request of a browser that is not logged in is answered with a redirect to the login page of the same site; a successful login with the query string of this redirect is answered with a redirect to exactly the URL of the authorization request.", "quantifier": "all URLs, all executions", "why_tests_cant": "all texts", "anchors": ["example/views/connect.py:AuthorizationEndpoint.get", "example/views/auth.py:LoginView.post", "src/psion/webtools.py:urlencode"]}
{"id": "C73", "title": "the login redirects only within the site", "statement": "A successful login is answered with a redirect to a URL of the same site.", "quantifier": "all requests, all executions", "why_tests_cant": "all texts", "anchors": ["example/views/auth.py:LoginView.post"]}
{"id": "C74", "title": "the application passes on what the library answers", "statement": "Every POST request to the token or revocation endpoint and every request of a logged-in browser to the authorization endpoint of the example application is handed to the library as it arrived, with the recognised user, and is answered with status, body and headers of the response of the library.", "quantifier": "all requests, all executions", "why_tests_cant": "all inputs and answers", "anchors": ["src/psion/oauth2/providers/starlette.py:StarletteProvider.create_request", "src/psion/oauth2/providers/starlette.py:StarletteProvider.create_response", "example/views/connect.py"]}
{"id": "C75", "title": "a session cookie is given exactly for the password", "statement": "A request that ends with a session cookie is a login with the password of the user the cookie names, and the session was created by such a login. Conversely, a valid login form with the e-mail address and the password of a user logs this user in if the database works.", "quantifier": "all interleavings of all web requests; all states of the database", "why_tests_cant": "all interleavings and states", "anchors": ["example/views/auth.py:LoginView.post", "example/forms/login.py:LoginForm"]}
{"id": "C76", "title": "the token endpoint serves legitimate requests", "statement": "A client that is registered for a grant, identifies itself as it is registered, and presents what the grant asks for (a valid code with redirect URI and verifier, a valid refresh token, or only itself, with supported and allowed scopes) gets a token response with status 200 and an access token created for it, its user and these scopes, if the adapter works.", "quantifier": "all requests, clients, providers and executions", "why_tests_cant": "all inputs and answers", "anchors": ["src/psion/oauth2/endpoints/token.py:TokenEndpoint", "src/psion/oauth2/grants/authorization_code.py:AuthorizationCodeGrant.token", "src/psion/oauth2/grants/refresh_token.py:RefreshTokenGrant.token", "src/psion/oauth2/grants/client_credentials.py:ClientCredentialsGrant.token"]}
{"id": "C77", "title": "the authorization endpoint serves legitimate requests", "statement": "A request of a logged-in user that names a client, one of its redirect URIs, supported and allowed scopes and a well-formed code challenge is answered with a redirect to this URI that carries a stored code and the state; the consent page gets the client and the allowed ones of the requested scopes.", "quantifier": "all requests, clients, providers and executions", "why_tests_cant": "all inputs and answers", "anchors": ["src/psion/oauth2/endpoints/authorization.py:AuthorizationEndpoint", "src/psion/oauth2/grants/authorization_code.py:AuthorizationCodeGrant.authorize"]}
{"id": "C78", "title": "the revocation endpoint serves legitimate requests", "statement": "A client that identifies itself and sends a token with no hint or a supported hint gets the answer 200, and the adapter was told to revoke exactly this token with this hint for this client.", "quantifier": "all requests, clients, providers and executions", "why_tests_cant": "all inputs and answers", "anchors": ["src/psion/oauth2/endpoints/revocation.py:RevocationEndpoint"]}
{"id": "C79", "title": "exactly the right tokens are signed and accepted", "statement": "A JWS is serialized exactly if the members of the key permit its use under the header and the key makes a signature with the algorithm of the header, and is the three parts in base64url joined by dots. With validation on, a token is accepted with a header and payload exactly if its parts are the base64url texts of a valid header, of the payload and of a valid signature of the first two as transmitted, the algorithm is the expected one and the key may be used.", "quantifier": "all tokens, headers, payloads, keys, expected algorithms, random numbers", "why_tests_cant": "all texts and keys; tests show neither that all good tokens are accepted nor that all others are rejected", "anchors": ["src/psion/jose/jws.py:JsonWebSignature.serialize", "src/psion/jose/jws.py:JsonWebSignature.deserialize", "src/psion/jose/jwa/jws.py"]}
{"id": "C80", "title": "exactly the right claims are issued and accepted", "statement": "A JWT is issued exactly for non-empty claims of the right types that are valid at this time, under a valid header, if the key can sign. A token is decoded exactly if its signature is accepted and its payload is the JSON text of such claims that meet the options, where the check of the options ends at the first match inside a list.", "quantifier": "all claims, headers, keys, tokens, options, times", "why_tests_cant": "all texts; tests show neither that all good tokens are accepted nor that all others are rejected", "anchors": ["src/psion/jose/jwt.py:JsonWebTokenClaims", "src/psion/jose/jwt.py:JsonWebToken.encode", "src/psion/jose/jwt.py:JsonWebToken.decode"]}
{"id": "C81", "title": "legitimate OpenID Connect exchanges are served", "statement": "A legitimate code exchange for a code with an openid scope, with the hook of OpenID Connect, an adapter that gives a signing key and usable user information, and a running clock, is answered with an access token and an ID token. The ID token verifies with the key during its lifespan and carries issuer, client, times, the hash of this access token and the information about the user of the code.", "quantifier": "all requests, clients, codes, users, keys, providers and executions", "why_tests_cant": "all inputs, keys and answers", "anchors": ["src/psion/oidc/flows/authorization_code.py:AuthorizationCodeFlow", "src/psion/oauth2/grants/authorization_code.py:AuthorizationCodeGrant.token"]}
{"id": "C82", "title": "a request does its work once and in order", "statement": "The operations of a token request on stored codes and tokens are, however far it gets, the beginning of a fixed sequence for its grant: it looks up only the code or refresh token that it names, once, creates at most one access token and then at most one refresh token for the same client, user and scopes, and deletes the code last. An authorization request stores at most one code, for its user, and does nothing else to the store.", "quantifier": "all requests, providers, hook tables (of well behaved hooks), interrupted and complete executions", "why_tests_cant": "all interruptions and answers", "anchors": ["src/psion/oauth2/grants/authorization_code.py:AuthorizationCodeGrant", "src/psion/oauth2/grants/refresh_token.py:RefreshTokenGrant.token", "src/psion/oauth2/grants/client_credentials.py:ClientCredentialsGrant.token"]}
{"id": "C83", "title": "ID tokens are about the person who logged in, and say no more than permitted", "statement": "In the example application, an ID token returned by a code exchange is about the user whose authorization request stored the exchanged code, is addressed to the client that was authorized and belongs to the access token of the same response; about the user it contains exactly the claims that the authorized scopes permit. Through the web layer, that user has logged in with their password and their browser, in that session, has asked for this authorization.", "quantifier": "all histories of the example application from an empty set of codes, refresh tokens and sessions, all interleavings", "why_tests_cant": "all histories and all values of the user row", "anchors": ["example/adapter.py:Adapter.get_userinfo", "src/psion/oidc/flows/authorization_code.py:AuthorizationCodeFlow", "example/views/auth.py", "example/views/connect.py"]}
{"id": "C84", "title": "the example application serves its clients, from the authorization to the refresh token", "statement": "If nothing disturbs the requests, a valid authorization request with a nonce sends the browser to the client with a code; a legitimate exchange of this code within a day is answered with an access token that can be read for an hour, an ID token about the user if openid was authorized, and a stored refresh token if the client is registered for them, after which the code is gone; and the refresh token, if it is the first of the client for this user, is good for access tokens with the same scopes for two weeks.", "quantifier": "all states of the database, users, clients, requests, clock readings and random numbers of undisturbed requests", "why_tests_cant": "all states and inputs", "anchors": ["example/adapter.py:Adapter", "example/models/tokens.py", "src/psion/oauth2/endpoints/token.py:TokenEndpoint", "src/psion/oauth2/grants/authorization_code.py:AuthorizationCodeGrant", "src/psion/oauth2/grants/refresh_token.py:RefreshTokenGrant.token", "src/psion/oidc/flows/authorization_code.py:AuthorizationCodeFlow"]}
{"id": "C85", "title": "A published key set is the same key set", "statement": "The public dump of a key set whose keys were loaded from JSON-representable dictionaries (no number zero), written as JSON text, parsed and loaded again gives a key set with the public part of every key, in the same order, with all members that are not key material unchanged (kid, use, alg, key_ops). get_key finds a key in the loaded set exactly for the ids of the original set, and a token signed with a key of the original set is accepted with the key found for its id in the published set. If all keys have a private part, the private dump reloads to the same keys.", "quantifier": "For all key sets (any number of keys of the types oct, EC and RSA), all headers, payloads and signature seeds.", "why_tests_cant": "Key sets vary in size, types and additional members; a test serves one set. The claim composes the dump, the JSON printer and parser, the loader, the uniqueness check and signature verification.", "anchors": ["src/psion/jose/jwk.py:206-288", "src/psion/jose/jwk.py:116-153", "src/psion/jose/jwa/jwk.py", "src/psion/jose/jws.py"]}
{"id": "C86", "title": "JSON input is read exactly as the grammar says", "statement": "json_loads returns a value for a text exactly if the text is a JSON text for this value according to the grammar of RFC 8259 with the extensions of CPython (NaN, Infinity, -Infinity, lone surrogate escapes), and raises JSONDecodeError for every other text. A text has at most one value. An object that was read has each name once, with the value of the last member of that name. json_dumps writes a text for the value it is given. If no number is read as NaN, what was read is unchanged by writing and reading it again.", "quantifier": "For all texts and all values.", "why_tests_cant": "The set of texts is infinite, and the interesting ones (escapes, surrogates, leading zeros, trailing commas, repeated names) combine freely; every token header, claim set and key passes through this function.", "anchors": ["src/psion/webtools.py:162-192"]}
{"id": "C87", "title": "Token errors name the reason for which the request was refused", "statement": "Every error response of the token endpoint that was not raised by the application (adapter, hooks, clients) names a reason that really applies to the request and to what the adapter answered, with the value of `error` that RFC 6749 section 5.2 assigns to this reason: invalid_request only for a malformed request, invalid_client only if client authentication failed, invalid_grant only for a bad code or refresh token, unauthorized_client, unsupported_grant_type and invalid_scope likewise; and it is marked as application/json.", "quantifier": "for all environments, providers, requests, benign hooks and executions of the token endpoint", "why_tests_cant": "There are 23 reasons, spread over the endpoint, the authentication methods and three grants, and each combination of request and stored objects may trigger several of them; a test checks one status code for one request and not that an error is only reported when its reason applies.", "anchors": ["src/psion/oauth2/endpoints/token.py:65-109", "src/psion/oauth2/grants/authorization_code.py:279-468", "src/psion/oauth2/grants/refresh_token.py:27-277", "src/psion/oauth2/grants/base.py:128-161", "src/psion/oauth2/exceptions.py:6-117"]}
{"id": "C88", "title": "Authorization and revocation errors name the reason and go to the right place", "statement": "Every redirect of the authorization endpoint carries a stored code, reports an error raised by the application, or names a reason that really applies to the execution with the value of `error` that the standards assign to it; it goes to the error page of the provider if the reason concerns the client, the redirect URI or a missing required parameter, and to the redirect URI of the request otherwise. The same holds for the redirects of get_consent_data. Every error response of the revocation endpoint not raised by the adapter is a 401 with invalid_client because the client was not authenticated, or a 400 with unsupported_token_type because of an unknown hint.", "quantifier": "for all environments, providers, requests, benign hooks and executions of the three endpoints", "why_tests_cant": "The reasons depend on the request, the client found and the hooks, and the place to which an error is sent depends on the reason; a test exercises single requests and cannot exclude that some combination reports a reason that does not apply or sends it to the wrong place.", "anchors": ["src/psion/oauth2/endpoints/authorization.py:75-256", "src/psion/oauth2/endpoints/revocation.py:105-126", "src/psion/oauth2/grants/authorization_code.py:97-194"]}
{"id": "C89", "title": "Request parameters are read exactly as the format says", "statement": "A parameter of a request has a value exactly if the body, read as UTF-8, gives it this value in the format application/x-www-form-urlencoded, or if the body does not give it a value and the query of the URL does: fields are separated by ampersands, of several fields with one name the last one counts, fields without equals sign or without value do not count, a plus sign stands for a space, a percent sign with two hexadecimal digits stands for a byte and any other one for itself, and bytes that are not UTF-8 are replaced according to the Unicode standard. The query is what stands between the first question mark and the fragment. A body that is not UTF-8 has no parameters.", "quantifier": "For all methods, URLs, headers, bodies and parameters.", "why_tests_cant": "The codes, secrets and redirect URIs that the endpoints compare all pass through this decoding; the texts are arbitrary, and the interesting ones (truncated escapes, ill-formed UTF-8, repeated fields) combine freely.", "anchors": ["src/psion/webtools.py:225-236", "src/psion/oauth2/models/http.py:47-82"]}
{"id": "C90", "title": "The example application answers every request", "statement": "While the database works and nobody administers it, every request to the example application that takes less than an hour is answered: no exception escapes to the framework, whatever the request is and whatever other requests are going on at the same time.", "quantifier": "For all requests, any number of simultaneous requests, all interleavings of their operations, all random numbers that are new, and all databases to begin with whose texts can be encoded, whose codes have scopes and whose refresh tokens belong to a user.", "why_tests_cant": "Whether an operation fails depends on what earlier requests left in the database (a code with no scopes, a refresh token without user, a text that cannot be encoded) and on everything that other requests do in between; tests send single requests to a prepared database.", "anchors": ["example/adapter.py:Adapter", "example/models/tokens.py", "example/views/connect.py", "example/views/auth.py", "src/psion/oauth2/endpoints/token.py", "src/psion/oauth2/endpoints/authorization.py", "src/psion/oauth2/endpoints/revocation.py", "src/psion/oidc/flows/authorization_code.py"]}
{"id": "C91", "title": "ID token claims are accepted exactly if they are valid", "statement": "IDToken(claims, options) succeeds exactly if the claims are valid claims of a JWT at this time and meet the options, the time of the authentication (auth_time) is an integer if it is present, and the nonce is the one that the options demand.", "quantifier": "For all claim sets, options and times.", "why_tests_cant": "Claims and options are arbitrary dictionaries; a test that only looks at well formed tokens does not notice that a check reads another claim than the one it is about.", "anchors": ["src/psion/oidc/claims.py:5-62", "src/psion/jose/jwt.py"]}
{"id": "C92", "title": "A raw key is parsed to the key that it is", "statement": "JsonWebKey.parse gives a key exactly if the content (of the file, or the text itself) is a secret in base64 without the mark of an asymmetric key, bytes, or a PEM block that the primitives load as a key of the type asked for, on one of the supported curves; the key has the numbers that were loaded, all of them or, if a public key is asked for, the public ones. A public key is refused where a private one is asked for.", "quantifier": "For all raw texts, file systems, types, formats, passwords, extra members that do not name numbers of a key, and all answers of the primitives that are valid numbers.", "why_tests_cant": "A test loads some sample files; exchanged coordinates, an accepted public key or a lost private part only show on particular files.", "anchors": ["src/psion/jose/jwk.py:82-133", "src/psion/jose/jwa/jwk.py:279-348", "src/psion/jose/jwa/jwk.py:487-542", "src/psion/jose/jwa/jwk.py:742-811"]}
{"id": "C93", "title": "No file of an asymmetric key is taken for a secret", "statement": "JsonWebKey.parse for the type oct refuses every text that contains a PEM block of an asymmetric key or a certificate, or an SSH key: whoever knows a public key must not know a secret.", "quantifier": "For all texts, file systems, formats and extra members.", "why_tests_cant": "The texts around the marks are arbitrary, and the base64 decoder skips what it does not know, so that the outcome is not obvious from samples.", "anchors": ["src/psion/jose/jwa/jwk.py:487-542"]}
{"id": "C94", "title": "An exported asymmetric key is read again as the same key", "statement": "The text that export gives for an EC or RSA key, given to JsonWebKey.parse as it is, is read as the same key; the text of its public part is read as the public key. Keys without private part are only exported as public keys.", "quantifier": "For all valid keys, curves, file systems and PEM writers whose texts the primitives read.", "why_tests_cant": "Whether a text is read depends on letters that occur in its base64 body by chance (a slash, the word PRIVATE), which a test with a few sample keys does not see.", "anchors": ["src/psion/jose/jwa/jwk.py:62-68", "src/psion/jose/jwa/jwk.py:378-402", "src/psion/jose/jwa/jwk.py:849-873", "src/psion/jose/jwk.py:82-133", "src/psion/jose/jwk.py:155-166"]}
{"id": "C95", "title": "Bytes given as a secret are the secret", "statement": "JsonWebKey.parse for the type oct and the format der, given the bytes of a secret, gives the key with exactly these bytes.", "quantifier": "For all secrets and file systems.", "why_tests_cant": "Only particular bytes (a zero byte, the name of an existing file) are treated differently; a test with a readable sample secret does not contain them.", "anchors": ["src/psion/jose/jwa/jwk.py:62-68", "src/psion/jose/jwa/jwk.py:487-542"]}
{"id": "C96", "title": "Refused Basic credentials are answered with a challenge", "statement": "If a client tries to authenticate with the Authorization header and fails, the token endpoint and the revocation endpoint answer with status 401, the error invalid_client and the header WWW-Authenticate: Basic (RFC 6749, section 5.2). No other response has this header.", "quantifier": "For all requests, providers, hooks, clients and executions of both endpoints.", "why_tests_cant": "Whether the credentials are refused depends on the answers of the adapter and on which of the methods looks at the request first; tests of single methods do not see the response.", "anchors": ["src/psion/oauth2/authentication/methods/client_secret_basic.py:25-46", "src/psion/oauth2/authentication/client_authentication.py:34-65", "src/psion/oauth2/endpoints/token.py:65-82", "src/psion/oauth2/endpoints/revocation.py:105-126"]}
{"id": "C97", "title": "The error page shows the error, as text", "statement": "The error page of the example application has the same markup for every query string and shows the parameters error and error_description as they are. A user whose authorization request is refused because of the client, the redirect URI or the parameters is sent to this page and sees there the error code for that reason and a description.", "quantifier": "For all query strings, and for all authorization requests, hooks and executions of the endpoint.", "why_tests_cant": "The parameters pass through two encodings and an escaping; texts with markup, ampersands or percent signs are the interesting ones, and there is no test of the example application.", "anchors": ["example/views/connect.py:26-39", "example/templates/error.j2:1-7", "example/templates/base.j2:1-21", "src/psion/oauth2/endpoints/authorization.py:96-98"]}
{"id": "C98", "title": "The login form keeps the way back", "statement": "The form on a login page is sent to the URL under which the page was shown, so that after any number of failed attempts the successful login leads to exactly the authorization request with which the user came.", "quantifier": "For all URLs, contents of the form fields, sequences of attempts and executions.", "why_tests_cant": "The URL contains an encoded URL, is escaped into an attribute and read again by the user agent at every attempt; a test follows one chain with one URL.", "anchors": ["example/views/auth.py:21-78", "example/templates/login.j2:11", "example/views/connect.py:16-19"]}
{"id": "C99", "title": "Signatures are those of RFC 7518", "statement": "The library accepts a token signed with a suitable key exactly if its signature is one that RFC 7518 prescribes for the algorithm, and makes only such signatures.", "quantifier": "For all keys, headers, payloads, tokens and all twelve algorithms.", "why_tests_cant": "The tests verify tokens that the library signed itself, so both sides can share the same deviation from the standard; tokens of other implementations are needed to see it.", "anchors": ["src/psion/jose/jwa/jws.py:101-262", "src/psion/jose/jwa/jwk.py:404-442", "src/psion/jose/jwa/jwk.py:576-615", "src/psion/jose/jwa/jwk.py:875-948"]}
{"id": "C100", "title": "Keys are strong enough for their algorithm", "statement": "A key with which the library signs or verifies has the size that RFC 7518 demands for the algorithm, and the keys that it generates have it.", "quantifier": "For all secrets, moduli, sizes and algorithms.", "why_tests_cant": "A test can check single sizes; that no shorter key passes on any path (loading, generating, signing, verifying) is a statement about all keys.", "anchors": ["src/psion/jose/jwa/jwk.py:463-485", "src/psion/jose/jwa/jwk.py:709-740", "src/psion/jose/jwa/jws.py:28-50"]}
{"id": "C101", "title": "The numbers of a key are written as RFC 7518 prescribes", "statement": "In an exported JWK every number is the base64url text of as many octets as RFC 7518 wants: the size of the coordinates for EC, the fewest octets for RSA. Keys written in this way are read as the keys they are.", "quantifier": "For all keys and all numbers in them.", "why_tests_cant": "Only one coordinate in 256 begins with a zero octet; a test with a fixed or random key almost never sees one.", "anchors": ["src/psion/webtools.py:138-159", "src/psion/jose/jwa/jwk.py:229-248", "src/psion/jose/jwa/jwk.py:350-376", "src/psion/jose/jwa/jwk.py:813-847"]}
{"id": "C102", "title": "Answers depend on a client secret only through the comparison", "statement": "Replace the secrets that the adapter knows by others such that every secret a request presents is still right or still wrong: every run of the authorization, token and revocation endpoints is possible as before with the same response, the same operations and the same errors. So no answer tells more about a stored secret than whether the presented one is equal to it.", "quantifier": "For all replacements of secrets, all requests, providers, hooks that do not look at the secret, and all executions, including those with errors of the adapter.", "why_tests_cant": "The claim compares two runs on different databases for every input; a test sees one run and cannot see what an answer would have been with another secret.", "anchors": ["src/psion/oauth2/authentication/methods/client_secret_basic.py:25-46", "src/psion/oauth2/authentication/methods/client_secret_post.py:31-52", "src/psion/oauth2/authentication/methods/none.py:29-50", "src/psion/oauth2/authentication/client_authentication.py:34-65"]}
{"id": "C103", "title": "The example application keeps stored secrets and passwords to itself", "statement": "Take any history of the example application, with requests interleaved in any way and with any failures, and replace the secrets of the clients and the passwords of the users in the database by others such that each presented one is still right or still wrong. The same history is possible, with the same outcome of every request, and the database at the end is the same except for the replaced values.", "quantifier": "For all histories, interleavings, databases, requests and replacements.", "why_tests_cant": "The claim compares two whole histories; a test cannot vary the stored values for every interleaving of requests.", "anchors": ["example/views/auth.py:37-78", "src/psion/oauth2/authentication/methods/client_secret_basic.py:25-46", "example/adapter.py:26-30"]}
{"id": "C104", "title": "A failed authentication does not tell what was wrong", "statement": "A refused authentication is answered in the same way whether the client or user does not exist, has another secret or password, or is registered for another method.", "quantifier": "For all requests, providers, hooks, answers of the adapter and executions.", "why_tests_cant": "The two answers have to be compared byte by byte for every way to fail, method and endpoint; tests check that each single failure is refused.", "anchors": ["example/views/auth.py:52-72", "src/psion/oauth2/authentication/methods/client_secret_basic.py:33-46", "src/psion/oauth2/authentication/methods/client_secret_post.py:40-52", "src/psion/oauth2/authentication/methods/none.py:38-50"]}
{"id": "C105", "title": "A client gets its tokens through the browser", "statement": "A user who is not logged in and opens a valid authorization request in their browser is sent to the login page, after the login with their password back to exactly that request, and from there to the client with a code and the state; the client gets its tokens for the code within a day, and, if it is registered for refresh tokens, a new access token for the refresh token within two weeks, with the scopes that were granted.", "quantifier": "For all databases, clients, users, valid requests, forms, URLs and draws of the example application, in executions in which these requests are not disturbed.", "why_tests_cant": "The flow crosses five requests, two URL encodings of one URL inside another, the session and the database; a test runs it once with one client and one user.", "anchors": ["example/views/connect.py:15-53", "example/views/auth.py:20-93", "example/middlewares/authentication.py", "example/adapter.py:Adapter", "src/psion/oauth2/grants/authorization_code.py:AuthorizationCodeGrant", "src/psion/oauth2/grants/refresh_token.py:RefreshTokenGrant.token"]}
{"id": "C106", "title": "Basic credentials are read as RFC 6749 prescribes", "statement": "From an Authorization header in which a client has written its id and secret as RFC 6749, section 2.3.1, prescribes (each encoded as in a form, then joined and encoded as Basic credentials), the library reads that id and that secret.", "quantifier": "For all client ids, secrets and ways to encode them.", "why_tests_cant": "Ids and secrets of letters and digits are encoded as themselves, and those are what tests use.", "anchors": ["src/psion/webtools.py:239-273", "src/psion/oauth2/authentication/methods/client_secret_basic.py:25-46"]}
{"id": "C107", "title": "Nothing secret is taken from the URL", "statement": "Client secrets, codes, refresh tokens and tokens to be revoked are only accepted in the headers or the body of a request, never in its URL (RFC 6749, sections 2.3.1 and 3.2).", "quantifier": "For all requests that differ in the URL only.", "why_tests_cant": "A test sends one request with a parameter in the URL; that the URL never has any influence compares all pairs of requests.", "anchors": ["src/psion/oauth2/models/http.py:58-80", "src/psion/oauth2/authentication/client_authentication.py:34-65", "src/psion/oauth2/endpoints/token.py:60-110", "src/psion/oauth2/endpoints/revocation.py:60-126"]}
{"id": "C108", "title": "Repeated parameters are refused", "statement": "A request in which a parameter occurs more than once is refused (RFC 6749, sections 3.1 and 3.2).", "quantifier": "For all query strings and bodies.", "why_tests_cant": "The parameters are gone into a dictionary before any code that tests call sees them.", "anchors": ["src/psion/webtools.py:225-236", "src/psion/oauth2/models/http.py:58-80"]}
{"id": "C109", "title": "Errors are written with the permitted characters", "statement": "The values of error and error_description in an answer consist of the characters that RFC 6749, section 5.2, permits: printable ASCII without quotation mark and backslash.", "quantifier": "For all requests, providers and executions.", "why_tests_cant": "Descriptions contain texts of the request; a test uses harmless ones.", "anchors": ["src/psion/oauth2/exceptions.py:47-60", "src/psion/oauth2/endpoints/token.py:84-110"]}
{"id": "C110", "title": "Code verifiers and challenges are as RFC 7636 prescribes", "statement": "A code is only stored with a challenge, and only exchanged for a verifier, of 43 to 128 letters, digits and -._~ (RFC 7636, sections 4.1 and 4.2).", "quantifier": "For all requests, codes and executions.", "why_tests_cant": "Only challenges and verifiers that are wrong in this respect show it, and no test has one.", "anchors": ["src/psion/oauth2/grants/authorization_code.py:160-180", "src/psion/oauth2/grants/authorization_code.py:400-470"]}
{"id": "C111", "title": "Every URL of the example application answers the methods it is meant for", "statement": "A request with a method that its URL is not meant for is refused and nothing is done. Otherwise the home page and the error page are shown to everyone, the login page to users who are not logged in while others are sent to the home page, a logout leads to the login page, and posting to the logout page leads to it.", "quantifier": "For all requests, sessions, users and executions.", "why_tests_cant": "There are no tests of the example application; the table of URLs, methods and users has many cells and few of them are visited by hand.", "anchors": ["example/main.py:22-27", "example/routes/auth.py:6-9", "example/routes/connect.py:11-16", "example/views/auth.py:21-111", "example/views/connect.py:15-53"]}
{"id": "C112", "title": "Requests that only read change nothing", "statement": "A request to the example application with the method GET or HEAD changes nothing in the database, except that an authorization request may store a code.", "quantifier": "For all requests, users and executions.", "why_tests_cant": "That something is not done can only be tested for single requests.", "anchors": ["example/views/auth.py:96-111", "example/views/connect.py:15-39"]}
{"id": "C113", "title": "Tokens signed with secrets and RSA keys are accepted, with the algorithms themselves", "statement": "With HMAC and the RSA signatures of RFC 8017 over SHA-2 as they are defined in the standards, every token that the library makes with a secret or an RSA key with two primes is accepted with the key loaded from its public dump and gives back the header and the payload; under HMAC and RSASSA-PKCS1-v1_5 the signature is the one of RFC 7518.", "quantifier": "For all secrets, RSA keys with two primes, headers, payloads and random salts.", "why_tests_cant": "A test signs with a few keys; that it works for all rests on number theory.", "anchors": ["src/psion/jose/jwa/jwk.py:576-615", "src/psion/jose/jwa/jwk.py:875-945", "src/psion/jose/jwa/jws.py:102-240", "src/psion/jose/jws.py:231-330"]}
{"id": "C114", "title": "RSA keys sign under every RSA algorithm", "statement": "Every RSA key with a private part that the library loads or generates makes a signature of every message under each of RS256, RS384, RS512, PS256, PS384 and PS512.", "quantifier": "For all RSA keys, messages and random salts.", "why_tests_cant": "The tests have keys of one size.", "anchors": ["src/psion/jose/jwa/jwk.py:709-745", "src/psion/jose/jwa/jwk.py:875-905"]}
{"id": "C115", "title": "The refusal of a header says what is wrong", "statement": "A JWS header that is not accepted is refused with UnsupportedAlgorithm if its algorithm is present and not supported, and otherwise with InvalidJWSHeader.", "quantifier": "For all values.", "why_tests_cant": "The type of the error is the interface to the caller; the tests look at a few headers with a single fault each.", "anchors": ["src/psion/jose/jws.py:73-195"]}
{"id": "C116", "title": "The refusal of claims says what is wrong", "statement": "Claims that are over are refused with ExpiredToken, also those of a signed token, claims that are not valid yet with NotYetValidToken, all other claims that are not accepted with InvalidJWTClaim.", "quantifier": "For all claims, options and times.", "why_tests_cant": "Which error is raised depends on the order of the checks if several claims are wrong, and tests have one fault at a time.", "anchors": ["src/psion/jose/jwt.py:28-130"]}
{"id": "C117", "title": "The refusal of a token says what is wrong", "statement": "A token of three parts with a valid header is refused with InvalidJWSSerialization exactly if its algorithm is not the expected one, otherwise with InvalidKey exactly if the key may not be used for it, otherwise with InvalidSignature exactly if its signature is not valid. Signing with a key that may not be used, or that has no private part, is refused with InvalidKey.", "quantifier": "For all tokens, keys and expected algorithms.", "why_tests_cant": "A caller that treats one of these errors in a special way relies on exactly these conditions; tests have one token for each error.", "anchors": ["src/psion/jose/jws.py:231-360"]}
{"id": "C118", "title": "The refusal of a key says what is wrong", "statement": "A value that describes no key is refused with UnsupportedAlgorithm if its type is not supported, and otherwise with InvalidKey.", "quantifier": "For all values.", "why_tests_cant": "The faults of keys are many: missing members, wrong types, wrong encodings, wrong numbers.", "anchors": ["src/psion/jose/jwk.py:37-45", "src/psion/jose/jwa/jwk.py:229-248", "src/psion/jose/jwa/jwk.py:463-464", "src/psion/jose/jwa/jwk.py:654-707"]}
{"id": "C119", "title": "The refusal of a raw key says what is wrong", "statement": "A raw key that is not accepted is refused with UnsupportedAlgorithm if the type of key is not supported, otherwise with UnsupportedParsingMethod if the format is not supported for it, and otherwise with InvalidKey.", "quantifier": "For all raw keys, files, types, formats and passwords.", "why_tests_cant": "Whether there is a file, what the PEM reader says and what is asked for combine to many cases; tests have one of each error.", "anchors": ["src/psion/jose/jwk.py:82-133", "src/psion/jose/jwa/jwk.py:279-348", "src/psion/jose/jwa/jwk.py:487-542", "src/psion/jose/jwa/jwk.py:742-811"]}
{"id": "C120", "title": "EC keys and ECDSA signatures are those of FIPS 186-4", "statement": "Every EC key that is loaded is a point of its curve, with the private number that belongs to it, and to every such point there is exactly one private number. Under ES256, ES384 and ES512 exactly the tokens whose signature is valid by FIPS 186-4 are accepted, and the signature of every token that is made is valid, so that it is accepted with the public key.", "quantifier": "For all EC keys, messages, tokens and random numbers, over the elliptic curve groups themselves.", "why_tests_cant": "A test signs with one key on one curve; that it works for all rests on the theory of elliptic curves and on the primality of numbers of up to 521 bits.", "anchors": ["src/psion/jose/jwa/jwk.py:191-275", "src/psion/jose/jwa/jwk.py:404-442", "src/psion/jose/jwa/jws.py:176-225", "src/psion/jose/jws.py:231-330"]}
{"id": "C121", "title": "An accepted token cannot be rewritten without the key", "statement": "Of two accepted tokens with the same header and payload parts under the same key, both have the same signature: nobody can make a second accepted token from one that they have seen.", "quantifier": "For all keys, algorithms and accepted tokens.", "why_tests_cant": "That no second text is accepted is a statement about all texts; tests try a few changed ones.", "anchors": ["src/psion/jose/jws.py:269-330", "src/psion/webtools.py:84-97", "src/psion/jose/jwa/jwk.py:423-442"]}
{"id": "C122", "title": "A client of the example application gets access tokens for itself", "statement": "A client that is registered for client credentials, identifies itself with its secret and names scopes of its own that are supported, or none, is answered with an access token that can be read for an hour, names the client as client and as owner and has exactly these scopes, or all scopes of the client; there is no refresh token, and nothing is stored.", "quantifier": "For all databases, clients, requests, clock readings and draws of the example application, in executions in which the request is not disturbed.", "why_tests_cant": "A test asks with one client; the answer depends on the database, the registration, the scopes and the way the client identifies itself.", "anchors": ["src/psion/oauth2/grants/client_credentials.py:53-80", "example/adapter.py:54-83", "example/views/connect.py"]}
{"id": "C123", "title": "Scopes are read and written as RFC 6749 prescribes", "statement": "The value of the parameter scope is one or more scopes with one space between two of them, each made of the characters allowed by RFC 6749 section 3.3; requests with other values are refused, the scopes of a request are exactly these, in their order, and in an answer with an access token the member scope is a value of this form that lists exactly the scopes of the token, or it is left out because there are none, because a client asked for exactly these for itself, or because the refresh token has exactly these.", "quantifier": "For all requests, providers, adapters, hooks that keep to the reserved members, and executions.", "why_tests_cant": "A test uses a few well-formed lists of scopes; the claim is about every text and every combination of grant, stored scopes and requested scopes.", "anchors": ["src/psion/oauth2/grants/base.py:BaseGrant._validate_requested_scopes", "src/psion/oauth2/grants/base.py:BaseGrant._create_token", "src/psion/oauth2/grants/refresh_token.py", "src/psion/oauth2/grants/client_credentials.py"]}
{"id": "C124", "title": "Message authentication codes and digests are those of RFC 2104 and FIPS 180-4", "statement": "Under HS256, HS384 and HS512 exactly the tokens are accepted whose third part is the message authentication code of RFC 2104 of the first two parts under the secret, with the hash function of FIPS 180-4; every token that is made has this code; and a code with a challenge of the method S256 is redeemed only with a verifier whose digest by FIPS 180-4 is the challenge.", "quantifier": "For all secrets, messages, tokens, verifiers and challenges.", "why_tests_cant": "A test compares a few digests; hash functions differ from wrong ones on messages of particular lengths and on secrets longer than a block.", "anchors": ["src/psion/jose/jwa/jwk.py:580-625", "src/psion/jose/jwa/jws.py:90-150", "src/psion/jose/jws.py:231-330", "src/psion/oauth2/grants/authorization_code.py:20-30"]}
{"id": "C125", "title": "RSA signatures are those of RFC 8017", "statement": "Under RS256, RS384 and RS512 exactly the tokens are accepted whose third part is a signature of RSASSA-PKCS1-v1_5 of the first two parts under the public key, under PS256, PS384 and PS512 exactly those with a signature of RSASSA-PSS whose salt is the longest that fits; every token that is made with a private key of two primes has such a signature.", "quantifier": "For all RSA keys, messages, tokens and salts.", "why_tests_cant": "A test signs with one key; padding errors show only for keys of particular sizes, and forged paddings are accepted by wrong programs that pass every test with genuine signatures.", "anchors": ["src/psion/jose/jwa/jwk.py:875-945", "src/psion/jose/jwa/jws.py:152-240", "src/psion/jose/jws.py:231-330"]}
{"id": "C126", "title": "The encodings are those of the standards", "statement": "base64url_encode gives the text of RFC 4648 section 5 without padding and base64url_decode reads it, padded or not; int_to_b64 gives Base64urlUInt of RFC 7518 and b64_to_int reads it; to_bytes gives the UTF-8 of RFC 3629 and raises an error exactly for texts that have none; to_string reads it and gives base64url for all other octets.", "quantifier": "For all octets, texts and numbers.", "why_tests_cant": "The tests encode a handful of values; wrong tables and wrong paddings show only for particular lengths and bits, and an encoder and a decoder that are wrong in the same way pass every test of a round trip.", "anchors": ["src/psion/webtools.py:32-159"]}
{"id": "C127", "title": "Keys are read from and written to the files of the standards", "statement": "A private key in PEM, in the form of PKCS #1 or SEC 1 or of RFC 5208, and a public key in the form of RFC 5280, given as text or as the name of a file, is read as this key; export gives exactly these texts.", "quantifier": "For all EC and RSA keys, files and texts.", "why_tests_cant": "The tests read the files of single keys; lengths of numbers, leading zeros and line lengths depend on the key.", "anchors": ["src/psion/jose/jwa/jwk.py:63-68", "src/psion/jose/jwa/jwk.py:280-402", "src/psion/jose/jwa/jwk.py:743-873", "src/psion/jose/jwk.py:83-175"]}
{"id": "C128", "title": "The hash of the access token is the one of OpenID Connect", "statement": "The at_hash of an ID token is the base64url text of the left half of the SHA-2 digest, of the size that the algorithm of the token names, of the octets of the access token, and nothing else.", "quantifier": "For all access tokens and algorithms.", "why_tests_cant": "A test compares single values.", "anchors": ["src/psion/webtools.py:300-321", "src/psion/oidc/flows/authorization_code.py:60-90"]}
{"id": "C129", "title": "Numbers with fractions are read and written as IEEE 754 and Python say", "statement": "json_loads reads a number with a fraction or an exponent as the binary64 float that is nearest to it, the even one of two that are equally near, with the sign in front of it; from the middle between the largest float and 2^1024 on, as infinity. json_dumps writes a finite float with the fewest decimal digits of which it is the nearest float, the nearest such digits, the even ones of two that are equally near, with a point from 0.0001 on and below 10^16 and with an exponent of at least two digits otherwise; zeros keep their sign. So reading back what was written gives the same float.", "quantifier": "For all texts of numbers in the grammar of JSON, all 2^64 floats, and all JSON values.", "why_tests_cant": "There are 2^64 floats and infinitely many texts for each; errors of rounding show up only at single values, e.g. exact ties between two floats with hundreds of digits.", "anchors": ["src/psion/webtools.py:162-174", "src/psion/webtools.py:177-192"]}
{"id": "C130", "title": "Requests change only what belongs to their sender", "statement": "Every operation of a request to the example application leaves users and clients as they are; it creates a session only for the user whose password was given and removes one only when its user logs out; it stores a code only for the user of the browser and the client that the request names, and removes one only when the client of the code presents it; it stores a refresh token only for the authenticated client and the user of the code or refresh token that the client presents, and removes one only when its client revokes it or its user logs out.", "quantifier": "For all sets of requests, all interleavings of their operations, all states of the database and all failures.", "why_tests_cant": "The example application has no tests; whose rows change depends on the whole history, on other clients and on failures half way.", "anchors": ["example/adapter.py:25-155", "example/views/auth.py:37-108", "example/views/connect.py:16-53", "src/psion/oauth2/grants/authorization_code.py:317-320"]}
{"id": "C131", "title": "Generated keys sign what their public part accepts", "statement": "Whatever key JsonWebKey.generate is asked for and whatever its generators draw, a key is made with these numbers; it signs every payload under every algorithm for its type and curve, and the key loaded from its public dump accepts the token and gives back header and payload.", "quantifier": "For all requests for a key, all draws of the generators, all additional members that do not restrict the use, all headers and payloads, all random bits of the signatures.", "why_tests_cant": "The tests generate one key of each kind; the draws that fail are rare points of a curve, and the sizes that fail are between 512 and 744 bits.", "anchors": ["src/psion/jose/jwk.py:47-80", "src/psion/jose/jwa/jwk.py:250-277", "src/psion/jose/jwa/jwk.py:466-485", "src/psion/jose/jwa/jwk.py:709-740"]}
{"id": "C132", "title": "A client learns nothing about the codes and refresh tokens of other clients", "statement": "If, of all clients, only one sends requests, then the answers that it and the browsers get do not depend on the codes and refresh tokens of other clients: with others in the database, the same requests can take the same course and get the same answers.", "quantifier": "For all well-behaved hooks, all web requests of one client and any browsers without logout, all interleavings and failures, all pairs of databases that agree in everything else.", "why_tests_cant": "It compares two executions; tests look at one database at a time, and at one error at a time.", "anchors": ["src/psion/oauth2/grants/authorization_code.py:279-320", "src/psion/oauth2/grants/authorization_code.py:450-468", "src/psion/oauth2/grants/refresh_token.py:147-173", "src/psion/oauth2/grants/refresh_token.py:273-277", "example/adapter.py:32-155"]}
{"id": "C133", "title": "What was issued stays until its owner gives it up", "statement": "As long as only requests change the database, a refresh token stays as it is until its own client revokes it or its own user logs out; a session stays until its own user logs out; a code stays until the client that it was made for presents it.", "quantifier": "For all well-behaved hooks, all web requests, all interleavings and failures of their operations, all databases.", "why_tests_cant": "It is about all histories of all clients and users together; tests perform single requests.", "anchors": ["example/adapter.py:47-52", "example/adapter.py:127-155", "example/views/auth.py:97-108", "src/psion/oauth2/grants/authorization_code.py:279-320", "src/psion/oauth2/endpoints/revocation.py:105-126"]}
{"id": "C134", "title": "A client gets its tokens, whatever others do meanwhile", "statement": "A user opens a valid authorization request of a client, logs in, and authorizes it; the client exchanges the code within a day and uses the refresh token before it expires. All this succeeds although, between these requests, any other requests of any clients and browsers take place, provided that nobody else presents the code, the client does not revoke the refresh token, and the user does not log out.", "quantifier": "For all sound databases, all clients and users with legitimate requests, all histories of other requests in between, in any interleaving, each as far as it gets, and with any failures of the database.", "why_tests_cant": "Tests perform the flow on a quiet server; what all possible other requests can do to it in between cannot be enumerated.", "anchors": ["example/adapter.py:26-155", "example/views/auth.py:20-111", "example/views/connect.py:1-53", "src/psion/oauth2/grants/authorization_code.py:100-470", "src/psion/oauth2/grants/refresh_token.py:59-277"]}
{"id": "C135", "title": "The refusal of a key set says what is wrong", "statement": "A key set is refused with InvalidKeySet, the error the library declares for it, if it is not an object with exactly the member keys, if keys is no list of keys, if it is empty, if a key has no kid, or if two keys have the same kid; if an item of the list is no key, the error is that of the first such item. The code keeps this for every set of keys whose ids are texts; a kid that is a list and a member keys that is a number are a TypeError of Python, and a member keys that is a text or an object is called an invalid key.", "quantifier": "for all JSON values, all lists of keys and all errors", "why_tests_cant": "The tests try one set of each kind; that these are all the ways to fail, with exactly this error and in this order of precedence, is a statement about every value and every combination of defects.", "anchors": ["src/psion/jose/jwk.py:226-244", "src/psion/jose/jwk.py:246-260"]}
{"id": "C136", "title": "Answers carry exactly the headers of the standards", "statement": "Every answer of the token endpoint has exactly the headers Content-Type: application/json, Cache-Control: no-store and Pragma: no-cache, plus a Basic challenge at most if Basic credentials were rejected; every answer of the revocation endpoint has exactly the content type, plus the challenge at most if Basic credentials were rejected, then with the status 401; every answer of the authorization endpoint and every redirect of the consent data has exactly the header Location and the status 303. The one exception are errors that the application (adapter, hook or client) raised with headers of its own.", "quantifier": "for all configurations, benign hooks, requests, adapters and executions", "why_tests_cant": "A test compares one header of one answer; that there is never a further header, on no path through any endpoint, is a statement about all executions.", "anchors": ["src/psion/oauth2/endpoints/token.py:30-82", "src/psion/oauth2/endpoints/revocation.py:105-126", "src/psion/oauth2/endpoints/authorization.py:75-142", "src/psion/oauth2/models/http.py:115-194"]}
{"id": "C137", "title": "Access tokens and ID tokens are not taken for one another", "statement": "The example application signs access tokens and ID tokens with the same key. Whatever is decoded from one of its access tokens is recognisable as an access token (type at+jwt, client, scopes and id, no audience, no at_hash, no nonce), and whatever is decoded from one of its ID tokens as an ID token (type JWT, audience and at_hash, no client_id, no scope, no jti). A client that demands the audience refuses every access token, a resource server that demands client_id, scope or jti refuses every ID token, and no text is both.", "quantifier": "for all histories of the example application, users, clients, scopes, times, options and accepted decodings", "why_tests_cant": "A test compares two tokens; that no claim of any user, client or scope makes one kind look like the other is a statement about all tokens that are ever issued.", "anchors": ["example/adapter.py:54-125", "src/psion/oidc/flows/authorization_code.py:36-88", "src/psion/jose/jwt.py:90-234"]}
{"id": "C138", "title": "Access tokens are those of RFC 9068", "statement": "The access tokens of the example application declare the type at+jwt; so each of them is signed and contains the claims that RFC 9068 requires: iss, exp, aud, sub, client_id, iat and jti.", "quantifier": "for all clients, owners, scopes, clocks and drawn ids", "why_tests_cant": "A test looks at one token; that the required claims are in all of them, with every owner and every list of scopes, is a statement about all.", "anchors": ["example/adapter.py:54-83"]}
{"id": "C139", "title": "A client can check the ID tokens that it gets", "statement": "The ID tokens that the example application gives to a client are signed with HS256; so the key with which they are accepted is the secret of this client (OpenID Connect Core 1.0, section 10.1).", "quantifier": "for all histories of the example application, clients, keys and times", "why_tests_cant": "A test can show that a token is accepted with some key; which keys accept it is a statement about all keys.", "anchors": ["example/adapter.py:16-22", "example/adapter.py:124-125", "src/psion/oidc/flows/authorization_code.py:67-88"]}
{"id": "C140", "title": "A used refresh token cannot be replayed", "statement": "Whoever uses a refresh token has authenticated as the client that it belongs to, with the secret of the client if it has one; and a refresh token of a client without a secret is accepted only once, so that a stolen token is useless or noticed (OAuth 2.1, section 6.1).", "quantifier": "for all configurations, adapters, requests and executions of the token endpoint; for the example application for all histories", "why_tests_cant": "Tests try one sequence of requests; that a token is accepted once, or again and again, is a statement about all histories.", "anchors": ["src/psion/oauth2/grants/refresh_token.py:67-173", "example/adapter.py:127-147"]}
{"id": "C141", "title": "Codes and tokens live as long as recommended and announced", "statement": "The example application gives tokens for a user only within the lifetime of the authorization code or refresh token that was presented: a refresh token is used within fourteen days of its creation, a code within ten minutes, the maximum that RFC 6749 recommends. An access token is accepted for exactly as many seconds as the answer announces in expires_in.", "quantifier": "for all histories of the example application with all times, failures of the database and administration in between; for access tokens for all requests, clocks and drawn values", "why_tests_cant": "Tests do not wait for days, and they choose a few times; a lifetime is a statement about all pairs of times.", "anchors": ["example/adapter.py:31-45", "example/adapter.py:54-83", "example/adapter.py:127-147", "src/psion/oauth2/grants/base.py:63-107"]}
{"id": "C142", "title": "Requests are served while others are processed at the same time", "statement": "At the example application, a legitimate exchange of a code, a legitimate use of a refresh token and an authorization by a logged-in user are served with what belongs to them, whatever other requests do before, during and after the request, in any interleaving of the database operations and even if those of the others fail; unless somebody else presents the code, the client revokes the refresh token, or the user logs out. A proper request of any kind is answered.", "quantifier": "for all stores, environments, requests and interleavings of any number of requests, each as far as it gets, with failures in the operations of the other requests; for a request whose own operations do not fail and that takes less than an hour", "why_tests_cant": "Tests send one request at a time. An interleaving in which another request spoils the state between two operations of a request is found only by chance, if at all.", "anchors": ["example/adapter.py:26-155", "example/views/auth.py:20-111", "example/views/connect.py:1-53", "src/psion/oauth2/grants/authorization_code.py:100-470", "src/psion/oauth2/grants/refresh_token.py:59-277"]}
{"id": "C143", "title": "The second use of a code is refused and revokes what the first use gave", "statement": "If a code has been exchanged at the example application and is presented once more, whatever happened in between and whoever presents it, the answer has the status 400, no access token is made and the store does not change (RFC 6749, section 4.1.2: MUST deny). The refresh token from the first use is revoked at the second use (SHOULD revoke): this part is violated, the refresh token stays usable after any request to the token endpoint.", "quantifier": "for all stores, environments, histories in between, requests with the code, and executions", "why_tests_cant": "The second use can come from anybody, at any time and after any other requests; tests replay one code in one history and look at the status, not at what else the store holds.", "anchors": ["src/psion/oauth2/grants/authorization_code.py:64-73", "src/psion/oauth2/grants/authorization_code.py:276-320", "example/adapter.py:46-52"]}
{"id": "C144", "title": "Parameters that are not recognised are ignored, and parameters without a value count as omitted", "statement": "RFC 6749, sections 3.1 and 3.2: two requests to an endpoint (authorization, consent data, token, revocation) that give the recognised parameters the same values and carry the same Authorization header are processed in the same way, with the same operations in the same order and the same answer, whatever other parameters and headers they contain; a parameter written without a value is not given a value. Violated only by requests that contain no recognised parameter: whether they contain another parameter decides about the description of the error.", "quantifier": "for all providers, environments, requests, query strings and bodies, and all hooks that use only recognised parameters (those of OpenID Connect do)", "why_tests_cant": "The independence of all other parameters and headers is a statement about pairs of requests; tests can add some parameters to some requests.", "anchors": ["src/psion/oauth2/endpoints/authorization.py:75-178", "src/psion/oauth2/endpoints/token.py:65-109", "src/psion/oauth2/endpoints/revocation.py:105-126", "src/psion/oauth2/models/http.py:47-82", "src/psion/webtools.py:225-236", "src/psion/oauth2/grants/authorization_code.py:155-194"]}
{"id": "C145", "title": "What is not understood in tokens, keys and key sets is ignored", "statement": "Claim sets with the same registered claims (and the same claims under the names of the options), headers with the same understood members (and the same members named by crit), and keys with the same type, numbers and usage members are treated the same, whatever other members they have (RFC 7515, section 4; RFC 7517, section 4; RFC 7519, section 4). Additional members of a key set and keys of unknown types in it are ignored (RFC 7517, section 5); keys with more than two primes are not used (RFC 7518, section 6.3.2.7). Violated: a key with a member self raises TypeError, a key set with an additional member or with one key of an unknown type is refused, and the member oth of an RSA private key is ignored.", "quantifier": "for all claim sets, options, headers, keys, key sets, tokens and cryptographic backends", "why_tests_cant": "The independence of all other members is a statement about pairs of dictionaries with any names; tests can add some members to some dictionaries.", "anchors": ["src/psion/jose/jwt.py:28-130", "src/psion/jose/jws.py:73-195", "src/psion/jose/jws.py:327-360", "src/psion/jose/jwk.py:37-45", "src/psion/jose/jwk.py:246-260", "src/psion/jose/jwa/jwk.py:229-248", "src/psion/jose/jwa/jwk.py:654-707"]}
{"id": "C146", "title": "What a client demands about the login of the user is honoured", "statement": "OpenID Connect Core 1.0, section 3.1.2.1: with prompt=none no page is shown to the user, and a user who is not logged in is reported to the client with login_required; with prompt=login, and with max_age if the login was longer ago, the user logs in anew; and the ID token for a request with max_age has the claim auth_time (section 2). Holds for prompt=none and a user who is logged in: the answer is a redirect to a registered URI of the client, or one without a code. The rest is violated: a user who is not logged in is sent to the login page, for a user who is logged in the demands change nothing at all, and no ID token has auth_time.", "quantifier": "for all requests to the example application as they are written, all users and environments; for ID tokens for all histories of requests", "why_tests_cant": "Tests try some parameters with some sessions; that a parameter has no influence in any request, and that a claim is in no token, are statements about all of them.", "anchors": ["example/views/connect.py:15-23", "src/psion/oidc/flows/authorization_code.py:28-33", "src/psion/oidc/flows/authorization_code.py:67-88", "src/psion/oauth2/endpoints/authorization.py:75-178"]}
{"id": "C147", "title": "A refused request has given nothing", "statement": "If the token endpoint answers with an error, no access token and no refresh token has been made, not even attempted; the redirect of the authorization endpoint carries the code that was stored, or no code has been stored; if the answer of the revocation endpoint is not 200, nothing has been revoked. The one exception are errors that the application itself raises while it stores, deletes or extends a successful answer. The example application raises none: in all its histories a token request that is answered with an error has made no token, and it leaves the database as it was, except that the code in the request is gone.", "quantifier": "for all configurations, well-behaved hooks, requests, adapters and executions; for the example application for all histories with other requests and failures of the database", "why_tests_cant": "A test compares the status of one answer; whether anything was stored before the error was found depends on the order of checks and effects on every path, with every failure.", "anchors": ["src/psion/oauth2/endpoints/token.py:65-82", "src/psion/oauth2/endpoints/authorization.py:75-142", "src/psion/oauth2/endpoints/revocation.py:105-126", "src/psion/oauth2/grants/authorization_code.py:196-320", "src/psion/oauth2/grants/refresh_token.py:67-173", "src/psion/oauth2/grants/client_credentials.py:53-80", "example/adapter.py:32-155"]}
{"id": "C148", "title": "What is done in the name of a user was submitted by the user", "statement": "At the example application, accounts are looked up and sessions are created only for a submitted login form that carries the token of the page against cross-site requests and is filled in as the page demands. In the same way, a client is authorized and a user is logged out only after the user submitted a form that shows their agreement (RFC 6749, sections 4.1.1 and 10.12). Holds for the login; violated for the rest: no other endpoint looks at a form, and after a mere login at an address that names no client, GET requests without a form, as any link causes them, give a code to a client and log the user out.", "quantifier": "for all histories of the example application, all requests and all interleavings and failures", "why_tests_cant": "A test with a form shows that the form works; that nothing happens without one is a statement about all requests.", "anchors": ["example/views/auth.py:37-111", "example/views/connect.py:15-23", "example/forms/login.py:5-24", "example/main.py:15-19"]}
{"id": "C149", "title": "The answer 200 of the revocation endpoint means that the token is invalid now", "statement": "RFC 7009, section 2.2: a client that identifies itself and sends any text as a token, with no hint or a supported one, gets the same answer 200, whether or not there was such a token; afterwards the token is not accepted, everything else is as before, and a repeated request changes nothing. Holds at the example application for refresh tokens; violated for access tokens, which are answered with 200 under the supported hint access_token and stay valid until their hour is over.", "quantifier": "for all databases, clients, requests, tokens and undisturbed executions of the example application", "why_tests_cant": "The tests do not call the endpoint; that a token is refused after the answer is a statement about all later times.", "anchors": ["src/psion/oauth2/endpoints/revocation.py:26-120", "example/adapter.py:54-83", "example/adapter.py:149-155"]}
{"id": "C150", "title": "An access token tells whether it acts for a user or for the client itself", "statement": "RFC 9068, sections 2.2 and 5: whatever is decoded from an access token of the example application has the claim sub equal to the claim client_id exactly if the token was requested with the grant type client_credentials; otherwise sub is the id of the user for whom the token was made. Holds unless the user and the client have the same id; then both tokens are the same text.", "quantifier": "for all histories of concurrent requests to the example application, all access tokens in them, and all times of decoding", "why_tests_cant": "The tests do not make access tokens; the statement is about every token and every request.", "anchors": ["example/adapter.py:54-83", "src/psion/oauth2/grants/client_credentials.py", "src/psion/oauth2/grants/authorization_code.py", "src/psion/oauth2/grants/refresh_token.py", "example/models/users.py:14", "example/models/clients.py:10"]}
