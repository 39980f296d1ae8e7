# Formal model of revensky/psion in Lean 4

## 1. What this is

`lean/` holds a Lean 4 (4.33.0) model of the Python library `psion` (JOSE, OAuth 2.1, OpenID Connect) and of the example
application that comes with it, together with machine-checked theorems about the model. The model uses Lean core only. Mathlib (Fermat's theorem, the
test of Lucas, the groups of elliptic curves, the real roots behind the constants of SHA-2) is imported in `Spec/Rfc8017`, `Spec/Fips180`,
`Spec/Fips186`, `Real/*Lemmas`, `Real/*Primes`, `Real/CurveOrder`,
`Props/Real`, `Props/Ecdsa`, `Props/Sha2` and `Props/Rsa`.

* `properties.jsonl` lists the properties (C01, C02, …) in plain words.
* `MANIFEST.json` maps every property to theorems and says whether it is proved as stated or only in part.
* `lean/Verif/Props/*.lean` hold the property theorems (namespace `Psion.Props`), each followed by a concrete `example` that
  satisfies its hypotheses.
* `lean/Verif/Spec/*.lean` hold the vocabulary of the statements: small tables and relations written from the RFCs and the
  documentation of the library, not from the functions of the model.
* The model is in `lean/Verif/{Py,Jose,OAuth,Example}/*.lean`; helper lemmas are in the files `*Lemmas.lean` next to it.
* `lean/Verif/Real/*.lean` define the primitives themselves (SHA-2, HMAC, RSA, ECDSA, PEM and DER) as one instance of the
  parameters of the model. With it the model is run: `Real/Vectors.lean` has all keys, tokens, files and errors recorded in
  `/repo/tests/jose` and the vectors of RFC 7515, RFC 7636 and FIPS 180-4, and the kernel checks that the model gives these results.
  That they are the functions of FIPS 180-4, RFC 2104, RFC 8017 and FIPS 186-4 is proved (C120, C124, C125).
* `seeded/LOG.jsonl` records what happened when the model was replaced by wrong programs (section 8).

A property that the code violates has a theorem `…_refuted` with a concrete witness, and a theorem `…_partial` or `…_exact` with
the strongest statement that was found to be true.

## 2. Representation

| Python | Lean |
| --- | --- |
| `bytes` | `List Byte`, `Byte := Fin 256` |
| `str` | `PyStr := List Nat`, a list of code points; a surrogate or a value ≥ 0x110000 cannot be encoded |
| `dict` | `Dict`, an association list in insertion order; assignment to an existing key keeps its position |
| `FullDict` | the functions `FullDict.*` and `fullDict` on such lists |
| JSON-like values | `Val` (None, bool, int, float, str, list, dict) |
| float | `F64`, a bit pattern class with the operations of `FloatEnv` as parameters; the conversions themselves are `Real.floats` (C129) |
| exceptions | values: `Res α := Except Exc α`, one constructor per exception class that the code can tell apart; `ORes` adds `OAuth2Error` |
| `async def` | `Prog α`, a tree of operations (`Op`): adapter calls, clock readings, random draws |
| a finished request | `Exec p tr a`: `p` performed exactly the operations `tr` with these answers and ended with `a` |
| a running, cancelled or crashed request | `Partial p tr`: a prefix of an execution |
| concurrent requests | `History`: any interleaving of the operations of any number of requests |
| `try … except OAuth2Error`, `finally` | `P.catchOAuth`, `P.finally_` |
| iteration over a `set` (hooks, scopes) | any order: the table of hooks is an arbitrary list, the intersection of sets of scopes is listed in the unspecified order `OEnv.inter` |
| cryptography, hashes, randomness, clock, `str(x)` | fields of `Crypto` and `OEnv`, or answers of operations; nothing is assumed about them except in hypotheses |

Adapter answers are arbitrary: every operation may return any value of its type or raise anything. So the theorems hold for
every adapter, every database content and every failure of the database, unless a hypothesis says otherwise.

CPython behaviour that the properties depend on is modelled exactly: the non-strict `a2b_base64` automaton, strict and `replace`
UTF-8 decoding, `parse_qsl`, `quote_plus`, `json.dumps(ensure_ascii=False)`, `json.loads` (including `NaN`, `Infinity`, lone
surrogates, duplicate keys and the recursion of the parser by fuel that is shown to be sufficient), `str.split(None, 1)`, `str.split()`,
ordering and updating of dictionaries, truth values, equality of values of different types (`Val.pyEq`).

## 3. Which code is modelled

| file in /repo | model | not modelled |
| --- | --- | --- |
| `src/psion/webtools.py` | `Py/Base64`, `Py/IntB64`, `Py/Utf8`, `Py/Json`, `Py/Url`, `Py/FullDict`, `Py/Webtools` | type checks for arguments of foreign types; what `urlparse` refuses in hosts beyond brackets that do not match |
| `src/psion/jose/jwa/jwk.py` | `Jose/Jwk`, `Jose/Crypto`, `Jose/Export` | the PEM writer and reader and the arithmetic of the primitives are parameters; `Real/*` has an instance |
| `src/psion/jose/jwk.py` | `Jose/Jwk`, `Jose/Export` | — |
| `src/psion/jose/jwa/jws.py`, `src/psion/jose/jws.py` | `Jose/Jws` | — |
| `src/psion/jose/jwt.py` | `Jose/Jwt` | — |
| `src/psion/jose/exceptions.py` | `Exc` in `Py/Base` | messages |
| `src/psion/oauth2/exceptions.py` | `OAuth/Error` | — |
| `src/psion/oauth2/models/http.py` | `OAuth/Http` | attributes that are never read (`path`, `fragment`) |
| `src/psion/oauth2/models/scopes.py` | a scope is its name | `description` |
| `src/psion/oauth2/adapter.py`, `mixins.py` | operations `Op`; `Client`, `User`, `AuthCode`, `RefreshTok` | getters that answer differently on the same object |
| `src/psion/oauth2/authentication/**` | `OAuth/Auth` | — |
| `src/psion/oauth2/grants/*.py` | `OAuth/Grants` | — |
| `src/psion/oauth2/endpoints/*.py` | `OAuth/Endpoints` | — |
| `src/psion/oauth2/providers/base.py`, `config.py` | `OAuth/Provider` | — |
| `src/psion/oauth2/providers/starlette.py` | `Example/Web` (`createRequest`, `createResponse`): `C74` | the framework itself |
| `src/psion/oidc/**` | `OAuth/Oidc` | — |
| `example/adapter.py`, `example/models/*.py`, `example/provider.py` | `Example/Adapter` | columns that are never read; see section 5 |
| `example/views/*.py`, `example/middlewares/*.py` | `Example/Web` (`app`): `C69`–`C75` | forms, CSRF protection |
| `example/templates/*.j2` | `basePage`, `homePage`, `errorPage`, `loginPage`, `pageText` | the markup of form fields (a parameter) |
| `tests/**` | — | not part of the program |

Every definition of the model has a comment with file and lines, and states what it leaves out.

## 4. Contracts that appear as hypotheses

* `Dict.Ok`: a dictionary has no key twice (true of every Python dictionary).
* `Encodable`: a text has no lone surrogate.
* `FloatLaws`: `repr` of a finite float is a JSON number that reads back as the same float. Proved for the conversions of CPython
  (`Real.floats`, C129_assumptions).
* `HashLengths`, digest lengths in C12 and others (proved for SHA-2, C129_assumptions); `GenuinePair` in C19 and C28: what the private key signs, the public key verifies (proved for `oct` keys
  in `C19_oct_pair`); unforgeability in C24: whatever verifies under the key was signed.
* `Benign`: registered hooks perform no operation on stored codes and tokens and do not overwrite members that the library itself
  sets. The hook of the library satisfies it (`benign_oidcTable`).
* `Narrows`: the documented contract of `get_allowed_scopes`, which the example application satisfies.
* `Cooperates`, `CooperatesA`: adapter, clients and hooks raise at most `OAuth2Error`s with texts that can be encoded, and contribute
  texts that can be encoded. Only used for "the endpoint always answers".
* `Honest`, `Deletes`, `FreshCodes`: the adapter returns only what was stored, deleted codes are gone, random codes do not repeat.
  `Honest` is proved for the example adapter (`C52_example`).
* `Undisturbed` (C63): the database works and contains client and user at every operation of the request.
* Wall clock: `datetime.utcnow().timestamp()` is modelled by `libNow epoch offset`, since CPython interprets the naive result as
  local time. Theorems relative to the clock of the library hold everywhere; those relative to real time are refuted for offsets
  other than zero.

## 5. The example application

* Every operation of the adapter takes effect at one point of time. `create_refresh_token` performs a query and possibly an
  insertion; the unique index on client and user is what makes this harmless in reality.
* Ids of clients and users are compared as texts (in reality: UUIDs in canonical spelling; a text that is no UUID raises in the ORM,
  which is one of the failures that every operation of the model may have).
* Foreign keys, primary keys and maximal lengths are enforced; every error of the database is the exception `ext`.
* Tortoise 0.16.21 returns naive datetimes. If it returned aware ones, the refresh grant would raise `TypeError`, since
  `RefreshToken.get_expiration` does not strip the time zone as `AuthorizationCode.get_expiration` does.
* Other parts of the application may change users and clients and delete codes and tokens at any time (`Outside`).
* Web layer (Starlette 0.14.2, starlette-wtf, itsdangerous; none of them is part of the repository). A session cookie has valid content
  or counts as absent; nobody can forge its signature. The login form is read from the body by the framework, and which e-mail
  addresses the validator accepts is left open. Header names arrive in lower case; of several headers with one name the first counts.
  Templates are rendered by Jinja2 with `autoescape=True` and `markupsafe.escape`; a user agent reads tags, attribute values in double quotes and character references as in `Spec/Html.lean`. Every query of a view takes effect at one point of time and may fail before or after its effect.
  The two deletions of the logout happen in either order, and both are attempted even if one fails.
* Requests run concurrently in any interleaving and may stop anywhere (`WHistory`, `WRun`).


## 6. Properties

| id | property | status | how proved |
| --- | --- | --- | --- |
| C01 | base64url round trip | proved | induction on groups of three bytes |
| C02 | base64url decoding of tampered text | partial | witnesses; analysis of the last group |
| C03 | integer codec round trip | partial | digit induction |
| C04 | text/bytes conversion | proved | induction over the decoder automaton |
| C05 | query string round trip | proved | percent-decoding inverts percent-encoding, splitting inverts joining |
| C06 | redirect Location is header safe | proved | induction over the output of the quoter |
| C07 | FullDict holds no None | partial | invariant of all sequences of assignments; witness for `update` |
| C08 | Basic credentials round trip | proved | exact characterisation of the header parsers |
| C09 | Authorization header parsing never raises | partial | exact characterisation of the header parsers |
| C10 | secret_token shape | proved | induction on the choices |
| C11 | JSON round trip | proved | structural induction on values, lemma on the fuel of the parser |
| C12 | at_hash half hash | proved | unfolding, digest length as hypothesis |
| C13 | JWK private dump reloads to the same key | partial | case analysis of loading and dumping; C14 also by non-interference |
| C14 | public dump discloses no secret | partial | case analysis of loading and dumping; C14 also by non-interference |
| C15 | key set ids are unique and lookup is exact | proved | case analysis |
| C16 | parsing as public removes signing power | proved | case analysis of loading and dumping; C14 also by non-interference |
| C17 | oct key export/parse round trip | partial | case analysis of loading and dumping; C14 also by non-interference |
| C18 | public keys cannot sign | proved | case analysis |
| C19 | JWS round trip | proved | composition of C01, C11 and the laws of the key pair |
| C20 | expected algorithm is enforced | proved | inversion of `deserialize` and of header validation, compared with the tables of `Spec/Jose` |
| C21 | a key bound to an algorithm is only used with it | proved | inversion of `deserialize` and of header validation, compared with the tables of `Spec/Jose` |
| C22 | no key type confusion | proved | inversion of `deserialize` and of header validation, compared with the tables of `Spec/Jose` |
| C23 | unsigned tokens are not accepted by default | partial | inversion of `deserialize` and of header validation, compared with the tables of `Spec/Jose` |
| C24 | JWS integrity | proved | inversion of `deserialize` and of header validation, compared with the tables of `Spec/Jose` |
| C25 | malformed tokens raise documented errors | partial | inversion of `deserialize` and of header validation, compared with the tables of `Spec/Jose` |
| C26 | header validation | partial | inversion of `deserialize` and of header validation, compared with the tables of `Spec/Jose` |
| C27 | key usage restrictions | partial | inversion of `deserialize` and of header validation, compared with the tables of `Spec/Jose` |
| C28 | JWT round trip | partial | C19 and C11 |
| C29 | expired tokens are rejected | partial | inversion of `decode` and of the claim checks |
| C30 | tokens from the future are rejected | partial | inversion of `decode` and of the claim checks |
| C31 | registered claim types | proved | inversion of `decode` and of the claim checks |
| C32 | claim options are all enforced | partial | inversion of `decode` and of the claim checks |
| C33 | validate=False only skips signature and options | proved | inversion of `decode` and of the claim checks |
| C34 | non UTF-8 or non object content never accepted | proved | inversion of `decode` and of the claim checks |
| C35 | client authentication is sound | proved | all executions of client authentication |
| C36 | one authentication method per request | partial | all executions of client authentication |
| C37 | client_credentials is for confidential clients and issues no refresh token | proved | weakest preconditions over all executions: every access token is `Justified` |
| C38 | grant types are enforced | proved | weakest preconditions over all executions: every access token is `Justified` |
| C39 | PKCE is enforced | proved | weakest preconditions over all executions: every access token is `Justified` |
| C40 | codes are bound to client and redirect URI | proved | weakest preconditions over all executions: every access token is `Justified` |
| C41 | expired codes and refresh tokens are refused | proved | weakest preconditions over all executions: every access token is `Justified` |
| C42 | a presented code is always deleted | proved | every execution that looks a code up deletes it, also when it fails |
| C43 | authorization codes are redeemed at most once | partial | histories; witnesses are two concrete schedules |
| C44 | the token endpoint always answers | partial | all executions end with a response; witnesses for the exceptions |
| C45 | the authorization endpoint always redirects | partial | all executions end with a response; witnesses for the exceptions |
| C46 | no open redirect at the authorization endpoint | partial | all answers of the endpoint, with their Location headers decoded |
| C47 | state is echoed | partial | all answers of the endpoint, with their Location headers decoded |
| C48 | the client can read the authorization response | partial | all answers of the endpoint, with their Location headers decoded |
| C49 | granted scopes are supported and allowed | partial | weakest preconditions; sets in any order |
| C50 | refresh never broadens scope | proved | weakest preconditions; sets in any order |
| C51 | token response reports reduced scope | partial | weakest preconditions; sets in any order |
| C52 | no privilege escalation over histories | proved | inductive invariant over all histories |
| C53 | revocation endpoint contract | partial | all executions |
| C54 | revocation isolation | proved | invariant over all histories of the example adapter |
| C55 | hooks stay with their grant | partial | the hook table as a shared cell |
| C56 | ID token iff openid scope | partial | all executions of the grant with the hook of the library |
| C57 | ID token content | partial | all executions of the grant with the hook of the library |
| C58 | nonce is echoed in the ID token | partial | all executions of the grant with the hook of the library |
| C59 | refresh tokens issued with a code carry the authorized scopes | partial | the example adapter as a state machine |
| C60 | request parameters | proved | lemmas of C05 |
| C61 | consent data never leaks to unregistered URIs | partial | all executions of `get_consent_data` |
| C62 | error responses carry exactly the error | proved | all answers of the endpoint, with their Location headers decoded |
| C63 | registering a code with the example adapter | partial | the example adapter as a state machine |
| C64 | codes are end to end bound to their authorization | proved | inductive invariant over all histories |
| C65 | access tokens of the example application tell the truth | proved | the example adapter as a state machine |
| C66 | bearer tokens are read exactly | proved | exact characterisation of the header parsers |
| C67 | a loaded key is the one its members describe | proved | case analysis of loading and dumping; C14 also by non-interference |
| C68 | parse and generate keep the extra members | proved | case analysis of loading and dumping; C14 also by non-interference |
| C69 | web requests are recognised only by live password sessions | proved | Histories of web requests (`WHistory`, `WRun`): an event of the middleware that finds a session is traced back to the event that saved it (`wrun_sessions`), and from there to the answer of the database to the login (`app_op`). |
| C70 | a logout ends the access of clients | partial | As C69 for sessions, with the store after the logout as starting point; tokens by tracing the grant back to the code (as C52) and the code to the request that was recognised. The refutation is a simulated history: login, authorization, logout, exchange. |
| C71 | every token goes back to a login with the password | proved | The library part of a history of the application is a history of the library (`whistory_calls`), so the tracing of C52 applies; the authorization request found in this way is one of the application, recognised by C69. |
| C72 | the login detour preserves the authorization request | proved | The query string of the redirect is computed with the round trip lemmas of C05; the login reads it back. |
| C73 | the login redirects only within the site | partial | Inversion of the login; for the refutation the query string is `next=` and the quoted target. |
| C74 | the application passes on what the library answers | partial | Inversion of the views; `createResponse` is compared with a relation on status, headers and body (`PassedOn`), the request with one on what arrived (`ArrivesAs`). |
| C75 | a session cookie is given exactly for the password | partial | Post-condition `LoggedIn` over all executions of the application, plus C69; the second half follows the undisturbed execution. |
| C76 | the token endpoint serves legitimate requests | proved | Rules for programs that return (`Returns`, `OAuth/SuccessLemmas.lean`): all answers are events of the execution, and no branch that raises can be reached. |
| C77 | the authorization endpoint serves legitimate requests | proved | The same rules; the URL is computed with the lemmas of C05. |
| C78 | the revocation endpoint serves legitimate requests | proved | The same rules. |
| C79 | exactly the right tokens are signed and accepted | proved | Both directions by inversion of the functions; what an algorithm needs of a key follows from the signature table itself. |
| C80 | exactly the right claims are issued and accepted | proved | Inversion of `claimsInit` and `Jwt.init`; the options by induction over the list. |
| C81 | legitimate OpenID Connect exchanges are served | proved | The hook does not raise (`wpp_oidcTokenResponse`, which uses C80 for the ID token), so C76 applies; the contents come from C56 and C57; that both speak of the same client follows from C82. |
| C82 | a request does its work once and in order | proved | Every operation on the store extends the beginning of an allowed sequence (`InOrder`); the grants are walked through with the rules of `OAuth/ProgLemmas.lean`. |
| C83 | ID tokens are about the person who logged in, and say no more than permitted | proved | C52 gives the authorization, C57 the contents of the ID token; the user information is compared with a table of claims by scope, in a file of its own. The web layer adds C71. |
| C84 | the example application serves its clients, from the authorization to the refresh token | proved | C63, C76 and C81 are applied to the example adapter: their conditions on the answers are computed from the state of the database, which C82 shows to be the initial one where a code or token is looked up. |
| C85 | A published key set is the same key set | proved | Induction over the keys with the reload lemma of C13; the ids are unchanged, so C15 gives the key set and `get_key`; signatures are C19, the JSON text is C11. |
| C86 | JSON input is read exactly as the grammar says | proved | The scanner is sound by induction on its fuel, and complete by induction on the derivation of the text; so the fuel never runs out. |
| C87 | Token errors name the reason for which the request was refused | partial | `Spec/Errors.lean` lists 23 reasons, each with what must have happened in the execution (`TokenFault.Holds`) and with its value of `error` in RFC 6749 (`TokenFault.rfc`); `C87_partial` says that every error response names a reason that holds, with the value of the RFC except for the five reasons of `TokenFault.deviates`; `C87_refuted` is an unknown refresh token, `C87_refuted_client` a refresh token of another client. Errors raised by the application are set apart (`AppRaises`). |
| C88 | Authorization and revocation errors name the reason and go to the right place | proved | `Spec/Errors.lean` lists 15 reasons for the authorization endpoint with their values and the place where they belong (`AuthFault.Target`). A missing response type is shown on the error page (the standard would also allow the redirect URI). |
| C89 | Request parameters are read exactly as the format says | proved | `Spec/Form.lean` describes the format in two steps: a text stands for bytes and characters (`Items`), and these for a text (`Decoded`), where the table of RFC 3629 says what is well formed, and the "maximal subpart" of the Unicode standard what is replaced. Both steps are shown to be deterministic, and the decoder of CPython, as modelled, to follow them (`segs_cases`). |
| C90 | The example application answers every request | partial | In two steps. `C90_performed_partial`: if every operation of the request was performed without error on databases without lone surrogates, the request is answered; this composes C44, C45, C81 and the lemmas on the web layer. `C90_partial`: in a history that begins with a sound database (`SoundStore`) every operation of a proper request is performed without error, because soundness is kept by all operations of all requests (`sound_wOp`), codes and refresh tokens that are found are followed to rows that exist, and the adapter gets a nonce that fits into its column. The nine refutations share one schedule: a login, an authorization and a third request. |
| C91 | ID token claims are accepted exactly if they are valid | partial | The checks of `IDToken` are evaluated one by one on top of the exact description of JWT claims and options (C80). |
| C92 | A raw key is parsed to the key that it is | proved | Case analysis of the three `parse` functions (`parse_material`), with the constructor lemmas for canonical members; the dump that `JsonWebKey.parse` makes of the key object in between is loaded to the same object (`load_members`, as in C13). `isInfix_iff` says what looking for a mark means. |
| C93 | No file of an asymmetric key is taken for a secret | partial | Case analysis of the three `parse` functions (`parse_material`), with the constructor lemmas for canonical members; the dump that `JsonWebKey.parse` makes of the key object in between is loaded to the same object (`load_members`, as in C13). `isInfix_iff` says what looking for a mark means. |
| C94 | An exported asymmetric key is read again as the same key | partial | Both are read off the exact description of `JsonWebKey.parse` (`C92_parse`). The PEM writer is a parameter of `Material.export`; a toy writer in unary (`toyWriter_laws`) shows that the laws asked of it can be met for all keys at once. |
| C95 | Bytes given as a secret are the secret | partial | Both are read off the exact description of `JsonWebKey.parse` (`C92_parse`). The PEM writer is a parameter of `Material.export`; a toy writer in unary (`toyWriter_laws`) shows that the laws asked of it can be met for all keys at once. |
| C96 | Refused Basic credentials are answered with a challenge | partial | Basic comes first among the methods, so the lookup of its client is the first operation; a weakest precondition rule with an assumption on the first answer does the rest. The converse is read off the rules for C87 and C88, where the headers of an error are tracked. |
| C97 | The error page shows the error, as text | proved | The reader is a state machine; a page is cut at the inserted texts, the fixed parts are evaluated by the kernel, and escaped texts cannot leave the state they are read in (`run_text`, `run_value`, `unref_escape`). `C97_refused` adds that the framework reads an encoded query string as the dictionary it was made from, `C98_detour` an induction over the attempts and C72. |
| C98 | The login form keeps the way back | proved | The reader is a state machine; a page is cut at the inserted texts, the fixed parts are evaluated by the kernel, and escaped texts cannot leave the state they are read in (`run_text`, `run_value`, `unref_escape`). `C97_refused` adds that the framework reads an encoded query string as the dictionary it was made from, `C98_detour` an induction over the attempts and C72. |
| C99 | Signatures are those of RFC 7518 | partial | `Spec/Rfc7518.lean` separates the mathematical operations (`Arith`) from their encoding: `Documented` says how `cryptography` encodes, `RfcSig` how RFC 7518 does. C79 reduces tokens to signatures; the two encodings are compared by length and first octet, the two salts by the size of the modulus. |
| C100 | Keys are strong enough for their algorithm | partial | C68 says which key is generated, with the sizes passed to the generators (`Fresh` is a generator, not the drawn value); the refutation uses C79 and C19 for every secret. |
| C101 | The numbers of a key are written as RFC 7518 prescribes | partial | The dump of a number is in the fewest octets (`numVal_eq`); texts with different numbers of octets differ. Reading is `ofBE_toBE` for any number of octets. |
| C102 | Answers depend on a client secret only through the comparison | proved | `Moves` relates a program to itself under a renaming of the stored secrets, with one rule for each way to build a program; the only place where a secret is looked at is the comparison in `checkClient`, for which `SameGuess` is the condition. |
| C103 | The example application keeps stored secrets and passwords to itself | proved | `WMoves` lifts `Moves` to the requests of the application; `wOp_other` shows that the operations of the database commute with the replacement of secrets and passwords, so the history can be replayed step by step. |
| C104 | A failed authentication does not tell what was wrong | partial | The login page is read off `loginPost`. For clients, a Wp rule for the authentication with a first answer that does not fit gives the error except for its description. |
| C105 | A client gets its tokens through the browser | proved | `Visit` is one request to the application that is not disturbed. C72 and C98 give the way to the login page and back, `visit_authorize`/`visit_token` reduce the other requests to requests to the library, for which C84 gives the rest; C90 says that the requests are answered. |
| C106 | Basic credentials are read as RFC 6749 prescribes | partial | C08 says which header is read as which credentials; an induction shows which texts are encoded as themselves. |
| C107 | Nothing secret is taken from the URL | partial | The forms of two requests with the same body are equal, and the functions read nothing else. |
| C108 | Repeated parameters are refused | partial | The dictionary that is built from the pairs keeps the last one for each key (`get_update_last`), and C89 says which pairs there are. |
| C109 | Errors are written with the permitted characters | partial | For the refutation the token endpoint is run up to the search of the grant. The codes are read off C87 and C88. |
| C110 | Code verifiers and challenges are as RFC 7636 prescribes | partial | From C39; the refutations are runs of the toy provider. |
| C111 | Every URL of the example application answers the methods it is meant for | proved | Case distinction over the middleware, the routes and the methods; `app_op` shows that only the first operation looks for a session. |
| C112 | Requests that only read change nothing | partial | As C111; for the authorization endpoint the operations are those of the library. |
| C113 | Tokens signed with secrets and RSA keys are accepted, with the algorithms themselves | proved | RSA inverts by the theorem of Fermat modulo both primes (`rsa_inverse`); EMSA-PSS decodes what it encodes (`pss_holds`); then C19 and C99 with these primitives. |
| C114 | RSA keys sign under every RSA algorithm | partial | Lengths of the encodings. |
| C115 | The refusal of a header says what is wrong | partial | Case distinction along the checks of a header; the members are related to `HeaderOk` as in C24. |
| C116 | The refusal of claims says what is wrong | proved | The errors of each check (`checkExp_error`, …), in the order of the checks. |
| C117 | The refusal of a token says what is wrong | proved | The parts of the token as in C79; then the errors of the comparison of the algorithm, of `validateKey` and of the signature in this order. |
| C118 | The refusal of a key says what is wrong | partial | Case distinction over the type; the errors of the conversions are never those of the library. |
| C119 | The refusal of a raw key says what is wrong | partial | Case distinction over the type, the format, the marks and the answer of the PEM reader, beside C92. |
| C120 | EC keys and ECDSA signatures are those of FIPS 186-4 | proved | The Jacobian formulas of `Real/Curve` are the group law of Mathlib (`Rep.add`, `Rep.double`, `Rep.mul`); `p` and `n` are prime by Pocklington certificates (`Real/CurvePrimes`); the base point has order `n`, the curve at most `2 p + 1` points and no point of order two, so it has `n` points (`card_points`); then C79. |
| C121 | An accepted token cannot be rewritten without the key | partial | Two PKCS1 signatures of a message are the same power of one number modulo both primes (`pkcs_unique`); `- R` has the same first coordinate as `R` (`valid_neg`); the reader of base64 skips foreign characters (`junk_prefix`). |
| C122 | A client of the example application gets access tokens for itself | proved | C76 for client credentials with the operations of the example adapter, C65 for what the token says, C82 for what is stored. |
| C123 | Scopes are read and written as RFC 6749 prescribes | partial | A value of the standard has its scopes as words (`scopeText_words`), so C49 and C50 apply; the answer is followed through `token_response` for each grant, with `createToken_get` for the member. |
| C124 | Message authentication codes and digests are those of RFC 2104 and FIPS 180-4 | proved | The recursion over numbers is the one over bit vectors, round by round (`run_eq`, `block_eq`, `hash_blocks`); the constants are the roots, since their powers enclose the primes (`floor_root`), which are the first ones by counting (`primeAt_list`); then C79. |
| C125 | RSA signatures are those of RFC 8017 | proved | The encoded message is the one of the standard (`pkcsEncoded_iff`, `pssEncoded_iff` with the masks as bits, `pssCheck_iff` for the way back); the number of the signature is the number of the octets (`number_bits`); then C79. |
| C126 | The encodings are those of the standards | partial | Groups of six bits are a list of numbers below 64 with the same bits as the octets (`base64url_iff`, `base64_iff` by strong induction over three octets at a time); a minimal list of octets is unique (`minimal_iff`); the table of UTF-8 row by row (`utf8Octets_iff`). |
| C127 | Keys are read from and written to the files of the standards | partial | The reader takes apart what the relations of ASN.1 allow (`readDer_der`, `readAll_der`, `load_traditional`, `load_private`, `load_public`), the writer gives the only text (`der_iff`, `pem_iff`, `publicText_iff`, `traditionalText_iff`); then C92. |
| C128 | The hash of the access token is the one of OpenID Connect | proved | C124 for the digest, C126 for the two encodings; the digests have an even number of octets. |
| C129 | Numbers with fractions are read and written as IEEE 754 and Python say | proved | `Spec/Ieee754.lean` says what the value of a float is in units of 2^-1074, which float is nearest to a quotient, which digits are the shortest, and how `repr` lays them out. `Real/FloatLemmas.lean` shows that rounding the scaled quotient with half-even at 53 bits finds the nearest one (the binades are contiguous in the bit patterns), that 17 digits always suffice (gaps are at least 2^-53 of the value), and that the first length at which one of the two neighbours on the decimal grid is read as the float is minimal. |
| C130 | Requests change only what belongs to their sender | partial | `Spec/Isolation.lean` says which changes are permitted, given what the database has answered to the same request before. `C130_partial` goes through all operations: those of the web layer are restricted by `app_op`, those of the library by `C38_other_operations`, `create_justified`, `save_authorization` and `C53_operations`; that found clients and users have the id asked for follows from the run of the database. |
| C131 | Generated keys sign what their public part accepts | partial | `Spec/KeyGeneration.lean` says what the generators draw (`Drawn`). `drawn_ok` shows that it passes the checks of the package, by the group of the curve and by parity of the exponents of RSA; then `C68_generate` gives the key, `C19_serialize_total` with `C114_partial` the token, and `C113_roundtrip` its acceptance. That P-256 has a private number for the point with first coordinate zero is by the order of its group. |
| C132 | A client learns nothing about the codes and refresh tokens of other clients | partial | `Spec/Foreign.lean` says when two databases, two events and two histories are alike. `OAuth/ForeignLemmas.lean` shows that each program is related to itself by a simulation in which lookups may find different rows of other clients (`Like`), `Example/ForeignLemmas.lean` lifts this to the views and shows that operations on alike databases are answered alike; `C132_partial` puts both together along the history. |
| C133 | What was issued stays until its owner gives it up | partial | `lost_at` finds the step at which a row disappears; `C130_partial` says what that step must have been. |
| C134 | A client gets its tokens, whatever others do meanwhile | proved | Soundness of the database and the distinctness of codes and tokens are invariants of every operation (`stays_run`); C133 says that the session, the code and the refresh token are still there; then the theorems of C84 and C105 about undisturbed requests apply. |
| C135 | The refusal of a key set says what is wrong | partial | The chain of tests of `keySetInit` is characterised by an inductive list of defects of the ids; the loading loop fails with the first item that is refused, by induction on the list. |
| C136 | Answers carry exactly the headers of the standards | proved | The weakest-precondition rules of C87, C88 and C96 say which error an execution raised and with which headers; the rest is the construction of the responses. |
| C137 | Access tokens and ID tokens are not taken for one another | proved | Decoding an own token gives back header and claims (`jwt_decoded`, from C19 and C28); what the user information can contain is C83; the options are C32 for tokens without list-valued claims. |
| C138 | Access tokens are those of RFC 9068 | partial | Decoding gives back `accessClaims`, which are looked through. |
| C139 | A client can check the ID tokens that it gets | partial | C79 describes exactly what is signed and what is accepted; the two descriptions of the same token are compared. |
| C140 | A used refresh token cannot be replayed | partial | The justification of C50 and C52 says who authenticated; the refutation applies C134 twice, with C133 for the token between the two uses. |
| C141 | Codes and tokens live as long as recommended and announced | partial | By induction on a history that shows the time of every operation, each stored row has a creator and the expiry that belongs to its time; the justification of C50 and C52 says that the request has read an earlier time. For access tokens C65 is combined with the fields of the answer; the refutation is C134 for the code that was just stored. |
| C142 | Requests are served while others are processed at the same time | proved | Every operation of the request is placed in a store that the interleaved history has led to; the invariants of C134 and the confinement of C130 say what that store still contains. So the adapter answers as C76, C81 and C63 require, and C90 passes the answer on. |
| C143 | The second use of a code is refused and revokes what the first use gave | partial | The code is absent from the store after the first use, and only an operation that saves the same code can bring it back. So the adapter finds nothing, and the error of the grant becomes a response with the status 400. For the violation, C134 is applied with the second use of the code as what happens in between. |
| C144 | Parameters that are not recognised are ignored, and parameters without a value count as omitted | partial | The models of the endpoints read parameters only by name. Rewriting with the equality of the recognised parameters turns one program into the other; C89 connects this to the written query strings and forms. |
| C145 | What is not understood in tokens, keys and key sets is ignored | partial | The models read members only by name; rewriting with the equality of the members that are read turns one computation into the other. The violations are computed for all dictionaries of the described form. |
| C146 | What a client demands about the login of the user is honoured | partial | The answer to a recognised user comes from C74 and C46, the detour over the login page from C72, the independence of the demands from C144, and the content of ID tokens from C83. |
| C147 | A refused request has given nothing | proved | A rule for errors (an error of the application during or after the effect, or no effect before) is carried through the programs of the endpoints; the adapter and the hook of the example application are shown to raise no such error. |
| C148 | What is done in the name of a user was submitted by the user | partial | A rule for the operations of a login is carried through the program of every view; the other views do not mention the form; the witness is a simulated history. |
| C149 | The answer 200 of the revocation endpoint means that the token is invalid now | partial | The endpoint only looks up clients and revokes once; the adapter filters the refresh tokens. Access tokens are checked by signature and time alone (C65). |
| C150 | An access token tells whether it acts for a user or for the client itself | partial | The justification of each access token (`access_justified`) names its owner by grant type, and the decoded claims are the ones that the adapter has written (C65). |

## 7. Findings

What the refutations say about the code, most serious first. Each is a theorem with a concrete witness.

* Authorization codes are deleted after the tokens are created, and tokens are created without a lock: two overlapping requests, or a
  request that dies before the deletion, redeem one code twice (C43).
* The authorization endpoint redirects to the unchecked `redirect_uri` for `access_denied` and `unsupported_response_type` (C46),
  and for an `OAuth2Error` of the client lookup when consent data are requested (C61): an open redirect.
* Without an expected algorithm, a token with `"alg": "none"` is accepted (C23). `crit` lists extensions that nobody implements, and
  the token is accepted (C26). `key_ops` does not tell signing from verifying (C27).
* `exp: 0` is not expired, and on machines that are not set to UTC all time checks are off by the offset (C29, C30).
* Claim options after a list-valued match, and falsy expected values, are not enforced (C32).
* The public dump of an `oct` key contains the secret, and extra members are copied (C14). `OCTKey.export` decodes the secret twice (C17).
* Hooks live in one table for all grants of all providers (C55).
* An ID token is issued for any scope that contains the text `openid` (C56); user information can replace `iss`, `aud` and the other
  members of the ID token (C57); the nonce never gets into the ID token (C58).
* A second authorization gets the old refresh token with its old scopes and its old expiration (C59).
* Requests without `nonce` make the example adapter raise `KeyError` (C63).
* Several inputs of remote parties end in exceptions that are not handled: C09, C25, C44, C45, C53.
* `state` is dropped by `access_denied` (C47); redirect URIs with a query get a second question mark (C48); an empty list of scopes is
  not reported (C51); stored scopes are not checked again (C49); a Basic header and form credentials may be mixed in one
  request (C36); `int_to_b64(0)` is empty (C03, C13); `FullDict.update` stores `None` (C07); tokens whose claims are all null do
  not decode (C28).

- Example, logout (`/repo/example/views/auth.py:97-108`): sessions and refresh tokens are deleted, authorization codes are not. A code
  from before the logout can be exchanged afterwards, and gives a new refresh token (`C70_refuted`).
- Example, login (`/repo/example/views/auth.py:91`): the user is redirected to any `next` (`C73_refuted`).
- Example, login: e-mail addresses are not unique in the table, but the login takes the first user with an address; others cannot log in
  (`C75_refuted`). The form asks for passwords of 8 to 64 characters, so users with other passwords cannot log in either.
- Example, `/connect/revoke` without `token`: the library returns `None`, the provider for Starlette raises `AttributeError`
  (`C74_refuted`). `HEAD /connect/authorize` raises `RuntimeError` (`C74_refuted_head`).
- Example, authorization for blank scopes (`scope=%20`): a code without scopes is stored, and its exchange ends with a `KeyError`,
  because the response has no `scope` member (`C90_refuted_blank`).
- `IDToken` (`/repo/src/psion/oidc/claims.py:5-62`): the check of `auth_time` reads `max_age` (`C91_refuted_auth_time`), and the check of the
  nonce compares with the option itself: with an option `{"value": nonce}` as for all other claims, the right nonce is refused
  (`C91_refuted_nonce`).
- `OCTKey.parse` (`/repo/src/psion/jose/jwa/jwk.py:518-527`): a file with an encrypted private key, and with format `der` any file, is taken
  for a secret (`C93_refuted_encrypted`, `C93_refuted_der`).
- `Request` (`/repo/src/psion/oauth2/models/http.py:62-64`): the `ValueError` of `urlparse` for a host with one bracket is not caught; every
  request to an endpoint with the header `Host: [` ends with an exception (`C74_refuted_host`, `C90_refuted_host`). The framework's own
  `url_for` raises for such hosts, too; this is not modelled.
- `_parse_raw` (`/repo/src/psion/jose/jwa/jwk.py:62-68`) first opens the given key or secret as a file, and only catches
  `FileNotFoundError` and `IsADirectoryError`: a secret with a zero byte raises `ValueError` (`C95_refuted_zero`), a PEM text with no slash
  among its first 256 bytes raises `OSError` on Linux (`C94_refuted_name`; this is some 3 % of all RSA keys), and a secret that happens to
  name a file is replaced by its content (`C95_refuted_file`).
- `ECKey.parse` and `RSAKey.parse` (`/repo/src/psion/jose/jwa/jwk.py:279-348`, `742-811`) look for the letters `PRIVATE` anywhere in the text, not in
  the label (`C94_refuted_letters`).
- Token endpoint (`/repo/src/psion/oauth2/endpoints/token.py:79-82`): the status of a response to refused Basic credentials is 400, while RFC 6749
  demands 401 (`C96_refuted_status`). Basic credentials with an empty secret are treated as if they were not there (`C96_refuted_empty`).
- `ECKey.sign`, `verify` (`/repo/src/psion/jose/jwa/jwk.py:404-442`): ECDSA signatures are DER encoded, while RFC 7518 prescribes the two numbers in octets of
  fixed length. Tokens of other implementations are refused (with ES512 all, otherwise all but those whose first octet happens to be 48), and
  the tokens of the library are longer than they may be (`C99_ecdsa_refuted`, `C99_ecdsa_sign_refuted`).
- `RSAKey.sign`, `verify` (`/repo/src/psion/jose/jwa/jwk.py:900-903`, `938-943`): the salt of PSS signatures is as long as the modulus permits, while RFC 7518
  prescribes the length of the digest; tokens are not exchangeable with other implementations (`C99_pss_refuted`).
- Secrets of any length are accepted for HMAC, RSA keys are generated from 512 bits on (`C100_refuted`).
- `ECKey.dump` (`/repo/src/psion/jose/jwa/jwk.py:350-376`) drops leading zero octets of coordinates, which RFC 7518 forbids (`C101_refuted`).
- The three methods of client authentication (`/repo/src/psion/oauth2/authentication/methods/client_secret_basic.py:33-46` and the other two) describe
  the reason in `error_description`, so an answer tells whether a client exists and whether a secret is right though the method is not (`C104_refuted`).
- `get_basic_authorization` (`/repo/src/psion/webtools.py:239-273`) does not decode the two halves as in a form, as RFC 6749 prescribes. A client whose id or
  secret has, say, a space or a percent sign cannot authenticate with this method if it follows the standard (`C106_refuted`).
- The token endpoint takes codes and refresh tokens from the query string as well (`/repo/src/psion/oauth2/models/http.py:69-71`), where they end up in logs
  (`C107_refuted`).
- Repeated parameters are not refused; the last one counts (`C108_refuted`, `C108_partial`).
- `error_description` quotes the `grant_type` of the request in quotation marks, which RFC 6749 does not permit there (`C109_refuted`).
- Code challenges with any characters and verifiers of any length and with any characters are accepted (`C110_challenge_refuted`, `C110_verifier_refuted`).
- A logout of the example application is a GET request without any protection (`/repo/example/views/auth.py:97-108`): a link or an image on any site logs the
  user out everywhere and deletes their refresh tokens (`C112_refuted`).
- RSA keys are generated from 512 bits on, but one below 745 bits cannot sign under RS512, and the error is a bare `ValueError`
  (`C114_refuted`; `/repo/src/psion/jose/jwa/jwk.py:723`).
- Errors that are not those of the library reach the caller: `TypeError` for a header whose `alg` is a list (`C115_refuted`) and for keys with missing members,
  `ValueError` and `binascii.Error` for keys with wrong numbers or encodings (`C118_refuted`), `RuntimeError` for a public raw key where the private key is asked
  for (`C119_refuted`).
- The signature of an accepted token can be written in other ways by anybody, so a token must not be recognised by its text, for instance in a list of revoked
  tokens: the base64 reader skips foreign characters (`C121_text_refuted`), and ECDSA signatures with `n - s` for `s` are accepted (`C121_ecdsa_refuted`).
- The parameter `scope` is split at any white space of Python, also tabulators, line ends and the white space of Unicode, though
  RFC 6749 allows the space only (`C123_refuted`, `C123_authorize_refuted`).
- A code that is presented by another client than the one it was made for is removed (`/repo/src/psion/oauth2/grants/authorization_code.py:317-320`, the `finally` of
  the token request), so whoever gets hold of a code and has a client of their own can prevent its use (`C130_refuted`).
- `JsonWebKey.generate("EC", "P-256")` raises `ValueError` if the drawn point has the first coordinate zero (`C131_refuted`; `int_to_b64(0)` is empty,
  `/repo/src/psion/jose/jwa/jwk.py:272`); it happens with a probability of about 2^-255.
- The error of the token endpoint tells a client whether a code or a refresh token that it presents belongs to another client or does not exist
  (`C132_refuted`; RFC 6749 asks for `invalid_grant` in both cases).
- A key whose `kid` is a list or an object makes `JsonWebKeySet` raise `TypeError` (`set(ids)`, `/repo/src/psion/jose/jwk.py:238`), and so does a member
  `keys` that is a number; a text or an object there raises `InvalidKey` instead of `InvalidKeySet` (`C135_refuted`).
- The access tokens of the example application declare the type `at+jwt` but lack the audience that RFC 9068 requires (`C138_refuted`;
  `/repo/example/adapter.py:69-79`).
- The example application signs ID tokens under `HS256` with its own secret, the one of the access tokens, instead of the secret of the client
  (`C139_refuted`; OpenID Connect Core 1.0, section 10.1; `/repo/example/adapter.py:125`). A client cannot check its ID tokens; a client that is given the
  key in order to check them can make access tokens.
- Refresh tokens are not rotated, not even those of clients without a secret (`C140_refuted`; OAuth 2.1, section 6.1): the grant does not invalidate the
  presented token (`/repo/src/psion/oauth2/grants/refresh_token.py:147-173`), and the example adapter answers with the same token again
  (`/repo/example/adapter.py:127-144`).
- Authorization codes live a day (`/repo/example/adapter.py:44`; `C141_refuted`); RFC 6749, section 4.1.2, recommends ten minutes at most.
- The second use of a code is refused, but the tokens from the first use stay valid (`C143_refuted`; RFC 6749, section 4.1.2, recommends their revocation, and
  the comment in `/repo/src/psion/oauth2/grants/authorization_code.py:66-73` repeats it).
- The description of an error reveals whether a request contains any parameters, recognised or not (`C144_refuted`; harmless).
- A key set with a member besides `keys` is refused (`C145_keyset_refuted`; `/repo/src/psion/jose/jwk.py:251-257`), although RFC 7517, section 5, requires that such
  members are ignored; so is a set with one key of an unknown type (`C145_unknown_refuted`; "SHOULD ignore").
- A key with a member called `self` raises `TypeError` (`C145_self_refuted`), because the members are passed as keyword arguments
  (`/repo/src/psion/jose/jwk.py:44-45`).
- The member `oth` of an RSA private key is ignored (`C145_oth_refuted`); RFC 7518, section 6.3.2.7, forbids the use of such keys to a reader that does not
  understand it.
- The parameters `prompt` and `max_age` are not read: a user without a session is sent to the login page even with `prompt=none` (`C146_none_refuted`), a user with a
  session is not authenticated anew (`C146_login_refuted`; `/repo/example/views/connect.py:15-23`), and no ID token has `auth_time`
  (`C146_auth_time_refuted`; `/repo/src/psion/oidc/flows/authorization_code.py:73-82`).

- Users are not asked before a client is authorized: a `GET` request with the session of the user is enough for a code, so that any link does it, and `GET /auth/logout`
  logs the user out (`C148_refuted`, `C148_unasked_refuted`; `/repo/example/views/connect.py:15-23`, `/repo/example/views/auth.py:97-108`).

- A request to revoke an access token is answered with 200 and does nothing: the token stays valid until its hour is over (`C149_access_refuted`;
  `/repo/src/psion/oauth2/endpoints/revocation.py:28` lists `access_token` as supported, `/repo/example/adapter.py:149-155` only knows refresh tokens). RFC 7009,
  section 2.2.1, has the error `unsupported_token_type` for this case.

- The claim `sub` of an access token is the bare id of the user or of the client. If a client is given the id of a user, its own token and the token for that user
  are the same text (`C150_refuted`; `/repo/example/adapter.py:60-64`). RFC 9068, section 5, asks the server to keep the two apart; here only the randomness of UUIDs does.
## 8. Wrong programs

To test whether the theorems say what the English sentences say, realistic bugs were put into a scratch copy of the model, one at a
time, and everything was rebuilt; proofs that failed were replaced by `sorry` until the build went through, so that
`#print axioms` then showed all theorems of the manifest that depend on a failed proof. `seeded/LOG.jsonl` has one line for each attempt:
the definition, the edit, the claims it breaks, the theorems that failed (directly, and through a lemma), and what was tightened.

There were two kinds of attempts. About 620 edits were chosen by hand as bugs that a programmer could make in the modelled function, with
the claim that they break; 33 of them (or of the mechanical ones) survived or broke too little, and led to the tightened or new theorems named in the log.
The others, called mechanical, were made by a script that swaps comparisons, connectives, branches, constants, errors and members all over the
model; each was only built until the first failure, and those that survived were judged by hand.
## 9. Trusted base

* The kernel of Lean 4.33.0, and the axioms listed below. There are no further axioms, no `sorry`, no `native_decide`, no `bv_decide`.
* That each definition does what the cited lines of Python do. This was checked by reading, and for the JOSE part with the values recorded in `/repo/tests/jose` (`Real/Vectors.lean`); no code of /repo was run.
* The behaviour of CPython (3.9 or later) and its standard library as written down in `lean/Verif/Py`.
* For the properties of the example application, the behaviour of the ORM, of the database and of the web framework as described
  in section 5.
* That the statements in `lean/Verif/Props` express the sentences of `properties.jsonl`; the notes in the manifest say where they are weaker.

### Axioms of the theorems in the manifest

From `#print axioms`. No other axiom occurs; `sorryAx` and `Lean.ofReduceBool` do not.

* `none` (1): C129_literal

* `propext` (12): C02_distinct_spellings_refuted, C02_lenient_examples, C03_int_roundtrip_refuted, C03_negative, C07_fulldict_partial, C19_oct_pair, C22_hmac_with_rsa, C91_refuted_auth_time, C92_one, C135_refuted, C145_self_refuted, C145_keyset_refuted

* `propext, Quot.sound` (148): C01_length, C04_collision, C05_urlencode_total, C06_location_total, C07_fulldict_refuted, C07_assign, C07_construction, C09_header_never_raises_partial, C09_header_never_raises_refuted, C09_only_value_error, C12_unknown, C14_public_dump_partial, C14_noninterference, C14_key_set_partial, C16_parse_public, C18_public_cannot_sign, C19_serialize_total, C20_expected_algorithm, C21_key_bound_alg, C22_no_key_confusion, C23_unsigned_partial, C25_malformed_partial, C26_header_validation, C26_crit_refuted, C27_key_usage_partial, C29_expired_partial, C29_clock_refuted, C29_clock_utc, C30_future_partial, C30_future_all, C30_boundary, C30_clock_refuted, C31_claim_types, C31_decoded, C31_exact, C32_options_partial, C32_no_lists_partial, C33_no_validation, C33_default_checks, C33_validation_only_restricts, C43_refuted, C43_refuted_crash, C44_refuted, C44_refuted_verifier, C44_refuted_header, C45_refuted, C46_refuted, C46_open_redirects, C47_refuted, C48_refuted, C51_empty_scope_refuted, C53_refuted, C53_refuted_header, C55_refuted, C55_refuted_one_provider, C55_registered_per_grant, C55_other_grants, C56_refuted_name, C56_refuted_empty, C56_without_openid, C59_refuted, C59_refuted_expired, C60_form_overrides, C60_no_empty_parameter, C60_header_names, C61_data, C61_read_only, C61_lookup_refuted, C63_refuted, C66_bearer_exact, C67_loaded, C68_parse_options, C68_parse_same_key, C68_generate_refused, C69_sessions, C70_sessions, C70_refresh, C70_refuted, C73_partial, C74_refuted, C74_refuted_head, C75_cookie, C75_refuted, C77_consent, C79_serialize, C79_deserialize, C87_refuted, C87_refuted_client, C90_refuted_nonce, C90_refuted_long_nonce, C90_refuted_blank, C90_refuted_code, C90_refuted_verifier, C90_refuted_header, C90_refuted_revoke, C90_refuted_head, C90_refuted_host, C93_partial, C94_refuted_letters, C94_refuted_name, C95_refuted_zero, C99_accept_partial, C99_sign_partial, C99_ecdsa_sign_refuted, C99_pss_refuted, C102_authorize, C102_consent, C102_hooks, C104_login, C107_authenticate, C107_revoke, C107_refuted, C110_verifier_refuted, C111_refused, C111_answers, C112_refuted, C114_partial, C114_refuted, C115_header_partial, C115_refuted, C116_errors, C116_expired, C116_early, C116_decode, C117_header, C118_type_partial, C118_invalid_partial, C123_refuted, C123_authorize_refuted, C129_zero, C130_refuted, C133_refuted, C136_consent, C144_token_partial, C144_authorize_partial, C144_consent_partial, C144_revoke, C144_refuted, C145_claims, C145_header, C145_key_partial, C145_use, C145_unknown_refuted, C145_oth_refuted, C148_login_partial, C148_unasked_refuted, C148_refuted, C150_refuted

* `propext, Classical.choice, Quot.sound` (307): C01_base64url_roundtrip, C02_distinct_spellings_partial, C03_int_roundtrip_partial, C03_injective, C04_string_roundtrip, C04_bytes_roundtrip, C05_urlencode_roundtrip, C06_location_safe, C06_location_identity, C08_basic_roundtrip, C08_basic_sound, C08_basic_exact, C09_exact, C10_secret_token, C11_json_roundtrip, C11_json_roundtrip_bytes, C12_half_hash, C13_reload_partial, C13_reload_refuted, C13_zero_refuted, C13_public_reload, C14_public_dump_refuted, C19_public_dump_verifies, C15_key_set, C15_get_key, C15_load, C17_export_refuted, C17_export_refuted_key, C17_export_partial, C19_jws_roundtrip, C23_unsigned_refuted, C24_integrity, C25_malformed_refuted, C25_dots, C27_key_ops_refuted, C28_jwt_roundtrip_partial, C28_all_null_refuted, C29_exp_zero_refuted, C32_options_refuted, C34_only_utf8_objects, C35_authentication_sound, C35_single_lookup, C35_failures, C36_one_method_refuted, C36_one_method_partial, C36_no_downgrade, C37_confidential, C37_no_refresh_token, C37_no_refresh_token_returned, C38_grant_types, C38_refresh_tokens, C38_other_operations, C39_pkce, C39_pkce_refresh, C39_stored, C40_code_binding, C40_code_binding_refresh, C41_expiry, C41_expiry_refresh, C42_code_deleted, C42_endpoint, C42_success, C43_window, C43_partial, C44_status, C44_partial, C45_partial, C46_partial, C46_logged_in_partial, C47_partial, C48_partial, C48_query_refuted, C48_fragment_refuted, C49_stored, C49_stored_for, C49_example, C49_client_credentials, C49_refresh, C49_refuted, C50_refresh_narrows, C50_refresh_narrows_refresh, C51_scope_reported_partial, C52_no_escalation, C52_example, C53_operations, C53_once, C53_answers, C53_partial, C54_isolation, C54_unusable, C55_partial, C56_exact, C56_partial, C57_refuted, C57_partial, C58_refuted, C58_exact, C58_partial, C59_exact, C59_partial, C60_methods, C61_redirect_partial, C62_error_redirect, C62_error_body, C62_token_endpoint, C62_authorization_endpoint, C63_partial, C64_end_to_end, C65_content, C65_expires, C65_authorized, C68_generate, C70_partial, C70_quiet_partial, C71_end_to_end, C72_login_detour, C73_refuted, C74_partial, C74_refuted_host, C75_login_partial, C76_client_credentials, C76_authorization_code, C76_refresh_token, C77_authorize, C78_revoke, C80_options, C80_issue, C80_decode, C80_decode_text, C81_exchange, C82_token, C82_authorize, C83_identity, C83_login, C84_exchange, C84_refresh, C84_flow, C85_published, C85_reload, C86_grammar, C86_unambiguous, C86_printed, C86_members, C86_stable, C87_partial, C44_json_type, C88_authorize, C88_consent, C88_revoke, C89_written, C89_parameters, C89_query, C89_form, C89_request, C90_partial, C90_performed_partial, C91_partial, C91_refuted_nonce, C92_parse, C93_refuted_encrypted, C93_refuted_der, C94_partial, C95_partial, C95_refuted_file, C96_revoke, C96_token_partial, C96_refuted_status, C96_refuted_empty, C97_error_page, C97_refused, C98_login_form, C98_detour, C99_ecdsa_refuted, C100_generate_partial, C100_refuted, C101_dump_partial, C101_load, C101_refuted, C102_token, C102_revoke, C103, C104_revoke_partial, C104_token_partial, C104_refuted, C105, C106_partial, C106_refuted, C108_partial, C108_refuted, C109_token_partial, C109_authorize_partial, C109_refuted, C110_plain_partial, C110_challenge_refuted, C112_partial, C113_pair, C113_ec_sound, C113_roundtrip, C113_rfc, C117_token, C117_sign, C118_refuted, C119_partial, C119_refuted, C120_loaded, C120_loads, C120_private, C120_accept, C120_sign, C120_roundtrip, C121_partial, C121_text_refuted, C121_ecdsa_refuted, C122_token, C122_web, C123_stored, C123_credentials, C123_refresh, C123_written, C124_hash, C124_accept, C124_sign, C124_challenge, C125_accept, C125_sign, C126_base64url, C126_base64url_decode, C126_base64_decode, C126_number_partial, C126_number_refuted, C126_number_read, C126_utf8, C126_utf8_error, C126_to_string, C127_private, C127_password, C127_public_partial, C127_export, C127_roundtrip_partial, C127_public_refuted, C128_at_hash, C128_token, C129_read, C129_nearest, C129_overflow, C129_write, C129_roundtrip, C129_stable, C129_assumptions, C130_partial, C131_partial, C131_refuted, C131_small_refuted, C132_partial, C132_answers_partial, C132_refuted, C133_refresh, C133_session, C133_code_partial, C134, C134_session, C134_code, C134_refresh, C135_keys_partial, C135_load_partial, C135_texts_partial, C136_token, C136_revoke, C136_authorize, C137_access, C137_identity, C137_client, C137_server, C137_distinct, C138_partial, C138_refuted, C139_partial, C139_only, C139_refuted, C140_partial, C140_refuted, C141_partial, C141_access, C141_refuted, C142_answered, C142_code, C142_refresh, C142_session, C143_partial, C143_refuted, C144_web_partial, C144_piece, C144_omitted, C146_none_partial, C146_none_refuted, C146_login_refuted, C146_auth_time_refuted, C147_token, C147_authorize, C147_revoke, C147_example_token, C147_example_authorize, C147_example_store, C147_web, C149_partial, C149_access_refuted, C150_partial
