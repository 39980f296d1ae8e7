import Verif.OAuth.Provider
import Verif.Spec.Form
import Verif.Spec.Headers

/-!
# Vocabulary for the parameters that are not recognised

RFC 6749, sections 3.1 and 3.2: parameters sent without a value must be treated as if they were omitted, and the server must ignore
unrecognised parameters.
-/

namespace Psion.Spec

open Psion

/-- The parameters of an authorization request: RFC 6749, section 4.1.1, RFC 7636, section 4.3, and OpenID Connect Core 1.0, section
3.1.2.1, of which the library supports the `nonce`. -/
def authorizationNames : List PyStr :=
  [py! "response_type", py! "client_id", py! "redirect_uri", py! "scope", py! "state", py! "code_challenge",
    py! "code_challenge_method", py! "nonce"]

/-- The parameters of a token request: RFC 6749, sections 4.1.3, 4.4.2 and 6, and RFC 7636, section 4.5. -/
def tokenNames : List PyStr :=
  [py! "grant_type", py! "code", py! "redirect_uri", py! "code_verifier", py! "refresh_token", py! "scope"]

/-- The credentials of a client in a form: RFC 6749, section 2.3.1. -/
def credentialNames : List PyStr := [py! "client_id", py! "client_secret"]

/-- The parameters of a revocation: RFC 7009, section 2.1. -/
def revocationNames : List PyStr := [py! "token", py! "token_type_hint"]

/-- The parameters with these names are the same. -/
def Agree (names : List PyStr) (d d' : Dict PyStr PyStr) : Prop := ∀ k ∈ names, Dict.get d k = Dict.get d' k

/-- The same header `Authorization`, or none. -/
def SameAuthorization (r r' : Request) : Prop := ∀ auth, Sent r.headers auth ↔ Sent r'.headers auth

/-- The hooks, too, use only the recognised parameters of requests. -/
structure Attentive (hooks : Hooks) : Prop where
  authorization : ∀ h ∈ hooks.authorizationRequest, ∀ d d', Agree authorizationNames d d' → h d = h d'
  token : ∀ h ∈ hooks.tokenRequest, ∀ d d', Agree tokenNames d d' → h d = h d'

/-- The query strings give the parameters with these names the same values. -/
def AgreeText (names : List PyStr) (q q' : PyStr) : Prop := ∀ k ∈ names, ∀ v, Parameter q k v ↔ Parameter q' k v

/-- The query string or the form gives some parameter a value. -/
def SomeParameter (q text : PyStr) : Prop := ∃ k v, Parameter q k v ∨ Parameter text k v

end Psion.Spec
