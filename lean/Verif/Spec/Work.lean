import Verif.Spec.OAuth

/-!
# Vocabulary for the property about what a request does to the stored codes and tokens
-/

namespace Psion.Spec

open Psion

/-- The operations on stored codes and tokens, in their order. -/
def storeOps (tr : List Ev) : List Op := (tr.map (·.op)).filter touchesStore

/-- The complete sequences of operations on stored codes and tokens of a token request with these parameters. -/
inductive TokenWork (data : Dict PyStr PyStr) : List Op → Prop
  | nothing : TokenWork data []
  | credentials (c : Client) (scopes : List PyStr) : TokenWork data [.createAccess c (.client c) scopes]
  | refresh (token : PyStr) (c : Client) (u : Option User) (scopes : List PyStr) :
      Dict.get data (py! "refresh_token") = some token →
      TokenWork data [.getRefresh token, .createAccess c (.user u) scopes, .createRefresh c u scopes]
  | failed (code : PyStr) : Dict.get data (py! "code") = some code → TokenWork data [.deleteCode (.str code)]
  | refused (code : PyStr) : Dict.get data (py! "code") = some code →
      TokenWork data [.getCode (.str code), .deleteCode (.str code)]
  | code (code : PyStr) (c : Client) (u : User) (scopes : List PyStr) : Dict.get data (py! "code") = some code →
      TokenWork data [.getCode (.str code), .createAccess c (.user (some u)) scopes, .deleteCode (.str code)]
  | codeRefresh (code : PyStr) (c : Client) (u : User) (scopes : List PyStr) : Dict.get data (py! "code") = some code →
      TokenWork data [.getCode (.str code), .createAccess c (.user (some u)) scopes, .createRefresh c (some u) scopes,
        .deleteCode (.str code)]

/-- The complete sequences of operations on stored codes and tokens of an authorization request of this user. -/
inductive AuthorizeWork (user : Option User) : List Op → Prop
  | nothing : AuthorizeWork user []
  | code (code : PyStr) (data : Dict PyStr Val) (c : Client) (u : User) : user = some u →
      AuthorizeWork user [.saveCode code data c u]

end Psion.Spec
