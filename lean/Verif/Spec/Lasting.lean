import Verif.Spec.Isolation
import Verif.Spec.WebFlow

/-!
# Vocabulary for what happens between the requests of a flow
-/

namespace Psion.Spec

open Psion Example

/-- No two codes and no two refresh tokens have the same text. -/
structure KeyedStore (m : Store) : Prop where
  codes : (m.codes.map Prod.fst).Nodup
  refresh : (m.refresh.map RefreshTok.token).Nodup

/-- What happens meanwhile: any requests, in any interleaving, each as far as it gets, and with any failures of the database; but
nobody administers the database, and no authorization is asked for blank scopes only. -/
structure Meanwhile (env : OEnv) (emailOk : PyStr → Bool) (w w' : WStore) (reqs : Nat → WebRequest) (h : List WStep) : Prop where
  history : WHistory env (exHooks env) emailOk reqs h
  run : OnlyRequests env w h w'
  tame : ∀ i, Tame (reqs i)

/-- The user does not log out. -/
def NotLoggedOut (reqs : Nat → WebRequest) (h : List WStep) (uid : PyStr) : Prop :=
  ∀ pre i ev post, h = pre ++ (i, ev) :: post → (reqs i).route = .logout → ¬ UserSent reqs pre i uid

/-- No client presents the code. -/
def NotPresented (reqs : Nat → WebRequest) (h : List WStep) (code : PyStr) : Prop :=
  ∀ pre i ev post q id, h = pre ++ (i, ev) :: post → (reqs i).route = .token → ClientSent reqs pre i q id →
    Dict.get q.data (py! "code") ≠ some code

/-- The client does not revoke the token. -/
def NotRevoked (reqs : Nat → WebRequest) (h : List WStep) (token client : PyStr) : Prop :=
  ∀ pre i ev post q, h = pre ++ (i, ev) :: post → (reqs i).route = .revoke → ClientSent reqs pre i q client →
    Dict.get q.form (py! "token") ≠ some token

end Psion.Spec
