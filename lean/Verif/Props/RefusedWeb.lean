import Verif.Props.Refused
import Verif.Props.WebAnswer

/-!
# C147 for the web requests of the example application
-/

namespace Psion.Props

open Psion Spec Example

variable {env : OEnv} {emailOk : PyStr → Bool}

/-- C147 at the web: in every history of web requests, whatever the others do and however the database fails, a request to the token or
revocation endpoint that is answered, but not with the status 200, has stored no code, made no token and revoked none. -/
theorem C147_web (w w' : WStore) (h : List WStep) (hrun : WRun env w h w') (i : Nat) (req : WebRequest)
    (hroute : req.route = .token ∨ req.route = .revoke) (hm : req.method = py! "POST") (hl : ∀ kv ∈ req.headers, asciiLower kv.1 = kv.1)
    (sv : Served) (hx : WExec (app env (exHooks env) emailOk req) (ofWeb i h) (.ok sv))
    (hst : ∀ headers body, sv.reply ≠ .response 200 headers body) : GaveNothing (libOf (ofWeb i h)) := by
  have hex := wrun_lib hrun
  rcases C74_partial req (ofWeb i h) (.ok sv) (Or.inr ⟨hroute, hm⟩) hl hx with
    ⟨user, r, lib, -, -, h3, h4⟩ | ⟨-, -, h⟩ | ⟨_, _, -, -, h⟩ | ⟨c, -, ht, -⟩
  · rcases h4 with ⟨e, -, h⟩ | ⟨-, h⟩ | ⟨response, rfl, ⟨reply, hp, h⟩ | ⟨-, e, h⟩⟩
    · cases h
    · cases h
    · cases h
      have hne : response.status ≠ 200 := by
        intro h200
        obtain ⟨hs, extra, hr, -⟩ := hp
        rw [h200] at hr
        exact hst _ _ hr
      rw [← ofRequest_libSteps] at h3 ⊢
      rcases hroute with hr | hr <;> rw [hr] at h3
      · cases h3 with
        | token _ _ _ hx' => exact C147_example_token env w.db w'.db _ hex i r response hx' hne
      · cases h3 with
        | revoke _ _ _ hx' =>
          exact C147_revoke env exProvider r _ _ hx' (by rintro _ ⟨⟩; exact hne)
            (fun c t k x hev => ofRequest_silent hex i _ hev x rfl)
    · cases h
  · cases h
  · cases h
  · rw [ht]
    intro ev hev
    cases hev

/-- A wrong code verifier: the request is answered with 400, after a login and an authorization. -/
def refusedReqs : Nat → WebRequest
  | 0 => webLogin [] (py! "correct horse")
  | 1 => webAuthorize
  | _ => { webExchange with
      body := by! "grant_type=authorization_code&redirect_uri=https://c/cb&code_verifier=baaaaaaaaaaaaaaaaaaaaaaaaaaaaaaaaaaaaaaaaaa&code=" ++ exCode }

example : webStatus ((webSim refusedReqs (exTurn 0 4 2 ++ exTurn 1 4 0 ++ exTurn 2 13 1)).2.2 2) = some 400 ∧
    (∀ kv ∈ (refusedReqs 2).headers, asciiLower kv.1 = kv.1) ∧
    (libOf (ofWeb 2 (webSim refusedReqs (exTurn 0 4 2 ++ exTurn 1 4 0 ++ exTurn 2 13 1)).1)).length ≠ 0 := by decide +kernel

/-- With the right one, tokens are made. -/
example : (ofWeb 3 (webSim webReqs webStory).1).any (accessFor (py! "u1")) = true ∧
    webStatus ((webSim webReqs webStory).2.2 3) = some 200 := by decide +kernel

end Psion.Props
