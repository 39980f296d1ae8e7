import Verif.Spec.StandardScopes
import Verif.Props.ExampleAuthorize
import Verif.Props.Authorize

/-!
# Property C49 for the example application
-/

namespace Psion.Props

open Psion Spec Example

/-- C49 (example application): the scopes stored with a code are scopes of OpenID Connect, and the client is registered for them. That each of
them can be had is part of C63, C84 and C105. -/
theorem C49_example (env : OEnv) (req : Request) (pre post : List Ev) (code : PyStr) (data : Dict PyStr Val) (row : ClientRow) (u : User)
    (ans : ORes Unit) (h : Partial (exProvider.authorize env (exHooks env) req) (pre ++ ⟨.saveCode code data row.client u, ans⟩ :: post)) :
    ∃ text ws, Dict.get req.data (py! "scope") = some text ∧ Words text ws ∧ Dict.get data (py! "scopes") = some (strList ws) ∧
      ∀ s ∈ ws, s ∈ standardScopes ∧ s ∈ row.scopes := by
  obtain ⟨text, ws, allowed, h1, h2, h3, h4, h5⟩ := C49_stored env (exHooks env) (exHooks_benign env) exProvider req pre post code data
    row.client u ans h
  refine ⟨text, ws, h1, h2, h3, fun s hs => ⟨(h5 s hs).1, ?_⟩⟩
  have e : liftRes (filterIn (strList ws) row.scopes) = .ok allowed := h4
  have hmem : ∀ (l : List PyStr) (r : List PyStr), filterIn (strList ws) l = .ok r → ∀ s ∈ r, s ∈ l := by
    intro l r hr x hx
    have : filterIn (strList ws) l = .ok (l.filter (fun s => decide (s ∈ ws))) := filterIn_strList ws l
    rw [this] at hr
    cases hr
    exact (List.mem_filter.mp hx).1
  cases hf : filterIn (strList ws) row.scopes with
  | error e' =>
    rw [hf] at e
    cases e
  | ok r =>
    rw [hf] at e
    cases e
    exact hmem _ _ hf s (h5 s hs).2

/-- The hypothesis is satisfiable: the request of the client of the toy database stores a code, for the scope `openid`. -/
example : ∃ pre post code data ans, Partial (exProvider.authorize toyEnv (exHooks toyEnv) (exAuthorize [(py! "nonce", py! "n")]))
    (pre ++ ⟨.saveCode code data exClient.client exUser.user, ans⟩ :: post) := by
  obtain ⟨r, code, data, loc, -, h2, -⟩ := C63_partial toyEnv exClient exUser.user (exAuthorize [(py! "nonce", py! "n")]) _ _ _ (py! "n") _
    (valid_exAuthorize _ (by decide +kernel) (by decide +kernel)) (by decide +kernel) (by decide) (by decide) _ _ (exec_run _ _)
    (exAuthorizeRun_undisturbed _)
  obtain ⟨pre, post, he⟩ := List.append_of_mem h2
  have hx := exec_partial (exec_run (exOracle exStore) (exProvider.authorize toyEnv (exHooks toyEnv) (exAuthorize [(py! "nonce", py! "n")])))
  exact ⟨pre, post, code, data, _, he ▸ hx⟩

end Psion.Props
