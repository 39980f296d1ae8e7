import Verif.OAuth.SuccessLemmas
import Verif.OAuth.RedirectLemmas
import Verif.OAuth.RevokeLemmas

/-!
# Legitimate requests to the authorization and revocation endpoints: lemmas
-/

namespace Psion

open Spec

variable {tr : List Ev}

theorem not_blank {data : Dict PyStr PyStr} {k v : PyStr} (h : Dict.get data k = some v) (hv : v ≠ []) :
    ¬ blank data k = true := by
  rw [Bool.not_eq_true, blank_eq_false]
  exact ⟨v, h, hv⟩

theorem validateRequest_served {data : Dict PyStr PyStr} {uri id rt : PyStr}
    (hu : Dict.get data (py! "redirect_uri") = some uri) (hu' : uri ≠ [])
    (hi : Dict.get data (py! "client_id") = some id) (hi' : id ≠ [])
    (hr : Dict.get data (py! "response_type") = some rt) (hr' : rt ≠ []) : validateRequest data = .ok () := by
  unfold validateRequest
  rw [if_neg (by rintro rfl; cases hu), if_neg (not_blank hu hu'), if_neg (not_blank hi hi'), if_neg (not_blank hr hr')]

theorem returns_validateClient {id uri rt : PyStr} {st : Option PyStr} {c : Client}
    (hf : ∀ r, (⟨.findClient id, r⟩ : Ev) ∈ tr → r = .ok (some c)) (hu : uri ∈ c.redirectUris) (hr : rt ∈ c.responseTypes) :
    Returns tr (fun c' => c' = c ∧ FoundClient tr id c) (validateClient id uri rt st) := by
  unfold validateClient
  refine returns_await (fun r hr' => ⟨some c, hf r hr', ?_⟩)
  dsimp only
  rw [if_neg (by simpa using hu), if_neg (by simpa using hr)]
  refine returns_ret ⟨rfl, ?_⟩
  rw [hf r hr'] at hr'
  exact hr'

theorem returns_catch {α : Type} {Q : α → Prop} {p : P α} {f : OErr → P α} (hp : Returns tr Q p) :
    Returns tr Q (P.catchOAuth p f) := by
  intro h
  rw [wpp_catch]
  exact wpp_mono (hp h) (fun _ _ h => h) (fun _ _ h => h) (fun _ _ h => h.elim)

theorem validateResponseType_served {env : OEnv} {table : Hooks} {p : Provider} {st : Option PyStr}
    (hg : .authorizationCode ∈ p.grants) :
    validateResponseType (p.objects env table) (py! "code") st = .ok (grantOf env p.cfg table .authorizationCode) := by
  cases hv : validateResponseType (p.objects env table) (py! "code") st with
  | ok grant =>
    obtain ⟨g, -, rfl⟩ := validateResponseType_ok hv
    rfl
  | error e =>
    exfalso
    unfold validateResponseType at hv
    split at hv
    · cases hv
    · rename_i hnone
      rw [List.find?_eq_none] at hnone
      exact hnone (grantOf env p.cfg table .authorizationCode) (List.mem_map.mpr ⟨_, hg, rfl⟩) (decide_eq_true rfl)

theorem authorizationParams_served {data : Dict PyStr PyStr} {uri text m ch : PyStr}
    (hc : Dict.get data (py! "code_challenge") = some ch) (h1 : 43 ≤ ch.length) (h2 : ch.length ≤ 128)
    (hm : Dict.get data (py! "code_challenge_method") = some m) (hm' : m = py! "plain" ∨ m = py! "S256")
    (hu : Dict.get data (py! "redirect_uri") = some uri)
    (hs : Dict.get data (py! "scope") = some text) (hs' : text ≠ []) :
    ∃ d, authorizationParams data = .ok d := by
  unfold authorizationParams
  dsimp only
  rw [if_neg (not_blank hc (by rintro rfl; simp at h1)), hc]
  dsimp only [Option.getD]
  rw [if_neg (by omega), hm]
  dsimp only
  rw [if_neg (by rcases hm' with rfl | rfl <;> decide), if_neg (not_blank hs hs'), hu]
  exact ⟨_, rfl⟩

/-- What the response must be like so that it can be encoded. -/
structure ResponseOk (env : OEnv) (code : PyStr) (st : Option PyStr) (d : Dict PyStr Val) : Prop where
  ok : Dict.Ok d
  code : Dict.get d (py! "code") = some (.str code)
  state : Dict.get d (py! "state") = some (optVal st)
  encodable : ∀ k v, (k, v) ∈ d → k ≠ py! "url" ∧ Encodable k ∧ (v ≠ .none → Encodable (env.str v))

theorem responseOk_encode {env : OEnv} {uri code : PyStr} {st : Option PyStr} {d : Dict PyStr Val}
    (hd : ResponseOk env code st d) : ∃ u, urlencodeVals env uri d = .ok u := by
  unfold urlencodeVals
  rw [if_neg]
  · obtain ⟨u, hu⟩ := Props.C05_urlencode_total uri (strParams env d) (by
      intro k v hkv
      unfold strParams at hkv
      obtain ⟨⟨k', v'⟩, hm, heq⟩ := List.mem_map.mp hkv
      cases heq
      obtain ⟨hm, hv⟩ := List.mem_filter.mp hm
      obtain ⟨-, h1, h2⟩ := hd.encodable _ _ hm
      exact ⟨h1, h2 (by rintro rfl; cases hv)⟩)
    unfold strParams at hu
    rw [hu]
    exact ⟨u, rfl⟩
  · intro hm
    unfold Dict.mem at hm
    obtain ⟨v, hv⟩ := Option.isSome_iff_exists.mp hm
    exact (hd.encodable _ _ (Dict.mem_of_get hv)).1 rfl

theorem secretToken_served (choices : Op.choices64.Ans) : ∃ code, secretToken choices.val = .ok code ∧ Encodable code := by
  have hne : choices.val ≠ [] := by
    intro hn
    have := choices.property
    rw [hn] at this
    cases this
  obtain ⟨s, h3, -, h5⟩ := Props.C10_secret_token choices.val hne
  refine ⟨s, h3, encodable_ascii ?_⟩
  intro ch hch
  have := h5.1 ch hch
  omega

theorem returns_codeAuthorize {env : OEnv} {cfg : Config} {table : Hooks} (hb : Benign table) (hh : AuthHooksWork env table tr)
    {data : Dict PyStr PyStr} {c : Client} {user : User} {uri text m ch : PyStr} {ws allowed : List PyStr}
    (hc : Dict.get data (py! "code_challenge") = some ch) (h1 : 43 ≤ ch.length) (h2 : ch.length ≤ 128)
    (hm : Dict.get data (py! "code_challenge_method") = some m) (hm' : m = py! "plain" ∨ m = py! "S256")
    (hu : Dict.get data (py! "redirect_uri") = some uri)
    (hs : Dict.get data (py! "scope") = some text) (hs' : text ≠ []) (hw : Words text ws) (hp : Permits c allowed)
    (hall : ∀ s ∈ ws, s ∈ cfg.scopes ∧ s ∈ allowed) (hst : ∀ s, Dict.get data (py! "state") = some s → Encodable s)
    (hdraw : ∀ r, (⟨.choices64, r⟩ : Ev) ∈ tr → ∃ a, r = .ok a)
    (hsave : ∀ code d r, (⟨.saveCode code d c user, r⟩ : Ev) ∈ tr → r = .ok ()) :
    Returns tr (fun url => ∃ code valid response, AuthParams data valid ∧ (⟨.saveCode code valid c user, .ok ()⟩ : Ev) ∈ tr ∧
      ResponseOk env code (Dict.get data (py! "state")) response ∧ urlencodeVals env uri response = .ok url)
      (codeAuthorize env cfg table data c user) := by
  obtain ⟨d, hd⟩ := authorizationParams_served hc h1 h2 hm hm' hu hs hs'
  unfold codeAuthorize
  refine returns_bind (Q := AuthParams data) ?_ ?_
  · unfold validateAuthorizationRequest
    refine returns_known hd (returns_runHooks ?_ ?_ (authorizationParams_ok hd))
    · intro f hf acc tr' e hsub _
      obtain ⟨g, hg, rfl⟩ := List.mem_map.mp hf
      exact hh.request g hg data tr' e hsub
    · intro f hf acc tr' d hsub hx hv
      obtain ⟨g, hg, rfl⟩ := List.mem_map.mp hf
      exact authParams_keys hv (get_update_free ((hb.authorizationRequest g hg data).keys tr' d hx))
  intro valid hv
  obtain ⟨text', ht, hsc⟩ := hv.scopes
  obtain ⟨uri', hu1, hu2⟩ := hv.uri
  rw [hs] at ht
  cases ht
  rw [hu] at hu1
  cases hu1
  rw [words_iff] at hw
  rw [hw] at hsc
  refine returns_known (item_ok hsc) ?_
  refine returns_known (validateRequestedScopes_served hp (fun s hs => (hall s hs).1) (fun s hs => (hall s hs).2)) ?_
  refine returns_await ?_
  intro r hr
  obtain ⟨choices, rfl⟩ := hdraw r hr
  refine ⟨choices, rfl, ?_⟩
  obtain ⟨code, hcode, henc⟩ := secretToken_served choices
  refine returns_known (a := code) (by rw [hcode]; rfl) ?_
  refine returns_await (fun r hr => ⟨(), hsave _ _ r hr, ?_⟩)
  rw [hsave _ _ r hr] at hr
  have hstate : dget valid (py! "state") = optVal (Dict.get data (py! "state")) := by
    unfold dget
    rw [hv.state]
    rfl
  rw [hstate]
  refine returns_bind (returns_runHooks (I := ResponseOk env code (Dict.get data (py! "state"))) ?_ ?_ ?_) ?_
  · intro f hf acc tr' e hsub _
    obtain ⟨g, hg, rfl⟩ := List.mem_map.mp hf
    exact (hh.response g hg code valid c user tr' hsub).1 e
  · intro f hf acc tr' d hsub hx hi
    obtain ⟨g, hg, rfl⟩ := List.mem_map.mp hf
    have hk := get_update_free (acc := acc) ((hb.authorizationResponse g hg code valid c user).keys tr' d hx)
    refine ⟨Dict.ok_update hi.ok d, by rw [hk _ (by simp)]; exact hi.code, by rw [hk _ (by simp)]; exact hi.state, ?_⟩
    intro k v hkv
    rcases Dict.mem_update hkv with h | h
    · exact hi.encodable k v h
    · obtain ⟨a, b, c⟩ := (hh.response g hg code valid c user tr' hsub).2 d hx k v h
      exact ⟨a, b, fun _ => c⟩
  · refine ⟨by simp [Dict.Ok, Dict.keys], rfl, rfl, ?_⟩
    intro k v hkv
    simp only [List.mem_cons, List.not_mem_nil, or_false, Prod.mk.injEq] at hkv
    rcases hkv with ⟨rfl, rfl⟩ | ⟨rfl, rfl⟩
    · exact ⟨by decide, encodable_ascii (by decide), fun _ => henc⟩
    · refine ⟨by decide, encodable_ascii (by decide), ?_⟩
      cases hg : Dict.get data (py! "state") with
      | none => intro h; exact absurd rfl h
      | some s => intro _; exact hst s hg
  · intro response hresp
    refine returns_known (item_ok hu2) ?_
    obtain ⟨url, hurl⟩ := responseOk_encode (uri := uri) hresp
    have : urlencodeVals env (env.str (.str uri)) response = .ok url := hurl
    rw [this]
    exact returns_ret ⟨code, valid, response, hv, hr, hresp, hurl⟩

end Psion
