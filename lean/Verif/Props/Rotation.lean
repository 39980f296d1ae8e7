import Verif.Props.Lasting

/-!
# Property C140: the replay of a refresh token

OAuth 2.1 (draft-parecki-oauth-v2-1-03, section 6.1) demands for clients without a secret that a refresh token is replaced whenever
it is used, so that a stolen one is noticed or useless; for clients with a secret it is bound to the client by the authentication.
-/

namespace Psion.Props

open Psion Spec Example

variable {env : OEnv} {emailOk : PyStr → Bool} {reqs reqs2 : Nat → WebRequest}

/-- C140, clients with a secret: whoever uses a refresh token has authenticated as the client that it belongs to; if this client is
not registered without authentication, they have presented its secret. Missing are clients without a secret (`C140_refuted`). -/
theorem C140_partial (env : OEnv) (table : Hooks) (p : Provider) (req : Request) (pre post : List Ev) (c : Client) (owner : Owner)
    (scopes : List PyStr) (ans : ORes PyStr) (hg : Dict.get req.data (py! "grant_type") = some (py! "refresh_token"))
    (h : Partial (p.token env table req) (pre ++ ⟨.createAccess c owner scopes, ans⟩ :: post)) :
    ∃ token rt id, Dict.get req.data (py! "refresh_token") = some token ∧ FoundRefresh pre token rt ∧ rt.clientId = c.clientId ∧
      FoundClient pre id c ∧
      (c.authMethod ≠ py! "none" → ∃ secret, c.secret = some secret ∧ secret ≠ [] ∧
        (Credentials req.headers id secret ∨
          Dict.get req.form (py! "client_id") = some id ∧ Dict.get req.form (py! "client_secret") = some secret)) := by
  rw [token_hooks_irrelevant (by rw [hg]; decide)] at h
  obtain ⟨⟨m, id, hf, hp, hm, -⟩, u, ho, token, rt, now, base, h1, h2, h3, -⟩ :=
    justified_of (g := .refreshToken) (access_justified benign_empty h) hg
  refine ⟨token, rt, id, h1, h2, h3, hf, ?_⟩
  intro hne
  generalize c.secret = sec at hp
  cases hp with
  | basic _ secret hc _ hs => exact ⟨secret, rfl, hs, Or.inl hc⟩
  | post _ secret hi hsec _ hs => exact ⟨secret, rfl, hs, Or.inr ⟨hi, hsec⟩⟩
  | none_ => exact absurd hm hne

/-- C140 is false: a refresh token of the example application that has been used can be used again, as often as one likes, until it
expires; whatever other requests do in between, if its client does not revoke it and the user does not log out. This holds for all clients, also
for those without a secret, for which the token and the name of the client are all that the request contains. -/
theorem C140_refuted (hl : FloatLaws env.cr.fe) {w w1 w2 w3 w' : WStore} {h h2 : List WStep} {l l2 : List (Draw × WEv)}
    {out out2 : ORes Served} (hs : SoundStore w.db) (hk : KeyedStore w.db) (row : ClientRow) (urow : UserRow) (rt : RefreshTok)
    (hc : w.db.findClient row.id = some row) (hu : w.db.findUser urow.id = some urow) (hrt : rt ∈ w.db.refresh)
    (hac : rt.clientId = row.id) (hau : rt.userId = urow.id)
    (hm : Meanwhile env emailOk w w1 reqs h) (hnr : NotRevoked reqs h rt.token row.id) (hnl : NotLoggedOut reqs h urow.id)
    (once : WebRequest) (htc : TokenCall once) (hr : ∀ r, ArrivesAs once none r → Refreshes r row rt.token rt.scopes [])
    (hv : Visit env emailOk w1 once l w2 out) (hnow : ∀ p ∈ l, p.1.now < rt.expiration)
    (hm2 : Meanwhile env emailOk w2 w3 reqs2 h2) (hnr2 : NotRevoked reqs2 h2 rt.token row.id)
    (hnl2 : NotLoggedOut reqs2 h2 urow.id)
    (again : WebRequest) (htc2 : TokenCall again) (hr2 : ∀ r, ArrivesAs again none r → Refreshes r row rt.token rt.scopes [])
    (hv2 : Visit env emailOk w3 again l2 w' out2) (hnow2 : ∀ p ∈ l2, p.1.now < rt.expiration) :
    (∃ r reply scopes, out = .ok ⟨reply, none⟩ ∧ PassedOn r reply ∧
      ServedRefresh env w1.db (libDraws l) w2.db row urow scopes r) ∧
    ∃ r reply scopes, out2 = .ok ⟨reply, none⟩ ∧ PassedOn r reply ∧
      ServedRefresh env w3.db (libDraws l2) w'.db row urow scopes r ∧ ∀ s, s ∈ scopes ↔ s ∈ rt.scopes ∧ s ∈ row.scopes := by
  obtain ⟨r1, reply1, sc1, ho1, hp1, hs1, -, -⟩ := C134_refresh hl hs hk row urow rt [] hc hu hrt hac hau hm hnr hnl once htc hr hv hnow
  refine ⟨⟨r1, reply1, sc1, ho1, hp1, hs1⟩, ?_⟩
  have hst1 := stays_meanwhile hm hs hk
  have htame : Tame once := ⟨htc.names, fun hr => by rw [htc.route] at hr; cases hr⟩
  have hst2 := stays_visit hv htame hst1.sound hst1.keyed
  have kept : ∀ {w w' : WStore} {reqs : Nat → WebRequest} {h : List WStep}, WHistory env (exHooks env) emailOk reqs h →
      OnlyRequests env w h w' → rt ∈ w.db.refresh → NotRevoked reqs h rt.token row.id → NotLoggedOut reqs h urow.id →
      rt ∈ w'.db.refresh := by
    intro w w' reqs h hh hrun hrt hnr hnl
    rcases C133_refresh (exHooks_benign env) w w' h hh hrun rt hrt with h1 | ⟨pre, i, ev, post, he, ⟨g1, q, g2, g3⟩ | ⟨g1, g2⟩⟩
    · exact h1
    · exact absurd g3 (hnr pre i ev post q he g1 (hac ▸ g2))
    · exact absurd (hau ▸ g2) (hnl pre i ev post he g1)
  have hrt1 := kept hm.history hm.run hrt hnr hnl
  have hrt2 : rt ∈ w2.db.refresh := kept (visit_history hv).2 (onlyRequests_operates hv.alone) hrt1
    (fun pre i ev post q _ hroute => by rw [htc.route] at hroute; cases hroute)
    (fun pre i ev post _ hroute => by rw [htc.route] at hroute; cases hroute)
  obtain ⟨r2, reply2, sc2, ho2, hp2, hs2, h3, -⟩ := C134_refresh hl hst2.sound hst2.keyed row urow rt []
    (by rw [hst2.findClient, hst1.findClient, hc]) (by rw [hst2.findUser, hst1.findUser, hu]) hrt2 hac hau hm2 hnr2 hnl2 again htc2 hr2
    hv2 hnow2
  exact ⟨r2, reply2, sc2, ho2, hp2, hs2, h3 rfl⟩

/-! ### The hypotheses are satisfiable -/

/-- A client without a secret. -/
def publicClient : ClientRow := { exClient with secret := none, authMethod := py! "none" }

/-- Its refresh token. -/
def publicToken : RefreshTok := ⟨py! "rt", py! "c1", py! "u1", [py! "openid"], 9000000⟩

def publicStore : WStore := ⟨{ exStore with clients := [publicClient], refresh := [publicToken] }, []⟩

/-- Anybody uses it. -/
def publicAgain : WebRequest :=
  { webExchange with headers := [], body := by! "grant_type=refresh_token&refresh_token=rt&client_id=c1" }

def firstUse := tour 6 2 publicStore publicAgain

def secondUse := tour 6 3 firstUse.2.1 publicAgain

theorem public_sound : SoundStore publicStore.db := by
  refine ⟨⟨?_, ?_, ?_, ?_⟩, ?_, ?_⟩
  · intro row hrow
    cases List.mem_singleton.mp hrow
    exact exUser_plain
  · have : ∀ row ∈ publicStore.db.clients, (∀ c ∈ row.id, c < 128) ∧ ∀ s ∈ row.scopes, ∀ c ∈ s, c < 128 := by decide +kernel
    intro row hrow
    exact ⟨encodable_ascii (this row hrow).1, fun s hs => encodable_ascii ((this row hrow).2 s hs)⟩
  · intro code ac h
    cases h
  · intro rt h
    cases List.mem_singleton.mp h
    exact encodable_ascii (s := py! "rt") (by decide)
  · intro code ac h
    cases h
  · intro rt h
    cases List.mem_singleton.mp h
    rfl

theorem public_call : TokenCall publicAgain :=
  ⟨⟨nofun,
    ⟨encodable_ascii (show ∀ c ∈ webExchange.site, c < 128 by decide),
      encodable_ascii (show ∀ c ∈ webExchange.url, c < 128 by decide),
      encodable_ascii (show ∀ c ∈ webExchange.query, c < 128 by decide)⟩,
    fun h => absurd (urlRefused_iff.mpr h) (show ¬ urlRefused webExchange.url = true by decide +kernel)⟩, rfl, rfl, rfl⟩

theorem public_refreshes {r : Request} (hr : ArrivesAs publicAgain none r) :
    Refreshes r publicClient publicToken.token publicToken.scopes [] := by
  have hget : [py! "grant_type", py! "refresh_token", py! "scope"].map (Dict.get r.data) =
      [some (py! "refresh_token"), some (py! "rt"), none] := by
    rw [arrived_data hr]
    decide +kernel
  simp only [List.map_cons, List.map_nil, List.cons.injEq, and_true] at hget
  obtain ⟨g1, g2, g3⟩ := hget
  have hform : [py! "client_id", py! "client_secret"].map (Dict.get r.form) = [some (py! "c1"), none] := by
    unfold Request.form
    rw [hr.body]
    decide +kernel
  simp only [List.map_cons, List.map_nil, List.cons.injEq, and_true] at hform
  have hno : getBasicAuthorization r.headers = .ok none := by
    have e : authHeader r.headers = authHeader [] := by
      unfold authHeader
      rw [hr.headers, hr.headers]
      rfl
    unfold getBasicAuthorization
    rw [e]
    rfl
  refine ⟨g1, by decide, ⟨.none_, .none_ _ hform.1 hform.2 (by decide), rfl, Or.inr ⟨?_, ?_⟩⟩, ⟨g2, by decide⟩, Or.inl ⟨g3, rfl⟩,
    nofun⟩
  · intro hm
    obtain ⟨e, he⟩ := malformedBasic_iff.mpr hm
    rw [hno] at he
    cases he
  · intro id secret hc
    have := credentials_iff.mpr hc
    rw [hno] at this
    cases this

/-- Nothing happens in between. -/
theorem nothing_meanwhile {w : WStore} {reqs : Nat → WebRequest} (ht : ∀ i, Tame (reqs i)) :
    Meanwhile toyEnv (fun _ => true) w w reqs [] :=
  ⟨fun _ => .here _, .nil _, ht⟩

/-- C140 applies: the token is used twice. -/
example : (∃ r reply scopes, wout firstUse.2.2 = some (.ok ⟨reply, none⟩) ∧ PassedOn r reply ∧
      ServedRefresh toyEnv publicStore.db (libDraws firstUse.1) firstUse.2.1.db publicClient exUser scopes r) ∧
    ∃ r reply scopes, wout secondUse.2.2 = some (.ok ⟨reply, none⟩) ∧ PassedOn r reply ∧
      ServedRefresh toyEnv firstUse.2.1.db (libDraws secondUse.1) secondUse.2.1.db publicClient exUser scopes r := by
  obtain ⟨sv, o, v⟩ : ∃ sv, wout firstUse.2.2 = some (.ok sv) ∧
      Visit toyEnv (fun _ => true) publicStore publicAgain firstUse.1 firstUse.2.1 (.ok sv) :=
    tour_visit rfl (by decide +kernel : tourOk 6 2 publicStore publicAgain = true)
  obtain ⟨sv2, o2, v2⟩ : ∃ sv, wout secondUse.2.2 = some (.ok sv) ∧
      Visit toyEnv (fun _ => true) firstUse.2.1 publicAgain secondUse.1 secondUse.2.1 (.ok sv) :=
    tour_visit rfl (by decide +kernel : tourOk 6 3 firstUse.2.1 publicAgain = true)
  have htame : ∀ i : Nat, Tame ((fun _ => publicAgain) i) := fun _ => ⟨public_call.names, nofun⟩
  have times : ∀ {k w}, ∀ p ∈ (tour 6 k w publicAgain).1, p.1.now < publicToken.expiration := by
    intro k w p hp
    rw [List.eq_of_mem_replicate (wsolo_draws p hp)]
    exact (by decide : (1000000 : Int) < 9000000)
  obtain ⟨⟨r, reply, sc, e, h1, h2⟩, r2, reply2, sc2, e2, h3, h4, -⟩ := C140_refuted toyFloat_laws public_sound ⟨by decide, by decide⟩ publicClient
    exUser publicToken rfl rfl List.mem_cons_self rfl rfl (nothing_meanwhile htame)
    (fun pre i ev post q he => by cases pre <;> cases he) (fun pre i ev post he => by cases pre <;> cases he)
    publicAgain public_call (fun r hr => public_refreshes hr) v times (nothing_meanwhile htame)
    (fun pre i ev post q he => by cases pre <;> cases he) (fun pre i ev post he => by cases pre <;> cases he)
    publicAgain public_call (fun r hr => public_refreshes hr) v2 times
  cases e
  cases e2
  exact ⟨⟨r, reply, sc, o, h1, h2⟩, r2, reply2, sc2, o2, h3, h4⟩

end Psion.Props
