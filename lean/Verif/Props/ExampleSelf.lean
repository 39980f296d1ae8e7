import Verif.Props.WebFlow

/-!
# Property C122: a client of the example application gets access tokens for itself
-/

namespace Psion.Props

open Psion Spec Example

/-- A legitimate request of the client of the row for an access token for itself: it is registered for the grant and identifies itself with
its secret; it names scopes of its own that the provider supports, or none. -/
structure AsksForItself (req : Request) (row : ClientRow) (ws : Option (List PyStr)) : Prop where
  type : Dict.get req.data (py! "grant_type") = some (py! "client_credentials")
  grant : py! "client_credentials" ∈ row.grantTypes
  client : ∃ m, m ≠ .none_ ∧ Identifies req m row.id row.client
  asks : match ws with
    | none => Dict.get req.data (py! "scope") = none ∨ Dict.get req.data (py! "scope") = some []
    | some ws => ∃ text, Dict.get req.data (py! "scope") = some text ∧ text ≠ [] ∧ Words text ws ∧
        ∀ s ∈ ws, s ∈ standardScopes ∧ s ∈ row.scopes

/-- The answer: an access token that can be read for an hour and names the client as client and as owner, no refresh token, and the
database is as before. -/
def ServedItself (env : OEnv) (m : Store) (l : List (Draw × Ev)) (m' : Store) (row : ClientRow) (scopes : List PyStr) (r : Response) : Prop :=
  ∃ d access, r.status = 200 ∧ JsonBody env.cr.fe r d ∧
    Dict.get d (py! "token_type") = some (.str (py! "Bearer")) ∧ Dict.get d (py! "expires_in") = some (.int 3600) ∧
    Dict.get d (py! "access_token") = some (.str access) ∧
    (∃ p ∈ l, ∀ n1 n2, p.1.stamp ≤ n1 → n1 < p.1.stamp + 3600 → p.1.stamp ≤ n2 → n2 < p.1.stamp + 3600 →
      Reads env access n1 n2 p.1.stamp row.id row.id (joinWith [32] scopes)) ∧
    Dict.get d (py! "refresh_token") = none ∧ m' = m

variable {env : OEnv} {m m' : Store} {l : List (Draw × Ev)} {row : ClientRow} {req : Request} {out : ORes Response}

theorem self_works (hl : FloatLaws env.cr.fe) (h : Alone env m l m') (hp : Prompt l) (hc : m.findClient row.id = some row)
    (hce : Encodable row.id) {S : List PyStr → Prop} (hS : ∀ s, S s → ∀ x ∈ s, Encodable x) :
    Works (events l) row.id row.client (.client row.client) S := by
  refine ⟨?_, ?_, nofun⟩
  · intro r hr
    obtain ⟨pre, post, he⟩ := List.append_of_mem hr
    obtain ⟨a, b, d, m1, m2, -, -, -, h1, hop, -, -⟩ := alone_event h he
    have : Except.ok ((m1.findClient row.id).map ClientRow.client) = r := congrArg Prod.snd hop
    rw [← this, (alone_find h1).1, hc]
    rfl
  · intro s r hs hr
    obtain ⟨pre, post, he⟩ := List.append_of_mem hr
    obtain ⟨a, b, d, m1, m2, rfl, -, -, h1, hop, -, -⟩ := alone_event h he
    obtain ⟨p1, p2⟩ := prompt_one hp
    obtain ⟨t, hx, hte⟩ := createAccess_for hl (c := row.client) (o := .client row.client) (sub := row.id) rfl hce hce (hS s hs) p1 p2
    have : liftRes (createAccess env d row.client (.client row.client) s) = r := congrArg Prod.snd hop
    rw [hx] at this
    exact ⟨hS s hs, t, this.symm, hte⟩

/-- A request that creates a token for the client itself stores nothing. -/
theorem self_stores_nothing (h : Alone env m l m') (hx : Exec (exProvider.token env (exHooks env) req) (events l) out) {c : Client}
    {s : List PyStr} {t : PyStr} (hr : (⟨.createAccess c (.client c) s, .ok t⟩ : Ev) ∈ events l) : m' = m := by
  obtain ⟨ops, hw, hpre⟩ := C82_token env _ (exHooks_benign env) exProvider req _ (exec_partial hx)
  have hmem := hpre.subset (mem_storeOps hr rfl)
  have hq : ∀ o ∈ ops, writesCodes o = false ∧ writesRefresh o = false := by
    cases hw with
    | credentials c s => intro o ho; cases List.mem_singleton.mp ho; exact ⟨rfl, rfl⟩
    | _ => simp at hmem
  have hquiet : ∀ ev ∈ events l, writesCodes ev.op = false ∧ writesRefresh ev.op = false := by
    intro ev hev
    cases ht : touchesStore ev.op with
    | true => exact hq _ (hpre.subset (mem_storeOps hev ht))
    | false => cases hop : ev.op <;> rw [hop] at ht <;> first | exact ⟨rfl, rfl⟩ | cases ht
  have h1 := alone_tables h
  have h2 := alone_codes h (fun ev hev => (hquiet ev hev).1)
  have h3 := alone_refresh h (fun ev hev => (hquiet ev hev).2)
  cases m; cases m'
  simp only at h1 h2 h3
  rw [h1.1, h1.2, h2, h3]

/-- C122: a request of a registered client for a token for itself, which nothing disturbs, is served. -/
theorem C122_token (env : OEnv) (hl : FloatLaws env.cr.fe) (m m' : Store) (l : List (Draw × Ev)) (row : ClientRow) (req : Request)
    (ws : Option (List PyStr)) (out : ORes Response) (hc : m.findClient row.id = some row) (hce : Encodable row.id)
    (hcs : ∀ s ∈ row.scopes, Encodable s) (hr : AsksForItself req row ws) (halone : Alone env m l m') (hprompt : Prompt l)
    (hx : Exec (exProvider.token env (exHooks env) req) (events l) out) :
    ∃ r scopes, out = .ok r ∧ ServedItself env m l m' row scopes r ∧ ∀ s, s ∈ scopes ↔ s ∈ ws.getD row.scopes := by
  obtain ⟨meth, hm, hi⟩ := hr.client
  have hw : Works (events l) row.id row.client (.client row.client) (fun l => row.client.allowedScopes .none = .ok l ∨ ∀ s ∈ l, s ∈ row.scopes) :=
    self_works hl halone hprompt hc hce (by
      rintro s (hs | hs) x hx
      · cases hs
        exact hcs x hx
      · exact hcs x (hs x hx))
  obtain ⟨r, d, scopes, rfl, ⟨hst, hd, access, ha, hda, hdt, hde⟩, hdr, h1, h2⟩ := C76_client_credentials env hl (exHooks env) exProvider req
    (events l) out meth row.id row.client row.scopes (by decide) hr.type hi hm hr.grant hw (row_permits row) (by
      cases ws with
      | none => exact Or.inl ⟨hr.asks, _, rfl⟩
      | some ws => obtain ⟨text, h1, h2, h3, h4⟩ := hr.asks; exact Or.inr ⟨text, ws, h1, h2, h3, h4⟩) hx
  refine ⟨r, scopes, rfl, ⟨d, access, hst, hd, hdt, hde, hda, ?_, hdr, self_stores_nothing halone hx ha⟩, ?_⟩
  · obtain ⟨pre, post, he⟩ := List.append_of_mem ha
    obtain ⟨a, b, d, m1, m2, rfl, -, -, -, hop, -, -⟩ := alone_event halone he
    obtain ⟨sub, rfl, hreads⟩ := C65_content env hl d m1 m2 row.client _ scopes access hop
    exact ⟨_, List.mem_append_right _ List.mem_cons_self, hreads⟩
  · cases ws with
    | none =>
      have e : row.client.allowedScopes .none = .ok row.scopes := rfl
      rw [e] at h1
      cases h1 hr.asks
      exact fun _ => Iff.rfl
    | some ws =>
      obtain ⟨text, g1, g2, g3, -⟩ := hr.asks
      exact h2 text ws g1 g2 g3

/-- C122 through the web: the same for a request to the URL of the token endpoint. -/
theorem C122_web (env : OEnv) (hl : FloatLaws env.cr.fe) (emailOk : PyStr → Bool) (w w' : WStore) (l : List (Draw × WEv)) (row : ClientRow)
    (web : WebRequest) (ws : Option (List PyStr)) (out : ORes Served) (hc : w.db.findClient row.id = some row) (hce : Encodable row.id)
    (hcs : ∀ s ∈ row.scopes, Encodable s) (hcall : TokenCall web) (hr : ∀ r, ArrivesAs web none r → AsksForItself r row ws)
    (h : Visit env emailOk w web l w' out) :
    ∃ r reply scopes, out = .ok ⟨reply, none⟩ ∧ PassedOn r reply ∧ ServedItself env w.db (libDraws l) w'.db row scopes r ∧
      ∀ s, s ∈ scopes ↔ s ∈ ws.getD row.scopes := by
  obtain ⟨r, lib, harr, halone, hx, hpass⟩ := visit_token h hcall
  obtain ⟨resp, scopes, rfl, hserved, hsc⟩ := C122_token env hl _ _ _ row r ws lib hc hce hcs (hr r harr) halone (libDraws_prompt h.prompt) hx
  obtain ⟨reply, hp, rfl⟩ := hpass resp rfl (by obtain ⟨d, access, h, -⟩ := hserved; exact h)
  exact ⟨resp, reply, scopes, rfl, hp, hserved, hsc⟩

/-! ### The hypotheses are satisfiable -/

/-- A client that is registered for the grant. -/
def selfClient : ClientRow := { exClient with grantTypes := [py! "client_credentials"] }

def selfStore : WStore := ⟨⟨[exUser], [selfClient], [], []⟩, []⟩

/-- It asks for the scope `profile`. -/
def selfCall : WebRequest := { webExchange with body := by! "grant_type=client_credentials&scope=profile" }

def selfTour := tour 13 1 selfStore selfCall

/-- It is answered, and C122 applies. -/
example : ∃ r reply scopes, wout selfTour.2.2 = some (.ok ⟨reply, none⟩) ∧ PassedOn r reply ∧
    ServedItself toyEnv selfStore.db (libDraws selfTour.1) selfTour.2.1.db selfClient scopes r ∧ ∀ s, s ∈ scopes ↔ s ∈ [py! "profile"] := by
  obtain ⟨sv, o, v⟩ : ∃ sv, wout selfTour.2.2 = some (.ok sv) ∧
      Visit toyEnv (fun _ => true) selfStore selfCall selfTour.1 selfTour.2.1 (.ok sv) :=
    tour_visit rfl (by decide +kernel : tourOk 13 1 selfStore selfCall = true)
  obtain ⟨r, reply, scopes, e, h⟩ := C122_web toyEnv toyFloat_laws _ selfStore _ _ selfClient selfCall (some [py! "profile"]) _ rfl
    (encodable_ascii (by decide)) (by
      intro s hs
      refine encodable_ascii ?_
      revert s
      decide) (tour_call (body := selfCall.body)) (by
      intro r hr
      have hd := arrived_data hr
      have hget : [py! "grant_type", py! "scope"].map (Dict.get r.data) = [some (py! "client_credentials"), some (py! "profile")] := by
        rw [hd]
        decide +kernel
      simp only [List.map_cons, List.map_nil, List.cons.injEq, and_true] at hget
      obtain ⟨g1, g2⟩ := hget
      have hi := tour_identifies (body := selfCall.body) hr
      exact ⟨g1, by decide, ⟨.basic, nofun, ⟨hi.presents, hi.registered, hi.alone⟩⟩, _, g2, by decide, words_iff.mpr (by decide +kernel),
        by decide⟩) v
  cases e
  exact ⟨r, reply, scopes, o, h⟩

end Psion.Props
