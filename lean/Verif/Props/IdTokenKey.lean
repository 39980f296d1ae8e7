import Verif.Props.TokenKinds
import Verif.Props.Rfc7518
import Verif.Props.Headers
import Verif.Example.AloneLemmas

/-!
# Property C139: a client can check the ID tokens that it gets

Under the algorithms `HS256`, `HS384` and `HS512` the key of an ID token is the secret of the client (OpenID Connect Core 1.0,
section 10.1).
-/

namespace Psion.Props

open Psion Spec Example

/-- The key is the text, as UTF-8. -/
def KeyOf (secret : PyStr) (key : Jwk) : Prop := ∃ bytes, utf8Encode secret = .ok bytes ∧ key.mat = .oct bytes

/-- C139, what holds: with the key of the example application its ID tokens are accepted during ten hours, whoever gets them. Missing
is the client, which does not have this key (`C139_only`, `C139_refuted`). -/
theorem C139_partial (env : OEnv) (hl : FloatLaws env.cr.fe) (calls : Nat → Call) (s s' : Store) (h0 : s.codes = [])
    (h1 : s.refresh = []) (h : List Step) (hist : History env (exHooks env) calls h) (hrun : ExRun env s h s') (i : Nat)
    (tok : PyStr) (ha : AnsweredIdToken env calls h i tok) :
    ∃ now, ∀ n1 n2, now ≤ n1 → n1 < now + 36000 → now ≤ n2 → n2 < now + 36000 →
      ∃ t, Jwt.decodeStr env.cr n1 n2 tok exKey (some (py! "HS256")) true .none = .ok t := by
  obtain ⟨req, r, d, hcall, hx, hs, hd, htok⟩ := ha
  obtain ⟨d', access, hd', -, H⟩ := C83_identity env hl calls s s' h0 h1 h hist hrun i req r hcall (idToken_grant hl hx hs hd htok)
    hx hs
  cases hd'.symm.trans hd
  obtain ⟨tok', c, j, p, req', code, data, c', u, scopes, row, now, a, b, m, e, -, -, -, -, -, -, -, -, -, -, bytes, -, sha, -, hsays⟩ :=
    H _ htok
  cases e
  refine ⟨now, ?_⟩
  intro n1 n2 h1 h2 h3 h4
  obtain ⟨t, ht, -⟩ := hsays n1 n2 h1 h2 h3 h4
  exact ⟨t, ht⟩

/-- C139, who can check the ID tokens: a key with which an ID token of the example application is accepted is a secret which gives,
for the text of the token, the same message authentication code as the secret of the example application. -/
theorem C139_only (env : OEnv) (hl : FloatLaws env.cr.fe) (calls : Nat → Call) (s s' : Store) (h : List Step)
    (hrun : ExRun env s h s') (i : Nat) (tok : PyStr) (ha : AnsweredIdToken env calls h i tok) (v : Val) (key : Jwk)
    (hk : Jwk.init env.cr v = .ok key) (n1 n2 : Int) (opts : Val) (t : Jwt)
    (ht : Jwt.decodeStr env.cr n1 n2 tok key (some (py! "HS256")) true opts = .ok t) :
    ∃ secret msg, key.mat = .oct secret ∧ env.cr.hmac .sha256 secret msg = env.cr.hmac .sha256 exSecret msg := by
  obtain ⟨req, r, d, -, hx, hs, hd, htok⟩ := ha
  have hg := idToken_grant hl hx hs hd htok
  obtain ⟨d', code, ac, c, user, access, h1, -, -, -, -, -, -, -, -, hcase⟩ := oidc_exchange hl hg hx hs
  cases h1.symm.trans hd
  rcases hcase with ⟨-, tok', ⟨key', al⟩, info, now, token, -, -, g2, g3⟩ | ⟨-, g⟩
  · cases htok.symm.trans g3
    have hk' : key' = exKey ∧ al = py! "HS256" := by
      obtain ⟨a, b, rfl⟩ := List.append_of_mem (mem_ofRequest.mp g2.key)
      obtain ⟨m, m', -, hst, -⟩ := run_at hrun
      exact step_getKeyInfo hst
    obtain ⟨rfl, rfl⟩ := hk'
    obtain ⟨hash, now1, now2, claims, kid, jwt, seed, -, -, -, hi, he⟩ := g2.made
    obtain ⟨hh, -, p, -, hj⟩ := jwtInit_ok.mp hi
    obtain ⟨b, hb, hbe⟩ := encode_bytes he
    rw [hj] at hb
    have halg : dget jwt.header.data (py! "alg") = .str (py! "HS256") := by
      obtain ⟨hd, e, h6, -⟩ := headerInit_ok.mp hh
      cases e
      rw [h6]
      rfl
    obtain ⟨v', hv'⟩ := (exKey_signs env.cr).made
    obtain ⟨-, hb1, msg, sig, -, hmsg, htk, hsig⟩ := (C79_serialize env.cr _ jwt.header hh _ halg v' exKey hv' p seed b).mp hb
    have hsig : sig = env.cr.hmac .sha256 exSecret msg := by
      rcases hsig with ⟨e, -⟩ | hsig
      · cases e
      · cases hsig
        rfl
    unfold Jwt.decodeStr at ht
    rw [hbe, ok_bind] at ht
    obtain ⟨jws, -, hdes, -⟩ := decode_ok ht
    obtain ⟨hb', pb', sb', raw', hd', a', ht', e1, e2, e3, -, -, -, -, -, hal, -, hsok, -⟩ :=
      (C79_deserialize env.cr v key hk b (some (py! "HS256")) jws.header.data jws.payload).mp ⟨jws, hdes, rfl, rfl⟩
    have hal : a' = py! "HS256" := by
      rcases hal with e | e | e
      · cases e
      · cases e
      · exact (Option.some.inj e).symm
    subst hal
    have hsp := split_token (b64urlEncode hb1) (b64urlEncode p) (b64urlEncode sig) (no_dot _) (no_dot _) (no_dot _)
    have hsp' := split_token hb' pb' sb' e1 e2 e3
    rw [htk, hmsg] at ht'
    have heq : [b64urlEncode hb1, b64urlEncode p, b64urlEncode sig] = [hb', pb', sb'] := by
      rw [← hsp, ← hsp']
      congr 1
      simpa using ht'
    simp only [List.cons.injEq, and_true] at heq
    obtain ⟨rfl, rfl, rfl⟩ := heq
    rcases hsok with e | ⟨sig', hs1, hs2⟩
    · cases e
    · rw [(C01_base64url_roundtrip _).1] at hs1
      cases hs1
      rw [← hmsg] at hs2
      generalize key.mat = mat at hs2
      cases hs2 with
      | hs256 sec => exact ⟨sec, msg, rfl, hsig⟩
  · rw [g] at htok
    cases htok

/-- C139 is false: there is a history of the example application in which a client gets an ID token that it can never check with its
secret. -/
theorem C139_refuted : ¬ ∀ (env : OEnv) (calls : Nat → Call) (s s' : Store) (h : List Step) (i : Nat) (req : Request) (r : Response)
    (d : Dict PyStr Val) (tok : PyStr) (m : AuthMethod) (id secret : PyStr) (v : Val) (key : Jwk), FloatLaws env.cr.fe →
    s.codes = [] → s.refresh = [] → History env (exHooks env) calls h → ExRun env s h s' → calls i = .token exProvider req →
    Exec (exProvider.token env (exHooks env) req) (ofRequest i h) (.ok r) → r.status = 200 → JsonBody env.cr.fe r d →
    Dict.get d (py! "id_token") = some (.str tok) → Presents req m id (some secret) → Jwk.init env.cr v = .ok key → KeyOf secret key →
    ∃ n t, Jwt.decodeStr env.cr n n tok key (some (py! "HS256")) true .none = .ok t := by
  intro H
  have hsome : (memberOf (py! "id_token") (outcome ((exSim exCalls (exTurn 0 3 0 ++ exTurn 1 13 1)).2.2 1))).isSome = true := by
    decide +kernel
  obtain ⟨tok, ht⟩ := Option.isSome_iff_exists.mp hsome
  obtain ⟨r, d, h1, h2, h3, h4⟩ := memberOf_some ht
  have hkey : Jwk.init toyCrypto (.dict [(py! "kty", .str (py! "oct")), (py! "k", .str (py! "czM"))]) =
      .ok ⟨[(py! "kty", .str (py! "oct")), (py! "k", .str (py! "czM"))], .oct (by! "s3")⟩ :=
    jwkInit_ok.mpr ⟨_, rfl, rfl, rfl, octInit_canon (s := by! "s3") rfl (by rw [toStringB_b64url]; rfl)⟩
  obtain ⟨n, t, hdec⟩ := H toyEnv exCalls exStore _ _ 1 _ r d tok .basic (py! "c1") (py! "s3") _ _ toyFloat_laws rfl rfl
    (exSim_history _ _ exCalls_plain) (exSim_run _ _) rfl (sim_outcome h1) h2 h3 h4
    (.basic _ _ ((C08_basic_exact _ _ _).mp (by decide +kernel)) (by decide) (by decide)) hkey ⟨_, rfl, rfl⟩
  obtain ⟨secret, msg, hm, hmac⟩ := C139_only toyEnv toyFloat_laws exCalls exStore _ _ (exSim_run _ _) 1 tok
    ⟨_, r, d, rfl, sim_outcome h1, h2, h3, h4⟩ _ _ hkey n n .none t hdec
  cases hm
  have := congrArg List.length hmac
  simp [toyEnv, toyCrypto, exSecret] at this

/-- There is such a history: an authorization and an exchange of the code; the ID token is accepted with the key of the example
application. -/
example : ∃ h s' tok n t, History toyEnv (exHooks toyEnv) exCalls h ∧ ExRun toyEnv exStore h s' ∧
    AnsweredIdToken toyEnv exCalls h 1 tok ∧
    Jwt.decodeStr toyCrypto n n tok exKey (some (py! "HS256")) true .none = .ok t := by
  have hsome : (memberOf (py! "id_token") (outcome ((exSim exCalls (exTurn 0 3 0 ++ exTurn 1 13 1)).2.2 1))).isSome = true := by
    decide +kernel
  obtain ⟨tok, ht⟩ := Option.isSome_iff_exists.mp hsome
  obtain ⟨r, d, h1, h2, h3, h4⟩ := memberOf_some ht
  have ha : AnsweredIdToken toyEnv exCalls (exSim exCalls (exTurn 0 3 0 ++ exTurn 1 13 1)).1 1 tok :=
    ⟨_, r, d, rfl, sim_outcome h1, h2, h3, h4⟩
  obtain ⟨now, H⟩ := C139_partial toyEnv toyFloat_laws exCalls exStore _ rfl rfl _ (exSim_history _ _ exCalls_plain) (exSim_run _ _) 1
    tok ha
  obtain ⟨t, ht⟩ := H now now (by omega) (by omega) (by omega) (by omega)
  exact ⟨_, _, tok, now, t, exSim_history _ _ exCalls_plain, exSim_run _ _, ha, ht⟩

end Psion.Props
