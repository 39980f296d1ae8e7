import Verif.OAuth.IdTokenLemmas
import Verif.OAuth.SuccessLemmas
import Verif.Props.JwtExact
import Verif.Props.Webtools
import Verif.Spec.OidcSuccess

/-!
# ID tokens that have to be issued: lemmas
-/

namespace Psion

open Spec

section
variable {α β : Type} {A : List Ev → Ev → Prop} {S : List Ev → Op → Prop} {E : List Ev → OExc → Prop} {Q : List Ev → β → Prop}
  {h : List Ev}

theorem wpp_known {r : ORes α} {a : α} {f : α → P β} (hr : r = .ok a) (hf : WpP A S Q E h (f a)) :
    WpP A S Q E h (P.bind (P.lift r) f) := by
  subst hr
  exact hf

theorem wpp_await {o : Op} {f : o.Ans → P β} (hs : S h o)
    (hx : ∀ r, A h ⟨o, r⟩ → ∃ a, r = .ok a ∧ WpP A S Q E (h ++ [⟨o, r⟩]) (f a)) : WpP A S Q E h (P.bind (P.call o) f) := by
  rw [wpp_bind, wpp_call]
  refine ⟨hs, ?_, ?_⟩
  · intro a ha
    obtain ⟨b, e, hw⟩ := hx _ ha
    cases e
    exact hw
  · intro e he
    obtain ⟨b, e, -⟩ := hx _ he
    cases e
end

theorem signs_hash {cr : Crypto} {seed : Nat} {alg : PyStr} {mat : Material} {msg sig : Bytes}
    (h : Signs cr seed alg mat msg sig) {he : HashEnv} (hl : Props.HashLengths he) :
    alg ∈ supportedAlgs ∧ ∃ f, he.sha (alg.drop 2) = some f := by
  obtain ⟨⟨f1, h1, -⟩, ⟨f2, h2, -⟩, f3, h3, -⟩ := hl
  cases h <;> exact ⟨by decide, by first | exact ⟨_, h1⟩ | exact ⟨_, h2⟩ | exact ⟨_, h3⟩⟩

theorem atHash_served {env : OEnv} (hl : Props.HashLengths env.he) {token : Dict PyStr Val} {access alg : PyStr}
    {seed : Nat} {mat : Material} {msg sig : Bytes} (hs : Signs env.cr seed alg mat msg sig)
    (ha : Dict.get token (py! "access_token") = some (.str access)) (hx : Encodable access) :
    ∃ hash, atHash env token alg = .ok hash ∧ Encodable hash := by
  obtain ⟨-, f, hf⟩ := signs_hash hs hl
  obtain ⟨b, hb⟩ := utf8Encode_ok hx
  unfold atHash
  rw [ha]
  dsimp only
  unfold createHalfHash
  rw [hf]
  dsimp only
  rw [hb]
  refine ⟨_, rfl, ?_⟩
  rw [toStringB_b64url]
  refine encodable_ascii ?_
  intro c hc
  obtain ⟨x, hx, rfl⟩ := List.mem_map.mp hc
  exact b64url_ascii _ x hx

theorem dget_idTokenClaims {cfg : Config} {client : Client} {now : Int} {hash : PyStr} {info : Dict PyStr Val}
    (hw : (Val.dict info).Wf) (k : PyStr) :
    dget (idTokenClaims cfg client now hash info) k = ((Dict.get info k).or (Dict.get
      [(py! "iss", .str cfg.issuer), (py! "aud", .str client.clientId), (py! "exp", .int (now + cfg.idTokenLifespan)),
        (py! "iat", .int now), (py! "at_hash", .str hash)] k)).getD .none := by
  unfold dget idTokenClaims
  rw [Dict.get_update_ok hw.1]

/-- The claims of an ID token with usable user information. -/
theorem idTokenClaims_fine {cfg : Config} {client : Client} {now : Int} {hash : PyStr} {info : Dict PyStr Val}
    (hu : UsableInfo info) (hiss : Encodable cfg.issuer) (hcid : Encodable client.clientId) (hh : Encodable hash) :
    Dict.Ok (idTokenClaims cfg client now hash info) ∧ Val.EncD (idTokenClaims cfg client now hash info) ∧
    dget (idTokenClaims cfg client now hash info) (py! "iss") = .str cfg.issuer ∧
    ClaimTypes (idTokenClaims cfg client now hash info) ∧
    (∀ n, now ≤ n → n < now + cfg.idTokenLifespan → InWindow n (idTokenClaims cfg client now hash info)) ∧
    checkMaxAge (idTokenClaims cfg client now hash info) = .ok () := by
  have hg := fun k => dget_idTokenClaims (cfg := cfg) (client := client) (now := now) (hash := hash) hu.wf k
  have own : ∀ k ∈ [py! "iss", py! "aud", py! "exp", py! "iat", py! "nbf", py! "at_hash"],
      dget (idTokenClaims cfg client now hash info) k = (Dict.get [(py! "iss", .str cfg.issuer), (py! "aud", .str client.clientId),
        (py! "exp", .int (now + cfg.idTokenLifespan)), (py! "iat", .int now), (py! "at_hash", .str hash)] k).getD .none := by
    intro k hk
    rw [hg, hu.others k hk]
    rfl
  have other : ∀ k ∈ [py! "sub", py! "jti", py! "max_age"],
      dget (idTokenClaims cfg client now hash info) k = dget info k := by
    intro k hk
    rw [hg]
    unfold dget
    simp only [List.mem_cons, List.not_mem_nil, or_false] at hk
    rcases hk with rfl | rfl | rfl <;> (cases Dict.get info _ <;> rfl)
  have hexp : dget (idTokenClaims cfg client now hash info) (py! "exp") = .int (now + cfg.idTokenLifespan) := own _ (by decide)
  have hiat : dget (idTokenClaims cfg client now hash info) (py! "iat") = .int now := own _ (by decide)
  have hnbf : dget (idTokenClaims cfg client now hash info) (py! "nbf") = .none := own _ (by decide)
  have hi : dget (idTokenClaims cfg client now hash info) (py! "iss") = .str cfg.issuer := own _ (by decide)
  refine ⟨Dict.ok_update (by simp [Dict.Ok, Dict.keys]) _, ?_, hi, ⟨?_, ?_, ?_⟩, ?_, ?_⟩
  · rw [encD_iff]
    intro kv hkv
    rcases Dict.mem_update hkv with hkv | hkv
    · simp only [List.mem_cons, List.not_mem_nil, or_false] at hkv
      rcases hkv with rfl | rfl | rfl | rfl | rfl
      · exact ⟨encodable_ascii (s := py! "iss") (by decide), hiss⟩
      · exact ⟨encodable_ascii (s := py! "aud") (by decide), hcid⟩
      · exact ⟨encodable_ascii (s := py! "exp") (by decide), trivial⟩
      · exact ⟨encodable_ascii (s := py! "iat") (by decide), trivial⟩
      · exact ⟨encodable_ascii (s := py! "at_hash") (by decide), hh⟩
    · exact encD_iff.mp hu.enc kv hkv
  · intro k hk
    simp only [List.mem_cons, List.not_mem_nil, or_false] at hk
    rcases hk with rfl | rfl | rfl
    · exact Or.inr ⟨_, hi⟩
    · rw [other _ (by decide)]; exact hu.text _ (by decide)
    · rw [other _ (by decide)]; exact hu.text _ (by decide)
  · exact Or.inr (Or.inl ⟨_, own _ (by decide)⟩)
  · intro k hk
    simp only [List.mem_cons, List.not_mem_nil, or_false] at hk
    rcases hk with rfl | rfl | rfl
    · exact Or.inr ⟨_, hexp⟩
    · exact Or.inr ⟨_, hiat⟩
    · rw [hnbf]; exact Or.inl rfl
  · intro n h1 h2
    refine ⟨?_, ?_, ?_⟩
    · intro i h _; rw [hexp] at h; cases h; exact h2
    · intro i h _; rw [hiat] at h; cases h; exact h1
    · intro i h _; rw [hnbf] at h; cases h
  · unfold checkMaxAge
    rw [other _ (by decide)]
    rcases hu.maxAge with h | ⟨i, h⟩ <;> rw [h]

theorem encD_fullDict {d : Dict PyStr Val} (h : Val.EncD d) : Val.EncD (fullDict d) := by
  rw [encD_iff] at h ⊢
  intro kv hkv
  exact h kv (List.mem_filter.mp hkv).1

theorem dumps_encodable {fe : FloatEnv} (hl : FloatLaws fe) {d : Dict PyStr Val} (h : Val.EncD d) :
    ∃ b, utf8Encode (jsonDumps fe (.dict d)) = .ok b := utf8Encode_ok (encodable_print hl (.dict d) h)

/-- The last steps of `_generate_id_token`. -/
theorem idToken_encoded {env : OEnv} (hl : FloatLaws env.cr.fe) (hh : Props.HashLengths env.he) {key : Jwk} {alg kid : PyStr}
    (hk : SigningKey env.cr key alg) (hkid : Dict.get key.data (py! "kid") = some (.str kid)) {c : Dict PyStr Val}
    (hok : Dict.Ok c) (he : Val.EncD c) {k : PyStr} {v : Val} (hv : dget c k = v) (hnn : v ≠ .none) (ht : ClaimTypes c) {now : Int}
    (hw : InWindow now c) (seed : Nat) :
    ∃ t tok, Jwt.init env.cr now (.dict (fullDict c)) (idTokenHeader alg (.str kid)) = .ok t ∧
      t.encode env.cr key seed = .ok tok ∧ Encodable tok := by
  obtain ⟨kid', hkid', hne, hke, hs⟩ := hk.suits
  rw [hkid] at hkid'
  cases hkid'
  obtain ⟨v0, hv0⟩ := hk.made
  obtain ⟨sig, hsig⟩ := hk.signs seed []
  obtain ⟨halg, -⟩ := signs_hash hsig hh
  have halg' : Encodable alg := by
    simp only [supportedAlgs, List.mem_cons, List.not_mem_nil, or_false] at halg
    rcases halg with rfl | rfl | rfl | rfl | rfl | rfl | rfl | rfl | rfl | rfl | rfl | rfl | rfl <;>
      exact encodable_ascii (by decide)
  obtain ⟨ch, kid, rfl⟩ : ∃ ch s, kid = ch :: s := by
    cases kid with
    | nil => exact absurd rfl hne
    | cons ch s => exact ⟨ch, s, rfl⟩
  obtain ⟨hb, hhb⟩ := dumps_encodable hl (d := [(py! "alg", .str alg), (py! "typ", .str (py! "JWT")), (py! "kid", .str (ch :: kid))])
    ⟨encodable_ascii (by decide), halg', encodable_ascii (by decide), encodable_ascii (by decide),
      encodable_ascii (by decide), hke, trivial⟩
  obtain ⟨pb, hpb⟩ := dumps_encodable hl (encD_fullDict (encD_fullDict he))
  obtain ⟨sig, hsig⟩ := hk.signs seed (b64urlEncode hb ++ by! "." ++ b64urlEncode pb)
  have hne' : fullDict c ≠ [] := by
    intro hx
    have := dget_fullDict hok k
    rw [hx, hv] at this
    exact hnn this.symm
  have hhd : HeaderOk [(py! "alg", .str alg), (py! "typ", .str (py! "JWT")), (py! "kid", .str (ch :: kid))] := by
    refine ⟨⟨alg, halg, rfl⟩, ?_, ?_⟩
    · intro k hk v hv
      simp only [List.mem_cons, List.not_mem_nil, or_false] at hk
      rcases hk with rfl | rfl | rfl
      · cases hv; exact ⟨_, _, rfl⟩
      · cases hv; exact ⟨_, _, rfl⟩
      · cases hv
    · intro v hv
      cases hv
  obtain ⟨t, tok, h1, h2⟩ := (Props.C80_issue env.cr now (fullDict c)
    [(py! "alg", .str alg), (py! "typ", .str (py! "JWT")), (py! "kid", .str (ch :: kid))] alg rfl v0 key hv0 seed).mpr
    ⟨hne', Props.claimTypes_fullDict hok ht, (Props.inWindow_fullDict hok).mpr hw, hhd, ⟨hs.alg, hs.kid, hs.use, hs.ops⟩, hb, pb,
      hhb, hpb, Or.inr ⟨sig, hsig⟩⟩
  obtain ⟨b, -, hb⟩ := Props.encode_bytes h2
  exact ⟨t, tok, h1, h2, utf8Encode_encodable hb⟩

/-- The hook of OpenID Connect does not raise for a token of the library with scopes. -/
theorem wpp_oidcTokenResponse {env : OEnv} (hl : FloatLaws env.cr.fe) (hh : Props.HashLengths env.he) {cfg : Config}
    {token data : Dict PyStr Val} {client : Client} {user : User} {tr tr' : List Ev} (ho : OidcWorks env.cr tr user cfg.idTokenLifespan)
    (hiss : Encodable cfg.issuer) (hcid : Encodable client.clientId) (hsub : tr' <:+: tr) {access scope : PyStr}
    (ha : Dict.get token (py! "access_token") = some (.str access)) (hae : Encodable access)
    (hs : Dict.get token (py! "scope") = some (.str scope)) :
    WpP (From tr') (fun _ _ => True) (fun _ (o : Option (Dict PyStr Val)) => ∀ d, o = some d → Val.EncD d ∧ Val.WfD d)
      (fun _ _ => False) [] (oidcTokenResponse env cfg token data client user) := by
  have mem : ∀ {h ev}, From tr' h ev → ev ∈ tr := fun hf => hsub.subset (from_mem hf)
  have order : ∀ {a b t t'}, From tr' (a ++ ⟨.stamp, .ok t⟩ :: b) ⟨.stamp, .ok t'⟩ → t ≤ t' ∧ t' < t + cfg.idTokenLifespan := by
    intro a b t t' hf
    obtain ⟨post, hp⟩ := hf
    obtain ⟨pre, post', hq⟩ := hsub
    refine ho.clock.order (pre ++ a) b (post ++ post') t t' ?_
    rw [← hq, hp]
    simp
  unfold oidcTokenResponse
  refine wpp_known (item_ok hs) (wpp_known (a := isSubstring (py! "openid") scope) rfl ?_)
  cases isSubstring (py! "openid") scope with
  | false =>
    rintro d ⟨⟩
  | true =>
    rw [if_pos rfl, wpp_bind]
    unfold generateIdToken
    refine wpp_await trivial ?_
    intro r hr
    obtain ⟨key, alg, rfl, hk⟩ := ho.key r (mem hr)
    refine ⟨(key, alg), rfl, wpp_known (item_ok hs) (wpp_known (a := splitWs scope) rfl (wpp_await trivial ?_))⟩
    intro r hr
    obtain ⟨info, rfl, hu⟩ := ho.info _ r (mem hr)
    refine ⟨info, rfl, wpp_await trivial ?_⟩
    intro r h0
    obtain ⟨now, rfl⟩ := ho.clock.reads r (mem h0)
    obtain ⟨sig, hsig⟩ := hk.signs 0 []
    obtain ⟨hash, hat, hhe⟩ := atHash_served hh hsig ha hae
    refine ⟨now, rfl, wpp_known (by rw [hat]; rfl) (wpp_await trivial ?_)⟩
    intro r h1
    obtain ⟨n1, rfl⟩ := ho.clock.reads r (mem h1)
    obtain ⟨hok, henc, hi, ht, hw, hm⟩ := idTokenClaims_fine (cfg := cfg) (client := client) (now := now) hu hiss hcid hhe
    have o1 : now ≤ n1 ∧ n1 < now + cfg.idTokenLifespan := order (a := [_, _]) (b := []) h1
    have hinit : idTokenInit n1 (idTokenClaims cfg client now hash info) .none =
        .ok (fullDict (idTokenClaims cfg client now hash info)) := by
      have hne : idTokenClaims cfg client now hash info ≠ [] := by
        intro hx
        rw [hx] at hi
        cases hi
      unfold idTokenInit
      rw [if_neg hne, validateDefaultClaims_ok.mpr ⟨ht, hw n1 o1.1 o1.2⟩]
      dsimp only
      rw [hm]
      exact claimsInit_ok.mpr ⟨_, rfl, hne, rfl, ht, hw n1 o1.1 o1.2, by rintro _ ⟨⟩⟩
    obtain ⟨kid, hkid, -⟩ := hk.suits
    refine ⟨n1, rfl, wpp_known (by rw [hinit]; rfl) (wpp_known (item_ok hkid) (wpp_await trivial ?_))⟩
    intro r h2
    obtain ⟨n2, rfl⟩ := ho.clock.reads r (mem h2)
    have o2 : now ≤ n2 ∧ n2 < now + cfg.idTokenLifespan := order (a := [_, _]) (b := [_]) h2
    obtain ⟨t, -, hj, -, -⟩ := idToken_encoded hl hh hk hkid hok henc hi (by simp) ht (hw n2 o2.1 o2.2) 0
    refine ⟨n2, rfl, wpp_known (by rw [hj]; rfl) (wpp_await trivial ?_)⟩
    intro r h3
    obtain ⟨seed, rfl⟩ := ho.seed r (mem h3)
    obtain ⟨t', tok, hj', he, hte⟩ := idToken_encoded hl hh hk hkid hok henc hi (by simp) ht (hw n2 o2.1 o2.2) seed
    rw [hj] at hj'
    cases hj'
    refine ⟨seed, rfl, ?_⟩
    dsimp only
    rw [he]
    rintro d ⟨⟩
    exact ⟨⟨encodable_ascii (by decide), hte, trivial⟩, trivial, trivial⟩

end Psion
