import Verif.OAuth.WireLemmas
import Verif.Props.Form
import Verif.Props.Headers
import Verif.Props.Errors
import Verif.Props.TokenSuccess

/-!
# Properties C106–C110: the wire format of RFC 6749 and RFC 7636
-/

namespace Psion.Props

open Psion Spec

/-! ## C106: Basic credentials -/

/-- C106 is false for every client with another character in its id or secret than letters, digits and `-._*~`: from a header that
is written as the standard says, something else is read. -/
theorem C106_refuted (headers : Dict PyStr PyStr) (id secret : PyStr) (h : RfcCredentials headers id secret) (c : Nat)
    (hc : c ∈ id ∨ c ∈ secret) (hs : ¬ FormSafe c) (h1 : c ≠ 42) (h2 : c ≠ 126) :
    ∃ a b, getBasicAuthorization headers = .ok (some (a, b)) ∧ (a, b) ≠ (id, secret) := by
  obtain ⟨a, b, ha, hb, hcr⟩ := h
  refine ⟨a, b, (C08_basic_exact _ _ _).mpr hcr, ?_⟩
  intro he
  cases he
  rcases hc with hc | hc
  · rcases formText_self ha c hc with h | h | h
    · exact hs h
    · exact h1 h
    · exact h2 h
  · rcases formText_self hb c hc with h | h | h
    · exact hs h
    · exact h1 h
    · exact h2 h

/-- C106, as far as it holds: ids and secrets of letters, digits, `-`, `.` and `_` are read from a header that is written as the
standard says. -/
theorem C106_partial (headers : Dict PyStr PyStr) (id secret : PyStr) (h : RfcCredentials headers id secret)
    (hi : ∀ c ∈ id, FormSafe c) (hs : ∀ c ∈ secret, FormSafe c) :
    getBasicAuthorization headers = .ok (some (id, secret)) := by
  obtain ⟨a, b, ha, hb, hcr⟩ := h
  rw [formText_safe ha hi, formText_safe hb hs] at hcr
  exact (C08_basic_exact _ _ _).mpr hcr

/-- The client `my app` with the secret `50%` sends `my+app:50%25`. -/
example : RfcCredentials [(py! "authorization", py! "Basic bXkrYXBwOjUwJTI1")] (py! "my app") (py! "50%") ∧
    getBasicAuthorization [(py! "authorization", py! "Basic bXkrYXBwOjUwJTI1")] = .ok (some (py! "my+app", py! "50%25")) := by
  have h : getBasicAuthorization [(py! "authorization", py! "Basic bXkrYXBwOjUwJTI1")] = .ok (some (py! "my+app", py! "50%25")) := by
    decide +kernel
  have safe : ∀ {c : Nat} {s t : PyStr}, FormSafe c → FormText s t → FormText (c :: s) (c :: t) :=
    fun hc ht => .cons _ [_] _ _ (.safe _ hc) ht
  have sp : ∀ {s t : PyStr}, FormText s t → FormText (32 :: s) (43 :: t) := fun ht => .cons _ [43] _ _ .space ht
  have pct : FormText [37] (py! "%25") := .cons 37 (py! "%25") [] []
    (.escaped 37 [37] _ (by unfold FormSafe Alnum; omega) (.one 37 37 (by decide) rfl)
      (.cons 37 50 53 [] [] (by unfold PctDigit; decide) (by unfold PctDigit; decide) .nil)) .nil
  refine ⟨⟨_, _, ?_, ?_, (C08_basic_exact _ _ _).mp h⟩, h⟩
  · exact safe (by unfold FormSafe Alnum; omega) (safe (by unfold FormSafe Alnum; omega) (sp (safe (by unfold FormSafe Alnum; omega)
      (safe (by unfold FormSafe Alnum; omega) (safe (by unfold FormSafe Alnum; omega) .nil)))))
  · exact safe (by unfold FormSafe Alnum; omega) (safe (by unfold FormSafe Alnum; omega) pct)

/-- The client `c-1` with the secret `a_B.9`. -/
example : RfcCredentials [(py! "authorization", py! "Basic Yy0xOmFfQi45")] (py! "c-1") (py! "a_B.9") := by
  have safe : ∀ {c : Nat} {s t : PyStr}, FormSafe c → FormText s t → FormText (c :: s) (c :: t) :=
    fun hc ht => .cons _ [_] _ _ (.safe _ hc) ht
  have all : ∀ s : PyStr, (∀ c ∈ s, FormSafe c) → FormText s s := by
    intro s
    induction s with
    | nil => intro _; exact .nil
    | cons c s ih => intro h; exact safe (h c List.mem_cons_self) (ih fun x hx => h x (List.mem_cons_of_mem _ hx))
  refine ⟨py! "c-1", py! "a_B.9", all _ (by unfold FormSafe Alnum; decide), all _ (by unfold FormSafe Alnum; decide),
    (C08_basic_exact _ _ _).mp (by decide +kernel)⟩

/-! ## C107: nothing secret in URLs -/

/-- C107, client authentication: who a client is depends on the headers and the body of its request only, not on the URL. -/
theorem C107_authenticate (req req' : Request) (methods : Option (List PyStr)) (hh : req.headers = req'.headers)
    (hb : req.body = req'.body) : authenticate req methods = authenticate req' methods := by
  have hf : req.form = req'.form := by unfold Request.form; rw [hb]
  have hrun : ∀ m : AuthMethod, m.run req = m.run req' := by
    intro m
    cases m <;> simp only [AuthMethod.run, authBasic, authPost, authNone, hh, hf]
  unfold authenticate
  generalize AuthMethod.all = ms
  induction ms with
  | nil => rfl
  | cons m ms ih => simp only [authLoop, hrun, ih]

/-- C107, revocation endpoint: tokens to be revoked are only taken from the body. -/
theorem C107_revoke (env : OEnv) (p : Provider) (req req' : Request) (hh : req.headers = req'.headers)
    (hb : req.body = req'.body) : p.revoke env req = p.revoke env req' := by
  have hf : req.form = req'.form := by unfold Request.form; rw [hb]
  have ha := C107_authenticate req req' none hh hb
  unfold Provider.revoke revokeEndpoint revokeBody
  rw [ha, hf]

/-- A request with everything in the URL except the credentials of the client. -/
def toyUrlExchange : Request := { toyPost [] with query := toyExchange.form }

/-- C107 is false for the token endpoint: codes (and refresh tokens, see below) are also taken from the URL. -/
theorem C107_refuted : ¬ ∀ (env : OEnv) (p : Provider) (req : Request) (tr : List Ev) (r : Response) (code : PyStr),
    Exec (p.token env Hooks.empty req) tr (.ok r) → r.status = 200 → Dict.get req.data (py! "code") = some code →
      Dict.get req.form (py! "code") = some code := by
  intro H
  have hx := toyRun_exec toyUsual toyUrlExchange
  have hr : (match (toyRun toyUsual toyUrlExchange).2 with | .ok r => decide (r.status = 200) | .error _ => false) = true := by
    decide +kernel
  split at hr
  · rename_i r hr'
    rw [hr'] at hx
    have := H _ _ _ _ _ (py! "abc") hx (of_decide_eq_true hr) (by decide +kernel)
    rw [show Dict.get toyUrlExchange.form (py! "code") = none by decide +kernel] at this
    cases this
  · cases hr

example : (toyRun toyUsual { toyPost [] with query := toyRefreshRequest.form }).1.any (createsAccess [py! "read"]) = true := by
  decide +kernel

/-- A secret in the URL is not a secret: the request of the client is refused. -/
example : isTokenError (py! "invalid_client") (toyRun toyUsual
    { toyCredentials with headers := [], query := [(py! "client_id", py! "c1"), (py! "client_secret", py! "s1")] }).2 = true := by
  decide +kernel

/-! ## C108: repeated parameters -/

/-- A request for an access token with two scopes parameters. -/
def toyTwice : PyStr := py! "grant_type=client_credentials&scope=write&scope=read"

/-- C108 is false: a request with a repeated parameter is served. -/
theorem C108_refuted : ¬ ∀ (env : OEnv) (p : Provider) (req : Request) (tr : List Ev) (r : Response) (q k : PyStr) (b : Bytes),
    req.body = some b → Utf8Text q b → Repeated q k → Exec (p.token env Hooks.empty req) tr (.ok r) → r.status ≠ 200 := by
  intro H
  have hx := toyRun_exec toyUsual (toyPost (toyTwice.map byte))
  have hr : (match (toyRun toyUsual (toyPost (toyTwice.map byte))).2 with
      | .ok r => decide (r.status = 200)
      | .error _ => false) = true := by decide +kernel
  split at hr
  · rename_i r hr'
    rw [hr'] at hx
    refine H _ _ _ _ _ toyTwice (py! "scope") _ rfl (utf8Text_iff.mp (by decide +kernel)) ?_ hx (of_decide_eq_true hr)
    exact ⟨[py! "grant_type=client_credentials"], py! "scope=write", [], py! "scope=read", [], py! "write", py! "read",
      pieces_iff.mpr (by decide +kernel), field_iff.mp (by decide +kernel), field_iff.mp (by decide +kernel)⟩
  · cases hr

/-- C108, what holds instead: of a repeated parameter only the last occurrence counts; all others can be left out. -/
theorem C108_partial (q q' k v v' p p' : PyStr) (l m r : List PyStr) (hq : Pieces q (l ++ p :: (m ++ p' :: r)))
    (hq' : Pieces q' (l ++ (m ++ p' :: r))) (hp : Field p k v) (hp' : Field p' k v') (x w : PyStr) :
    Dict.get (urldecode q) x = some w ↔ Dict.get (urldecode q') x = some w := by
  unfold urldecode parseQsl Dict.ofPairs
  rw [pieces_iff.mp hq, pieces_iff.mp hq', get_update_last, get_update_last]
  simp only [List.filterMap_append, List.filterMap_cons, field_iff.mpr hp, field_iff.mpr hp', List.reverse_append, List.reverse_cons,
    List.find?_append, List.append_assoc, List.find?_cons, List.find?_nil]
  by_cases hx : k = x
  · simp [hx]
  · simp [hx]

example : Dict.get (urldecode toyTwice) (py! "scope") = some (py! "read") := by decide +kernel

/-! ## C109: error descriptions -/

/-- C109 is false: in the answer to every request for a grant that does not exist there is a quotation mark in the description, and
whatever text the request had. -/
theorem C109_refuted (env : OEnv) (hl : FloatLaws env.cr.fe) (table : Hooks) (p : Provider) (req : Request) (tr : List Ev) (r : Response) (g : PyStr)
    (hg : Dict.get req.data (py! "grant_type") = some g) (hne : g ≠ []) (hno : ∀ k ∈ p.grants, grantName k ≠ g)
    (h : Exec (p.token env table req) tr (.ok r)) :
    ∃ d t, JsonBody env.cr.fe r d ∧ Dict.get d (py! "error_description") = some (.str t) ∧
      t = py! "Unsupported grant_type \"" ++ g ++ py! "\"." ∧ ¬ ∀ c ∈ t, ErrorChar c := by
  obtain ⟨ch, s, rfl⟩ := List.exists_cons_of_ne_nil hne
  have hd : req.data ≠ [] := by
    intro h0
    rw [h0] at hg
    cases hg
  have hv : validateGrantType (p.objects env table) (Dict.get req.data (py! "grant_type")) = .error (.oauth (.mk' .unsupportedGrantType
      (some (py! "Unsupported grant_type \"" ++ (ch :: s) ++ py! "\"."))) ) := by
    rw [hg]
    unfold validateGrantType
    dsimp only
    rw [List.find?_eq_none.mpr]
    intro x hx
    unfold Provider.objects at hx
    obtain ⟨k, hk, rfl⟩ := List.mem_map.mp hx
    rw [decide_eq_true_eq, grantOf_type]
    intro he
    exact hno k hk (Option.some.inj he)
  have hx : jsonResponse env.cr.fe 400 (Dict.update [] noStoreHeaders) (.dict (ndictVal (OErr.mk' .unsupportedGrantType
      (some (py! "Unsupported grant_type \"" ++ (ch :: s) ++ py! "\"."))).dump)) = .ok r := by
    refine wpp_exec_ok h (?_ : WpP (fun _ _ => True) (fun _ _ => True) (fun _ r => jsonResponse env.cr.fe 400
      (Dict.update [] noStoreHeaders) (.dict (ndictVal (OErr.mk' .unsupportedGrantType
      (some (py! "Unsupported grant_type \"" ++ (ch :: s) ++ py! "\"."))).dump)) = .ok r) (fun _ _ => True) [] _) answers_true
    unfold Provider.token tokenEndpoint tokenBody
    dsimp only
    rw [wpp_catch, if_neg hd, wpp_bind, wpp_lift, hv, post_iff]
    refine ⟨fun a ha => by simp at ha, fun e he => ?_⟩
    have he' := (Except.error.inj he).symm
    subst he'
    dsimp only [caught]
    rw [wpp_lift, post_liftRes]
    exact ⟨fun r hr => hr, fun _ _ => trivial⟩
  refine ⟨_, _, (C62_error_body _ hl _ _ _ _ hx).2, rfl, rfl, ?_⟩
  intro hall
  have : ErrorChar 34 := hall 34 (by simp)
  unfold ErrorChar at this
  omega

/-- A request for the grant `"é`. The quotation mark and the letter are in the description. -/
example : ∃ tr r d t, Exec (toyProvider.token toyEnv Hooks.empty (toyPost (by! "grant_type=%22%C3%A9"))) tr (.ok r) ∧
    JsonBody toyEnv.cr.fe r d ∧
    Dict.get d (py! "error_description") = some (.str t) ∧ 34 ∈ t ∧ 233 ∈ t := by
  have hx := toyRun_exec toyUsual (toyPost (by! "grant_type=%22%C3%A9"))
  have hok : (match (toyRun toyUsual (toyPost (by! "grant_type=%22%C3%A9"))).2 with | .ok _ => true | .error _ => false) = true := by
    decide +kernel
  split at hok
  · rename_i r hr
    rw [hr] at hx
    obtain ⟨d, t, h1, h2, h3, -⟩ := C109_refuted _ toyFloat_laws _ _ _ _ _ [34, 233] (by decide +kernel) (by decide) (by decide) hx
    refine ⟨_, r, d, t, hx, h1, h2, ?_, ?_⟩ <;> rw [h3] <;> decide
  · cases hok

/-- C109, as far as it holds: the value of `error` in an answer of the token endpoint consists of permitted characters, unless the
application has raised the error. What is missing is the description. -/
theorem C109_token_partial (env : OEnv) (hl : FloatLaws env.cr.fe) (table : Hooks) (hb : Benign table) (p : Provider) (req : Request)
    (tr : List Ev) (r : Response) (h : Exec (p.token env table req) tr (.ok r)) (hst : r.status ≠ 200)
    (happ : ∀ x, ¬ AppRaises table tr x) :
    ∃ d e, JsonBody env.cr.fe r d ∧ Dict.get d (py! "error") = some (.str e) ∧ ∀ c ∈ e, ErrorChar c := by
  obtain ⟨-, d, hd, ⟨x, hx, -⟩ | ⟨f, -, hf, -⟩⟩ := C87_partial env hl table hb p req tr r h hst
  · exact absurd hx (happ x)
  · exact ⟨d, _, hd, hf, rfc_chars f⟩

/-- C109, as far as it holds, at the authorization endpoint. -/
theorem C109_authorize_partial (env : OEnv) (table : Hooks) (hb : Benign table) (p : Provider) (req : Request)
    (tr : List Ev) (r : Response) (h : Exec (p.authorize env table req) tr (.ok r)) (happ : ∀ x, ¬ AppRaises table tr x) :
    ∃ url params, RedirectsTo r url params ∧
      ((∃ code, Dict.get params (py! "code") = some (some code)) ∨
        ∃ e, Dict.get params (py! "error") = some (some e) ∧ ∀ c ∈ e, ErrorChar c) := by
  obtain ⟨url, params, h1, ⟨code, _, _, _, h2, -⟩ | ⟨x, hx, -⟩ | ⟨f, -, -, hf⟩⟩ := C88_authorize env table hb p req tr r h
  · exact ⟨url, params, h1, Or.inl ⟨code, h2⟩⟩
  · exact absurd hx (happ x)
  · exact ⟨url, params, h1, Or.inr ⟨_, hf, auth_chars f⟩⟩

/-! ## C110: code verifiers -/

/-- C110, token endpoint, as far as it holds: if the challenge of a code is as the standard says and its method is `plain`, the code
is only exchanged for a verifier that is as the standard says. -/
theorem C110_plain_partial (env : OEnv) (table : Hooks) (hb : Benign table) (p : Provider) (req : Request)
    (pre post : List Ev) (c : Client) (owner : Owner) (scopes : List PyStr) (ans : ORes PyStr)
    (hg : Dict.get req.data (py! "grant_type") = some (py! "authorization_code"))
    (h : Partial (p.token env table req) (pre ++ ⟨.createAccess c owner scopes, ans⟩ :: post)) :
    ∃ code ac verifier, Dict.get req.data (py! "code") = some code ∧ FoundCode pre (.str code) ac ∧
      Dict.get req.data (py! "code_verifier") = some verifier ∧
      (ac.challengeMethod = py! "plain" → PkceText ac.challenge → PkceText verifier) := by
  obtain ⟨code, ac, verifier, h1, h2, h3, h4⟩ := C39_pkce env table hb p req pre post c owner scopes ans hg h
  refine ⟨code, ac, verifier, h1, h2, h3, ?_⟩
  intro hm hp
  rcases h4 with ⟨-, h4⟩ | ⟨h4, -⟩
  · rw [← h4]
    exact hp
  · rw [hm] at h4
    exact absurd h4 (by decide)

/-- A code with the challenge for the verifier `b`. -/
def toyShort : AuthCode :=
  { toyCode [py! "read"] with challenge := asciiStr (b64urlEncode (toyEnv.sha256 [98])), challengeMethod := py! "S256" }

def toyShortExchange : Request :=
  toyPost (by! "grant_type=authorization_code&code=abc&redirect_uri=https://c/cb&code_verifier=b")

/-- C110 is false at the token endpoint: with the method `S256` a code is exchanged for a verifier with one letter, and its challenge
is as the standard says. -/
theorem C110_verifier_refuted : ¬ ∀ (env : OEnv) (p : Provider) (req : Request) (tr : List Ev) (r : Response) (verifier : PyStr),
    Exec (p.token env Hooks.empty req) tr (.ok r) → r.status = 200 → Dict.get req.data (py! "code_verifier") = some verifier →
      PkceText verifier := by
  intro H
  have hx := toyRun_exec (toyAdapter toyClient toyShort (toyRefresh [])) toyShortExchange
  have hr : (match (toyRun (toyAdapter toyClient toyShort (toyRefresh [])) toyShortExchange).2 with
      | .ok r => decide (r.status = 200)
      | .error _ => false) = true := by decide +kernel
  split at hr
  · rename_i r hr'
    rw [hr'] at hx
    have := (H _ _ _ _ _ (py! "b") hx (of_decide_eq_true hr) (by decide +kernel)).1
    exact absurd this (by decide)
  · cases hr

example : PkceText toyShort.challenge := by
  unfold PkceText FormSafe Alnum
  decide +kernel

/-- An authorization request with a challenge of 43 spaces. -/
def toySpaces : Request := toyGet (Dict.set toyAuthQuery (py! "code_challenge") (List.replicate 43 32)) (some toyUser)

/-- C110 is false at the authorization endpoint: challenges with any characters are stored. -/
theorem C110_challenge_refuted : ¬ ∀ (env : OEnv) (p : Provider) (req : Request) (pre post : List Ev) (code : PyStr)
    (data : Dict PyStr Val) (c : Client) (u : User) (ans : ORes Unit) (challenge : PyStr),
    Partial (p.authorize env Hooks.empty req) (pre ++ ⟨.saveCode code data c u, ans⟩ :: post) →
      Dict.get data (py! "code_challenge") = some (.str challenge) → PkceText challenge := by
  intro H
  obtain ⟨pre, post, code, data, c, u, ans, heq⟩ := split_saves (l := (toyAuth toyUsual toySpaces).1) (by decide +kernel)
  have hx := exec_partial (toyAuth_exec toyUsual toySpaces)
  rw [heq] at hx
  obtain ⟨ch, m, h1, -, h2, -⟩ := C39_stored _ _ benign_empty _ _ _ _ _ _ _ _ _ hx
  have h3 : ch = List.replicate 43 32 := by
    rw [show Dict.get toySpaces.data (py! "code_challenge") = some (List.replicate 43 32) by decide +kernel] at h1
    exact (Option.some.inj h1).symm
  have := (H _ _ _ _ _ _ _ _ _ _ _ hx h2).2.2 32 (by rw [h3]; decide)
  unfold FormSafe Alnum at this
  omega

end Psion.Props
