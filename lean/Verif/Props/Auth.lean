import Verif.OAuth.AuthLemmas
import Verif.Props.ToyOAuth
import Verif.Py.HostLemmas

/-!
# Properties C35, C36, C60, C62: client authentication, requests, error responses
-/

namespace Psion.Props

open Psion Spec

/-! ## C35 -/

/-- C35: whenever client authentication returns a client, the adapter returned that client for the id presented in the request,
the request presented exactly the stored secret (no secret for a client without one), and the client is registered for the
method used, which the caller allows. -/
theorem C35_authentication_sound (req : Request) (methods : Option (List PyStr)) (tr : List Ev) (c : Client)
    (h : Exec (authenticate req methods) tr (.ok c)) : Authenticated req methods tr c := by
  refine wpp_exec_ok (A := fun _ _ => True) (S := fun _ _ => True) (E := fun _ _ => True)
    (Q := fun tr c => Authenticated req methods tr c) h ?_ answers_true
  refine wpp_authenticate (fun _ _ => trivial) ?_ (fun _ _ _ _ => trivial) (fun _ _ _ => trivial)
  intro m id c _ hp hm ha
  exact ⟨m, id, by simp [FoundClient], hp, hm, ha⟩

/-- C35: authentication performs at most one operation, the lookup of the client. -/
theorem C35_single_lookup (req : Request) (methods : Option (List PyStr)) (tr : List Ev) (r : ORes Client)
    (h : Exec (authenticate req methods) tr r) :
    tr = [] ∨ ∃ id a, tr = [⟨.findClient id, a⟩] := by
  have hw : WpP (fun _ _ => True) (fun h o => h = [] ∧ ∃ id, o = .findClient id)
      (fun _ _ => True) (fun _ _ => True) [] (authenticate req methods) :=
    wpp_authenticate (fun id _ => ⟨rfl, id, rfl⟩) (fun _ _ _ _ _ _ _ => trivial) (fun _ _ _ _ => trivial)
      (fun _ _ _ => trivial)
  have hp := exec_partial h
  match tr, hp with
  | [], _ => exact Or.inl rfl
  | [⟨o, a⟩], hp =>
    obtain ⟨-, id, rfl⟩ := wpp_partial hp hw answers_true (pre := []) (ev := ⟨o, a⟩) (post := []) rfl
    exact Or.inr ⟨id, a, rfl⟩
  | e :: f :: tr, hp =>
    have := wpp_partial hp hw answers_true (pre := [e]) (ev := f) (post := tr) rfl
    exact absurd this.1 (by simp)

/-- C35: the failures of authentication are `InvalidClient`, whatever the adapter raised, or the `ValueError` of a malformed
authorization header (C09). -/
theorem C35_failures (req : Request) (methods : Option (List PyStr)) (tr : List Ev) (e : OExc)
    (h : Exec (authenticate req methods) tr (.error e)) :
    (∃ d hd, e = .oauth (.mk' .invalidClient d none hd)) ∨
      (e = .py .valueErr ∧ MalformedBasic req.headers) ∨
      ∃ id, (⟨.findClient id, .error e⟩ : Ev) ∈ tr := by
  refine wpp_exec_error (A := fun _ _ => True) (S := fun _ _ => True) (Q := fun _ _ => True)
    (E := fun tr e => (∃ d hd, e = .oauth (.mk' .invalidClient d none hd)) ∨
      (e = .py .valueErr ∧ MalformedBasic req.headers) ∨
      ∃ id, (⟨.findClient id, .error e⟩ : Ev) ∈ tr) h ?_ answers_true
  refine wpp_authenticate (fun _ _ => trivial) (fun _ _ _ _ _ _ _ => trivial) ?_ ?_
  · rintro h' e - (⟨d, hd, rfl, -⟩ | ⟨x, rfl, hx⟩)
    · exact Or.inl ⟨d, hd, rfl⟩
    · cases (C09_only_value_error req.headers x).1 hx
      exact Or.inr (Or.inl ⟨rfl, malformedBasic_iff.mp ⟨_, hx⟩⟩)
  · intro id e _
    exact Or.inr (Or.inr ⟨id, by simp⟩)

/-- A confidential client using the Basic header. -/
def toyClient : Client where
  clientId := py! "c1"
  secret := some (py! "s3")
  allowedScopes v := match v with
    | .list l => .ok ((l.filterMap (fun v => match v with | .str s => some s | _ => none)).filter
        (fun s => decide (s ∈ [py! "openid", py! "read", py! "write"])))
    | _ => .ok [py! "openid", py! "read", py! "write"]
  redirectUris := [py! "https://c/cb"]
  authMethod := py! "client_secret_basic"
  grantTypes := [py! "authorization_code", py! "refresh_token", py! "client_credentials"]
  responseTypes := [py! "code"]

/-- An adapter that knows one client and answers nothing else. -/
def toyLookup (c : Client) : List Ev → (o : Op) → ORes o.Ans
  | _, .findClient id => .ok (if id = c.clientId then some c else none)
  | _, _ => .error (.py (.ext 0))

/-- A request with `c1:s3` in a Basic header and another client and secret in the form. -/
def toyTwoMethods : Request where
  method := py! "POST"
  query := []
  headers := [(py! "authorization", py! "Basic YzE6czM=")]
  body := some (by! "client_id=c2&client_secret=x")
  user := none

/-- Is the outcome the client `id`? -/
def isClient (id : PyStr) : ORes Client → Bool
  | .ok c => c.clientId == id
  | .error _ => false

example : isClient (py! "c1") (Prog.run (toyLookup toyClient) [] (authenticate toyTwoMethods none)).2 = true := by
  decide +kernel

/-- The toy request is accepted. -/
theorem toyTwoMethods_exec : ∃ tr c, Exec (authenticate toyTwoMethods none) tr (.ok c) := by
  have h := exec_run (toyLookup toyClient) (authenticate toyTwoMethods none)
  have h2 : isClient (py! "c1") (Prog.run (toyLookup toyClient) [] (authenticate toyTwoMethods none)).2 = true := by
    decide +kernel
  revert h h2
  generalize (Prog.run (toyLookup toyClient) [] (authenticate toyTwoMethods none)) = x
  intro h h2
  match x, h, h2 with
  | ⟨tr, .ok c⟩, h, _ => exact ⟨tr, c, h⟩

/-! ## C36 -/

/-- A request uses two methods when it presents credentials in the ways of two methods. -/
def UsesTwoMethods (req : Request) : Prop :=
  ∃ m m' id id' s s', m ≠ m' ∧ Presents req m id s ∧ Presents req m' id' s'

/-- C36 is false: a request with a Basic header and with a client id and secret in the form (of a different client) is
accepted; the class documents that it raises `InvalidClient`. -/
theorem C36_one_method_refuted :
    ¬ ∀ (req : Request) (methods : Option (List PyStr)) (tr : List Ev) (c : Client), UsesTwoMethods req →
      ¬ Exec (authenticate req methods) tr (.ok c) := by
  intro H
  obtain ⟨tr, c, h⟩ := toyTwoMethods_exec
  refine H toyTwoMethods none tr c ⟨.basic, .post, py! "c1", py! "c2", some (py! "s3"), some (py! "x"), by decide,
    .basic _ _ ?_ (by decide) (by decide), .post _ _ ?_ ?_ (by decide) (by decide)⟩ h
  · exact credentials_iff.mp (by decide +kernel)
  · decide +kernel
  · decide +kernel

theorem presents_basic_run {req : Request} {id : PyStr} {s : Option PyStr} (h : Presents req .basic id s) :
    authBasic req = checkClient .basic [(py! "WWW-Authenticate", py! "Basic")] id s := by
  cases h with
  | basic id s h1 h2 h3 =>
    unfold authBasic
    rw [credentials_iff.mpr h1]
    simp [P.bind, P.lift, liftRes, Prog.bind, h2, h3]

theorem presents_post_run {req : Request} {id : PyStr} {s : Option PyStr} (h : Presents req .post id s) :
    authPost req = checkClient .post [] id s := by
  cases h with
  | post id s h1 h2 h3 h4 =>
    unfold authPost
    rw [h1, h2]
    simp [h3, h4]

/-- C36, what holds: the credentials of a request are never mixed. If a request presents credentials in a Basic header
and that method is allowed, then only these credentials decide, whatever else is in the request; the same holds for
the form if it presents a secret and there are no credentials in a header. What is missing: the request is not rejected. -/
theorem C36_one_method_partial (req : Request) (methods : Option (List PyStr)) (tr : List Ev) (c : Client)
    (h : Exec (authenticate req methods) tr (.ok c)) (id : PyStr) (s : Option PyStr) :
    (Presents req .basic id s → Allows methods .basic →
      FoundClient tr id c ∧ c.secret = s ∧ c.authMethod = py! "client_secret_basic") ∧
    (Presents req .post id s → Allows methods .post → (∀ id' s', ¬ Presents req .basic id' s') →
      FoundClient tr id c ∧ c.secret = s ∧ c.authMethod = py! "client_secret_post") := by
  have key : ∀ (m : AuthMethod) (hd : Dict PyStr PyStr) (ms : List AuthMethod) (h0 : List Ev),
      methodEnabled methods m = true → m.run req = checkClient m hd id s →
      WpP (fun _ _ => True) (fun _ _ => True)
        (fun tr c => FoundClient tr id c ∧ c.secret = s ∧ c.authMethod = m.name) (fun _ _ => True) h0
        (authLoop req methods (m :: ms)) := by
    intro m hd ms h0 hen hrun
    unfold authLoop
    rw [if_pos hen, wpp_bind, hrun]
    refine wpp_checkClient trivial ?_ (fun _ _ _ => trivial) (fun _ _ => trivial)
    intro c _ h1 h2
    exact ⟨by simp [FoundClient], h1, h2⟩
  constructor
  · intro hp ha
    exact wpp_exec_ok h (key .basic _ _ [] (methodEnabled_allows.mpr ha) (presents_basic_run hp)) answers_true
  · intro hp ha hno
    refine wpp_exec_ok (S := fun _ _ => True) (E := fun _ _ => True)
      (Q := fun tr c => FoundClient tr id c ∧ c.secret = s ∧ c.authMethod = AuthMethod.post.name)
      (A := fun _ _ => True) h ?_ answers_true
    unfold authenticate AuthMethod.all authLoop
    rw [wpp_ite]
    refine ⟨fun _ => ?_, fun _ => key .post _ _ [] (methodEnabled_allows.mpr ha) (presents_post_run hp)⟩
    rw [wpp_bind]
    change WpP _ _ _ _ _ (authBasic req)
    unfold authBasic
    rw [wpp_bind, wpp_lift, post_liftRes]
    refine ⟨?_, fun _ _ => trivial⟩
    intro cred hcred
    match cred, hcred with
    | none, _ => exact key .post _ _ [] (methodEnabled_allows.mpr ha) (presents_post_run hp)
    | some (i, sec), hcred =>
      dsimp only
      by_cases hne : i = [] ∨ sec = []
      · rw [if_pos hne]
        exact key .post _ _ [] (methodEnabled_allows.mpr ha) (presents_post_run hp)
      · rw [not_or] at hne
        exact absurd (.basic i sec (credentials_iff.mp hcred) hne.1 hne.2) (hno i (some sec))

/-- C36: a request that presents a secret in the form is never treated as coming from a public client. -/
theorem C36_no_downgrade (req : Request) (methods : Option (List PyStr)) (tr : List Ev) (c : Client) (s : PyStr)
    (h : Exec (authenticate req methods) tr (.ok c))
    (hs : Dict.get req.form (py! "client_secret") = some s) : c.secret ≠ none := by
  obtain ⟨m, id, -, hp, -, -⟩ := C35_authentication_sound req methods tr c h
  intro hn
  rw [hn] at hp
  cases hp with
  | none_ _ _ h2 _ => rw [hs] at h2; cases h2

example : Presents toyTwoMethods .basic (py! "c1") (some (py! "s3")) :=
  .basic _ _ (credentials_iff.mp (by decide +kernel)) (by decide) (by decide)

/-! ## C60 -/

/-- C60: a parameter is taken from the form, or from the query if the form does not have it. -/
theorem C60_form_overrides (req : Request) (k : PyStr) :
    Dict.get req.data k =
      match Dict.get req.form k with
      | some v => some v
      | none => Dict.get req.query k := by
  rw [get_data]
  cases Dict.get req.form k <;> rfl

theorem request_init {method url : PyStr} {headers : Dict PyStr PyStr} {body : Option Bytes} {user : Option User} {req : Request}
    (h : Request.init method url headers body user = .ok req) :
    req = ⟨method, urldecode (urlQuery url), Dict.ofPairs (headers.map (fun kv => (asciiLower kv.1, kv.2))), body, user⟩ := by
  unfold Request.init at h
  split at h
  · split at h
    · cases h
    · cases h; rfl
  · cases h

/-- C60: no parameter of a request that the library built is empty. -/
theorem C60_no_empty_parameter (method url : PyStr) (headers : Dict PyStr PyStr) (body : Option Bytes)
    (user : Option User) (req : Request) (h : Request.init method url headers body user = .ok req)
    (k v : PyStr) (hv : Dict.get req.data k = some v) : v ≠ [] := by
  rw [get_data] at hv
  cases hf : Dict.get req.form k with
  | some w =>
    rw [hf] at hv
    cases hv
    exact form_ne_nil (Dict.mem_of_get hf)
  | none =>
    rw [hf] at hv
    cases request_init h
    exact urldecode_ne_nil (Dict.mem_of_get hv)

theorem get_update_last {κ α : Type} [DecidableEq κ] (e : List (κ × α)) (k : κ) : ∀ d : Dict κ α,
    Dict.get (Dict.update d e) k = ((e.reverse.find? (fun kv => decide (kv.1 = k))).map Prod.snd).or (Dict.get d k) := by
  induction e with
  | nil => intro d; simp
  | cons p e ih =>
    intro d
    obtain ⟨k', v⟩ := p
    rw [Dict.update_cons, ih, List.reverse_cons, List.find?_append, Dict.get_set]
    by_cases hk : k' = k
    · cases List.find? (fun kv => decide (kv.1 = k)) e.reverse <;> simp [hk]
    · cases List.find? (fun kv => decide (kv.1 = k)) e.reverse <;> simp [hk]

/-- C60: a header is found under its lower-case name however its name was written; the last one wins. -/
theorem C60_header_names (method url : PyStr) (headers : Dict PyStr PyStr) (body : Option Bytes)
    (user : Option User) (req : Request) (h : Request.init method url headers body user = .ok req) (k : PyStr) :
    Dict.get req.headers k =
      (headers.reverse.find? (fun kv => decide (asciiLower kv.1 = k))).map Prod.snd := by
  cases request_init h
  unfold Dict.ofPairs
  dsimp only
  rw [get_update_last, ← List.map_reverse, List.find?_map]
  simp only [Function.comp_def, Option.map_map, Dict.get_nil, Option.or_none]

theorem request_init_iff (method url : PyStr) (headers : Dict PyStr PyStr) (body : Option Bytes) (user : Option User) :
    (∃ req, Request.init method url headers body user = .ok req) ↔
      (asciiLower method = py! "get" ∨ asciiLower method = py! "post") ∧ ¬ OneBracket url := by
  rw [← urlRefused_iff]
  unfold Request.init
  by_cases h1 : asciiLower method = py! "get" ∨ asciiLower method = py! "post"
  · rw [if_pos h1]
    cases h2 : urlRefused url <;> simp [h1]
  · rw [if_neg h1]
    simp [h1]

/-- C60: a request can be built exactly for the methods GET and POST in any letter case, unless its host has one bracket only. -/
theorem C60_methods (method url : PyStr) (headers : Dict PyStr PyStr) (body : Option Bytes) (user : Option User) :
    (∃ req, Request.init method url headers body user = .ok req) ↔
      (asciiLower method = py! "get" ∨ asciiLower method = py! "post") ∧ ¬ OneBracket url :=
  request_init_iff method url headers body user

/-- Both kinds of hosts exist. -/
example : ¬ OneBracket (py! "https://[::1]:80/a[") ∧ OneBracket (py! "https://[::1/a]") := by
  rw [← urlRefused_iff, ← urlRefused_iff]
  decide +kernel

example : (Request.init (py! "POST") (py! "https://s/token?a=1&b=2&e=#f") [(py! "AuthoriZation", py! "x")]
    (some (by! "b=3&c=%26&d=")) none).map (fun r => (r.data, r.headers)) =
    .ok ([(py! "a", py! "1"), (py! "b", py! "3"), (py! "c", py! "&")], [(py! "authorization", py! "x")]) := by
  decide +kernel

/-! ## C62 -/

/-- C62, redirects: the receiver of an error redirect decodes exactly the members of the error that are set (and not empty),
whatever text they contain. -/
theorem C62_error_redirect (url : PyStr) (e : OErr) (r : Response) (h : errorRedirect url e = .ok r) :
    RedirectsTo r url [(py! "error", e.error), (py! "error_description", e.description), (py! "error_uri", e.uri),
      (py! "state", e.state)] :=
  errorRedirect_spec h

theorem ndictVal_dump (e : OErr) : ndictVal e.dump =
    e.params.filterMap (fun kv => kv.2.map (fun s => (kv.1, Val.str s))) := by
  rw [dump_eq, ndictVal, dropNone, ← List.filterMap_eq_map', List.filterMap_filter]
  congr 1
  funext kv
  obtain ⟨k, v⟩ := kv
  cases v <;> rfl

/-- C62, bodies: the JSON body of an error response is read back as exactly the members of the error that are set. -/
theorem C62_error_body (fe : FloatEnv) (hl : FloatLaws fe) (status : Nat) (headers : Dict PyStr PyStr) (e : OErr)
    (r : Response) (h : jsonResponse fe status headers (.dict (ndictVal e.dump)) = .ok r) :
    r.status = status ∧ jsonLoads fe r.body = .ok (.dict
      ([(py! "error", e.error), (py! "error_description", e.description), (py! "error_uri", e.uri),
        (py! "state", e.state)].filterMap (fun kv => kv.2.map (fun s => (kv.1, Val.str s))))) := by
  unfold jsonResponse at h
  split at h
  · cases h
  · rename_i b hb
    cases h
    refine ⟨rfl, ?_⟩
    have hw : (Val.dict (ndictVal e.dump)).Wf := by
      refine ⟨?_, ?_⟩
      · have := ok_dump e
        unfold Dict.Ok Dict.keys at this
        unfold ndictVal
        rw [List.map_map]
        exact this
      · rw [ndictVal_dump]
        generalize e.params = l
        induction l with
        | nil => trivial
        | cons p l ih =>
          obtain ⟨k, v⟩ := p
          cases v with
          | none => simpa using ih
          | some v => simpa [Val.WfD, Val.Wf] using ih
    rw [C11_json_roundtrip_bytes fe hl _ hw b hb, ndictVal_dump]
    rfl

example : errorRedirect (py! "https://c/cb")
    (.mk' .invalidScope (some (py! "a&state=x#\"")) (some (py! "1&error=2"))) =
    .ok ⟨303, [(py! "Location", some (py!
      "https://c/cb?error=invalid_scope&error_description=a%26state%3Dx%23%22&state=1%26error%3D2"))], []⟩ := by
  decide +kernel

example : jsonResponse toyFloat 400 [] (.dict (ndictVal (OErr.mk' .invalidGrant (some (py! "a\"}"))).dump)) =
    .ok ⟨400, [(py! "Content-Type", some (py! "application/json"))],
      by! "{\"error\": \"invalid_grant\", \"error_description\": \"a\\\"}\"}"⟩ := by
  decide +kernel

end Psion.Props
