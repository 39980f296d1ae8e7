import Verif.Props.ExampleTokens
import Verif.Spec.Rfc6749

/-!
# Property C123: scopes are read and written as RFC 6749 prescribes
-/

namespace Psion.Props

open Psion Spec

theorem scopeToken_plain {t : PyStr} (h : ScopeToken t) : t ≠ [] ∧ ∀ c ∈ t, isPySpace c = false := by
  refine ⟨h.1, fun c hc => ?_⟩
  have := h.2 c hc
  unfold ScopeChar at this
  unfold isPySpace
  simp only [decide_eq_false_iff_not, Bool.or_eq_false_iff, beq_eq_false_iff_ne, Bool.and_eq_false_iff]
  omega

/-- The scopes of a value of the standard are its words. -/
theorem scopeText_words {text : PyStr} {ts : List PyStr} (h : ScopeText text ts) : Words text ts := by
  induction h with
  | one t ht => exact .last t (scopeToken_plain ht).1 (scopeToken_plain ht).2
  | more t s ts ht _ ih => exact .word t 32 s ts (scopeToken_plain ht).1 (scopeToken_plain ht).2 (by decide) ih

theorem scopeText_ne {text : PyStr} {ts : List PyStr} (h : ScopeText text ts) : text ≠ [] ∧ ts ≠ [] := by
  cases h with
  | one t ht => exact ⟨ht.1, nofun⟩
  | more t s ts ht _ => exact ⟨by simp, nofun⟩

theorem scopeText_join {s : PyStr} {l : List PyStr} (h : ∀ t ∈ s :: l, ScopeToken t) : ScopeText (joinWith [32] (s :: l)) (s :: l) := by
  induction l generalizing s with
  | nil => exact .one s (h s (by simp))
  | cons t l ih =>
    have := ScopeText.more s _ _ (h s (by simp)) (ih (fun x hx => h x (List.mem_cons_of_mem _ hx)))
    simpa [joinWith] using this

/-- C123, authorization endpoint: a code is stored for exactly the scopes of the request, in their order. -/
theorem C123_stored (env : OEnv) (table : Hooks) (hb : Benign table) (p : Provider) (req : Request) (pre post : List Ev) (code : PyStr)
    (data : Dict PyStr Val) (c : Client) (u : User) (ans : ORes Unit) (text : PyStr) (ts : List PyStr)
    (ht : Dict.get req.data (py! "scope") = some text) (hs : ScopeText text ts)
    (h : Partial (p.authorize env table req) (pre ++ ⟨.saveCode code data c u, ans⟩ :: post)) :
    Dict.get data (py! "scopes") = some (strList ts) := by
  obtain ⟨text', ws, allowed, h1, h2, h3, -, -⟩ := C49_stored env table hb p req pre post code data c u ans h
  rw [ht] at h1
  cases h1
  rw [h3, ← words_iff.mp h2, words_iff.mp (scopeText_words hs)]

/-- C123, token endpoint: a client that asks for scopes for itself gets a token only if it is allowed all of them, and for those scopes
that the application permits of them. -/
theorem C123_credentials (env : OEnv) (table : Hooks) (p : Provider) (req : Request) (pre post : List Ev) (c : Client) (owner : Owner)
    (scopes : List PyStr) (ans : ORes PyStr) (text : PyStr) (ts : List PyStr)
    (hg : Dict.get req.data (py! "grant_type") = some (py! "client_credentials"))
    (ht : Dict.get req.data (py! "scope") = some text) (hs : ScopeText text ts)
    (h : Partial (p.token env table req) (pre ++ ⟨.createAccess c owner scopes, ans⟩ :: post)) :
    (∀ s ∈ ts, s ∈ p.cfg.scopes ∧ s ∈ scopes) ∧ c.allowedScopes (strList ts) = .ok scopes :=
  (C49_client_credentials env table p req pre post c owner scopes ans hg h).1 text ts ht (scopeText_ne hs).1 (scopeText_words hs)

/-- C123, token endpoint: a client that asks for scopes with a refresh token gets a token for scopes that it asked for. -/
theorem C123_refresh (env : OEnv) (table : Hooks) (p : Provider) (req : Request) (pre post : List Ev) (c : Client) (owner : Owner)
    (scopes : List PyStr) (ans : ORes PyStr) (text : PyStr) (ts : List PyStr) (hn : Narrows c)
    (hg : Dict.get req.data (py! "grant_type") = some (py! "refresh_token"))
    (ht : Dict.get req.data (py! "scope") = some text) (hs : ScopeText text ts)
    (h : Partial (p.token env table req) (pre ++ ⟨.createAccess c owner scopes, ans⟩ :: post)) :
    (∀ s ∈ ts, s ∈ p.cfg.scopes) ∧ ∀ s ∈ scopes, s ∈ ts := by
  obtain ⟨base, -, h2⟩ := C49_refresh env table p req pre post c owner scopes ans hg h
  obtain ⟨-, -, -, -, -, -, -, -, -, -, h3⟩ := C50_refresh_narrows env table p req pre post c owner scopes ans hg hn h
  exact ⟨fun s hs' => (h2 text ts ht (scopeText_words hs) (scopeText_ne hs).2 s hs').1,
    h3 text ts ht (scopeText_words hs) (scopeText_ne hs).2⟩

/-- The hooks return dictionaries without repeated keys, as all dictionaries of Python. -/
def HooksWf (table : Hooks) : Prop :=
  ∀ f ∈ table.tokenResponse, ∀ token data client user tr d, Exec (f token data client user) tr (.ok (some d)) → Val.WfD d

/-- Why the scopes of a new access token need not be reported: the client asked for exactly these; the refresh token has exactly these. -/
inductive Known (req : Request) (tr : List Ev) (scopes : List PyStr) : Prop
  | asked (text : PyStr) : Dict.get req.data (py! "grant_type") = some (py! "client_credentials") →
      Dict.get req.data (py! "scope") = some text → Words text scopes → Known req tr scopes
  | kept (token : PyStr) (rt : RefreshTok) : Dict.get req.data (py! "grant_type") = some (py! "refresh_token") →
      Dict.get req.data (py! "refresh_token") = some token → FoundRefresh tr token rt → rt.scopes = scopes → Known req tr scopes

/-- C123, what is written: the answer with an access token either names its scopes, in the form of the standard if each of them has the
form of a scope, or they are known to the client or there are none. -/
theorem C123_written (env : OEnv) (hl : FloatLaws env.cr.fe) (table : Hooks) (hb : Benign table) (hw : HooksWf table) (p : Provider)
    (req : Request) (tr : List Ev) (r : Response) (h : Exec (p.token env table req) tr (.ok r)) (hok : r.status = 200) :
    ∃ d c owner scopes access, JsonBody env.cr.fe r d ∧ (⟨.createAccess c owner scopes, .ok access⟩ : Ev) ∈ tr ∧
      Dict.get d (py! "access_token") = some (.str access) ∧
      ((∃ text, Dict.get d (py! "scope") = some (.str text) ∧ ((∀ s ∈ scopes, ScopeToken s) → ScopeText text scopes)) ∨
        Dict.get d (py! "scope") = none ∧ (scopes = [] ∨ Known req tr scopes)) := by
  have key : ∀ (d : Dict PyStr Val) (scopes : List PyStr) (o : Option (List PyStr)),
      (Dict.get d (py! "scope") = match o with
        | some (s :: l) => some (.str (joinWith [32] (s :: l)))
        | _ => none) → (o = some scopes ∨ o = none ∧ Known req tr scopes) →
      ((∃ text, Dict.get d (py! "scope") = some (.str text) ∧ ((∀ s ∈ scopes, ScopeToken s) → ScopeText text scopes)) ∨
        Dict.get d (py! "scope") = none ∧ (scopes = [] ∨ Known req tr scopes)) := by
    rintro d scopes o hd (rfl | ⟨rfl, hk⟩)
    · cases scopes with
      | nil => exact Or.inr ⟨hd, Or.inl rfl⟩
      | cons s l => exact Or.inl ⟨_, hd, scopeText_join⟩
    · exact Or.inr ⟨hd, Or.inr hk⟩
  rcases token_response hb h with ⟨token, ⟨g, c, hu, hd⟩, hj⟩ | ⟨x, -, hj⟩
  · have ht := hu.type
    cases g with
    | authorizationCode =>
      obtain ⟨code, ac, user, access, refresh, valid, tr', h1, h2, h3, h4, h5, h6, h7, h8, h9⟩ := hd.1.done
      have hbh : ∀ f ∈ tokenResponseHooks table valid c user, ∀ acc, BenignHook responseKeys (f acc) := benign_tokenResponse hb valid c user
      have hkeys := runHooks_keys hbh h8
      obtain ⟨g1, -, -, -, g5⟩ := createToken_get p.cfg access refresh (some ac.scopes)
      have hwf : (Val.dict token).Wf := by
        refine runHooks_inv (I := fun d => (Val.dict d).Wf) hbh (h := tr) ?_ (fun _ _ => rfl) (wf_createToken _ _ _ _) h9 h8
        rintro f hf acc tr' d - - hx hacc
        obtain ⟨f', hf', rfl⟩ := List.mem_map.mp hf
        have hd := hw f' hf' _ _ _ _ _ _ hx
        refine ⟨Dict.ok_update hacc.1 _, ?_⟩
        rw [wfD_iff]
        intro kv hkv
        rcases Dict.mem_update hkv with hkv | hkv
        · exact wfD_iff.mp hacc.2 kv hkv
        · exact wfD_iff.mp hd kv hkv
      refine ⟨token, c, _, ac.scopes, access, jsonResponse_body hl hwf hj, h5, ?_, key token ac.scopes (some ac.scopes) ?_ (Or.inl rfl)⟩
      · rw [hkeys _ (by decide), g1]
      · rw [hkeys _ (by decide), g5]
        cases ac.scopes <;> rfl
    | clientCredentials =>
      obtain ⟨scopes, access, -, hm, rep, rfl, hrep⟩ := hd.done
      obtain ⟨g1, -, -, -, g5⟩ := createToken_get p.cfg access none rep
      refine ⟨_, c, _, scopes, access, jsonResponse_body hl (wf_createToken _ _ _ _) hj, hm, g1, key _ scopes rep g5 ?_⟩
      rcases hrep with h | ⟨h, text, h1, h2⟩
      · exact Or.inl h
      · rw [del_scope] at h1
        exact Or.inr ⟨h, .asked text ht h1 h2⟩
    | refreshToken =>
      obtain ⟨text, rt, user, scopes, access, refresh, h1, h2, h3, h4, h5, h6, h7, rfl⟩ := hd.done
      rw [del_refresh] at h1
      obtain ⟨g1, -, -, -, g5⟩ := createToken_get p.cfg access refresh (if scopes = rt.scopes then none else some scopes)
      refine ⟨_, c, _, scopes, access, jsonResponse_body hl (wf_createToken _ _ _ _) hj, h5, g1, key _ scopes _ g5 ?_⟩
      split
      · rename_i he
        exact Or.inr ⟨rfl, .kept text rt ht h1 h2 he.symm⟩
      · exact Or.inl rfl
  · rw [(jsonResponse_status hj).1] at hok
    cases hok

/-- The hypotheses can be met, and the scopes asked for are those of the standard. -/
example : HooksWf Hooks.empty ∧ (∃ r, (toyRun toyUsual toyCredentials).2 = .ok r ∧ r.status = 200) ∧
    ScopeText (py! "write read") [py! "write", py! "read"] := by
  refine ⟨by rintro f ⟨⟩, ?_, ?_⟩
  · have hr : (match (toyRun toyUsual toyCredentials).2 with
        | .ok r => decide (r.status = 200)
        | .error _ => false) = true := by decide +kernel
    split at hr
    · rename_i r hr'
      exact ⟨r, hr', of_decide_eq_true hr⟩
    · cases hr
  · refine scopeText_join (s := py! "write") (l := [py! "read"]) ?_
    simp only [ScopeToken, ScopeChar]
    decide

/-- Asked for two scopes with a refresh token that has three, the provider answers with the two. -/
example : isResponse 200
    (by! "{\"access_token\": \"at1\", \"token_type\": \"Bearer\", \"expires_in\": 3600, \"refresh_token\": \"rt1\", \"scope\": \"read write\"}")
    (toyRun (toyAdapter toyClient (toyCode []) (toyRefresh [py! "openid", py! "read", py! "write"]))
      (toyPost (by! "grant_type=refresh_token&refresh_token=r1&scope=write+read"))).2 = true := by decide +kernel

theorem scopeText_chars {text : PyStr} {ts : List PyStr} (h : ScopeText text ts) : ∀ c ∈ text, c = 32 ∨ ScopeChar c := by
  induction h with
  | one t ht => exact fun c hc => Or.inr (ht.2 c hc)
  | more t s ts ht _ ih =>
    intro c hc
    rcases List.mem_append.mp hc with hc | hc
    · exact Or.inr (ht.2 c hc)
    · rcases List.mem_cons.mp hc with rfl | hc
      · exact Or.inl rfl
      · exact ih c hc

/-- Two scopes with a tabulator between them. -/
def toyTab : Request := toyPost (by! "grant_type=client_credentials&scope=write%09read")

/-- C123 is false at the token endpoint: values of `scope` that do not have the form of the standard are accepted. -/
theorem C123_refuted : ¬ ∀ (env : OEnv) (p : Provider) (req : Request) (tr : List Ev) (r : Response) (text : PyStr),
    Dict.get req.data (py! "scope") = some text → Exec (p.token env Hooks.empty req) tr (.ok r) → r.status = 200 →
      ∃ ts, ScopeText text ts := by
  intro H
  have hx := toyRun_exec toyUsual toyTab
  have hr : (match (toyRun toyUsual toyTab).2 with
      | .ok r => decide (r.status = 200)
      | .error _ => false) = true := by decide +kernel
  split at hr
  · rename_i r hr'
    rw [hr'] at hx
    obtain ⟨ts, h⟩ := H _ _ _ _ _ (py! "write\tread") (by decide +kernel) hx (of_decide_eq_true hr)
    have := scopeText_chars h 9 (by decide)
    unfold ScopeChar at this
    omega
  · cases hr

/-- The same at the authorization endpoint. -/
theorem C123_authorize_refuted : ¬ ∀ (env : OEnv) (p : Provider) (req : Request) (pre post : List Ev) (code : PyStr)
    (data : Dict PyStr Val) (c : Client) (u : User) (ans : ORes Unit) (text : PyStr),
    Dict.get req.data (py! "scope") = some text →
      Partial (p.authorize env Hooks.empty req) (pre ++ ⟨.saveCode code data c u, ans⟩ :: post) → ∃ ts, ScopeText text ts := by
  intro H
  let req := toyGet (Dict.set toyAuthQuery (py! "scope") (py! "read\twrite")) (some toyUser)
  obtain ⟨pre, post, code, data, c, u, ans, heq⟩ := split_saves (l := (toyAuth toyUsual req).1) (by decide +kernel)
  have hx := exec_partial (toyAuth_exec toyUsual req)
  rw [heq] at hx
  obtain ⟨ts, h⟩ := H _ _ _ _ _ _ _ _ _ _ (py! "read\twrite") (by decide +kernel) hx
  have := scopeText_chars h 9 (by decide)
  unfold ScopeChar at this
  omega

end Psion.Props
