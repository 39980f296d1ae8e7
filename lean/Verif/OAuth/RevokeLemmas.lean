import Verif.OAuth.AnswerLemmas

/-!
# The revocation endpoint: lemmas
-/

namespace Psion

open Spec

/-- Is this a request to revoke a token? -/
def isRevoke : Op → Bool
  | .revoke .. => true
  | _ => false

/-- The hint is missing, empty, or names a kind of token. -/
def HintOk (hint : Option PyStr) : Prop :=
  hint = none ∨ hint = some [] ∨ hint = some (py! "access_token") ∨ hint = some (py! "refresh_token")

/-- What the revocation endpoint may do. -/
def RevokeOp (req : Request) (h : List Ev) : Op → Prop
  | .findClient _ => True
  | .revoke c t hint => Authenticated req none h c ∧ Dict.get req.form (py! "token") = some t ∧ t ≠ [] ∧
      hint = Dict.get req.form (py! "token_type_hint") ∧ HintOk hint ∧ ∀ ev ∈ h, isRevoke ev.op = false
  | _ => False

/-- Why the revocation endpoint fails. -/
inductive RevokeFail (req : Request) (h : List Ev) : OExc → Prop
  /-- The client is not authenticated. -/
  | client (x : OErr) : x.kind = .invalidClient → LibErr req.data x → (∀ ev ∈ h, isRevoke ev.op = false) →
      RevokeFail req h (.oauth x)
  /-- The hint is not supported. -/
  | hint (c : Client) : Authenticated req none h c → ¬ HintOk (Dict.get req.form (py! "token_type_hint")) →
      (∀ ev ∈ h, isRevoke ev.op = false) → RevokeFail req h (.oauth (.mk' .unsupportedTokenType))
  /-- The adapter raised. -/
  | app (o : Op) (e : OExc) : (⟨o, .error e⟩ : Ev) ∈ h → RevokeFail req h e
  /-- The Authorization header is malformed. -/
  | header (x : Exc) : getBasicAuthorization req.headers = .error x → RevokeFail req h (.py x)

/-- How the `try` block of the revocation endpoint ends without exception. -/
def RevokeDone (env : OEnv) (req : Request) (h : List Ev) (a : Option Response) : Prop :=
  (∃ c, Authenticated req none h c ∧ blank req.form (py! "token") = true ∧ a = none ∧ ∀ ev ∈ h, isRevoke ev.op = false) ∨
    ∃ c t r, Authenticated req none h c ∧ Dict.get req.form (py! "token") = some t ∧
      (⟨.revoke c t (Dict.get req.form (py! "token_type_hint")), .ok ()⟩ : Ev) ∈ h ∧ a = some r ∧
      jsonResponse env.cr.fe 200 [] .none = .ok r

/-- `null` can always be sent. -/
theorem jsonResponse_null (fe : FloatEnv) (status : Nat) (hd : Dict PyStr PyStr) :
    ∃ r, jsonResponse fe status hd .none = .ok r ∧ r.body = by! "null" :=
  ⟨_, rfl, rfl⟩

theorem hintOk_iff (data : Dict PyStr PyStr) :
    (!blank data (py! "token_type_hint") &&
      decide ((Dict.get data (py! "token_type_hint")).getD [] ∉ supportedTokens)) = false ↔
      HintOk (Dict.get data (py! "token_type_hint")) := by
  unfold blank HintOk
  match Dict.get data (py! "token_type_hint") with
  | none => simp
  | some [] => simp
  | some (c :: s) =>
    simp only [supportedTokens]
    by_cases h1 : (c :: s) = py! "access_token" <;> by_cases h2 : (c :: s) = py! "refresh_token" <;> simp [h1, h2]

/-- Rule for the `try` block of the revocation endpoint. -/
theorem wpp_revokeBody (env : OEnv) (req : Request) :
    WpP (fun _ _ => True) (RevokeOp req) (RevokeDone env req) (RevokeFail req) [] (revokeBody env req) := by
  unfold revokeBody
  rw [wpp_bind]
  refine wpp_authenticate (fun _ _ => trivial) ?_ ?_ ?_
  · intro m id c _ hp hm ha
    have hq : ∀ ev ∈ ([] ++ [(⟨.findClient id, .ok (some c)⟩ : Ev)]), isRevoke ev.op = false := by
      intro ev hev
      rw [List.mem_singleton.mp hev]
      rfl
    have hau : Authenticated req none ([] ++ [(⟨.findClient id, .ok (some c)⟩ : Ev)]) c :=
      ⟨m, id, by simp [FoundClient], hp, hm, ha⟩
    generalize ([] ++ [(⟨.findClient id, .ok (some c)⟩ : Ev)]) = h0 at hq hau ⊢
    dsimp only
    rw [wpp_ite]
    refine ⟨fun hb => Or.inl ⟨c, hau, hb, rfl, hq⟩, fun hb => ?_⟩
    obtain ⟨t, ht, hne⟩ := blank_eq_false.mp (by simpa using hb)
    rw [wpp_ite]
    refine ⟨fun hh => ?_, fun hh => ?_⟩
    · refine .hint c hau ?_ hq
      rw [← hintOk_iff]
      simp only [hh]
      decide
    · have hh := (hintOk_iff req.form).mp (by simpa using hh)
      rw [wpp_bind, ht]
      refine wpp_call.mpr ⟨⟨hau, ht, hne, rfl, hh, hq⟩, ?_, ?_⟩
      · rintro ⟨⟩ _
        rw [wpp_bind, wpp_lift, post_liftRes]
        obtain ⟨r, hr, -⟩ := jsonResponse_null env.cr.fe 200 []
        rw [hr]
        refine ⟨?_, nofun⟩
        rintro r' ⟨⟩
        refine Or.inr ⟨c, t, _, ?_, ht, List.mem_append_right _ List.mem_cons_self, rfl, hr⟩
        obtain ⟨m, id, h1, h2⟩ := hau
        exact ⟨m, id, List.mem_append_left _ h1, h2⟩
      · intro e _
        exact .app _ e (List.mem_append_right _ List.mem_cons_self)
  · rintro h' e hh (⟨d, hd, rfl, hhd, hd'⟩ | ⟨x, rfl, hx⟩)
    · refine .client _ rfl ⟨rfl, rfl, rfl, hhd, ?_⟩ ?_
      · intro d' hd2 ch hch
        exact Or.inl (hd' d' hd2 ch hch)
      · rcases hh with rfl | ⟨id, r, rfl⟩
        · simp
        · intro ev hev
          rw [List.mem_singleton.mp hev]
          rfl
    · exact .header x hx
  · intro id e _
    exact .app _ e (List.mem_append_right _ List.mem_cons_self)

/-- Rule for the revocation endpoint. -/
theorem wpp_revoke (env : OEnv) (p : Provider) (req : Request) :
    WpP (fun _ _ => True) (RevokeOp req)
      (fun h a => RevokeDone env req h a ∨ ∃ (x : OErr) (r : Response), RevokeFail req h (.oauth x) ∧ a = some r ∧
        jsonResponse env.cr.fe (if x.kind = .invalidClient then 401 else 400) x.headers (.dict (ndictVal x.dump)) = .ok r)
      (fun h e => (RevokeFail req h e ∧ ∃ x, e = .py x) ∨ ∃ (x : OErr) (y : Exc), RevokeFail req h (.oauth x) ∧ e = .py y ∧
        jsonResponse env.cr.fe (if x.kind = .invalidClient then 401 else 400) x.headers (.dict (ndictVal x.dump)) = .error y)
      [] (p.revoke env req) := by
  unfold Provider.revoke revokeEndpoint
  rw [wpp_catch]
  refine wpp_mono (wpp_revokeBody env req) (fun _ _ h => h) (fun _ _ h => Or.inl h) ?_
  intro h e he
  cases e with
  | oauth x =>
    dsimp only [caught]
    rw [wpp_bind, wpp_lift, post_liftRes]
    exact ⟨fun r hr => Or.inr ⟨x, r, he, rfl, hr⟩, fun y hy => Or.inr ⟨x, y, he, rfl, hy⟩⟩
  | py x => exact Or.inl ⟨he, x, rfl⟩

end Psion
