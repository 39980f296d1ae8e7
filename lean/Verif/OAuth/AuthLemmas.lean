import Verif.OAuth.ProgLemmas
import Verif.Spec.OAuth
import Verif.Py.HeaderLemmas

/-!
# Client authentication: lemmas
-/

namespace Psion

open Spec

variable {A : List Ev → Ev → Prop} {S : List Ev → Op → Prop} {E : List Ev → OExc → Prop}

theorem methodEnabled_allows {methods : Option (List PyStr)} {m : AuthMethod} :
    methodEnabled methods m = true ↔ Allows methods m := by
  unfold methodEnabled Allows
  match methods with
  | none => simp
  | some [] => simp
  | some (a :: l) => cases m <;> simp [AuthMethod.name, methodName]

/-- `checkClient` looks up exactly one client and returns it only if everything fits. -/
theorem wpp_checkClient {m : AuthMethod} {hd : Dict PyStr PyStr} {id : PyStr} {sec : Option PyStr}
    {Q : List Ev → Option Client → Prop} {h : List Ev}
    (hS : S h (.findClient id))
    (hQ : ∀ c : Client, A h ⟨.findClient id, .ok (some c)⟩ → c.secret = sec → c.authMethod = m.name →
      Q (h ++ [⟨.findClient id, .ok (some c)⟩]) (some c))
    (hE : ∀ r d, (∀ ch ∈ d, ch < 128) →
      E (h ++ [⟨.findClient id, .ok r⟩]) (.oauth (.mk' .invalidClient (some d) none hd)))
    (hX : ∀ e, A h ⟨.findClient id, .error e⟩ → E (h ++ [⟨.findClient id, .error e⟩]) e) :
    WpP A S Q E h (checkClient m hd id sec) := by
  unfold checkClient
  rw [wpp_bind, wpp_call]
  refine ⟨hS, ?_, hX⟩
  intro r hr
  cases r with
  | none => exact hE none _ (by decide)
  | some c =>
    dsimp only
    rw [wpp_ite, wpp_ite]
    refine ⟨fun _ => hE _ _ (by decide), fun h1 => ⟨fun _ => hE _ _ (by cases m <;> decide), fun h2 => ?_⟩⟩
    exact hQ c hr (Decidable.not_not.mp h1) (Decidable.not_not.mp h2)

/-- Lookups that authentication performs. -/
def LooksUp (req : Request) (id : PyStr) : Prop :=
  (∃ s, getBasicAuthorization req.headers = .ok (some (id, s))) ∨
    Dict.get req.form (py! "client_id") = some id

/-- Exceptions that authentication raises: `InvalidClient`, the failure of the adapter, or the `ValueError` of a malformed
header. -/
def AuthFailure (req : Request) (e : OExc) : Prop :=
  (∃ d hd, e = .oauth (.mk' .invalidClient d none hd) ∧
      (hd = [] ∨ hd = [(py! "WWW-Authenticate", py! "Basic")]) ∧ ∀ t, d = some t → ∀ ch ∈ t, ch < 128) ∨
    ∃ x, e = .py x ∧ getBasicAuthorization req.headers = .error x

/-- Rule for one authentication method. -/
theorem wpp_run {req : Request} {m : AuthMethod} {Q : List Ev → Option Client → Prop} {h : List Ev}
    (hS : ∀ id, LooksUp req id → S h (.findClient id))
    (hN : Q h none)
    (hQ : ∀ id (c : Client), A h ⟨.findClient id, .ok (some c)⟩ → Presents req m id c.secret →
      c.authMethod = m.name → Q (h ++ [⟨.findClient id, .ok (some c)⟩]) (some c))
    (hE : ∀ h' e, (h' = h ∨ ∃ id r, h' = h ++ [⟨.findClient id, r⟩]) → AuthFailure req e → E h' e)
    (hX : ∀ id e, A h ⟨.findClient id, .error e⟩ → E (h ++ [⟨.findClient id, .error e⟩]) e) :
    WpP A S Q E h (m.run req) := by
  cases m with
  | basic =>
    change WpP A S Q E h (authBasic req)
    unfold authBasic
    rw [wpp_bind, wpp_lift, post_liftRes]
    refine ⟨?_, fun e he => hE _ _ (Or.inl rfl) (Or.inr ⟨e, rfl, he⟩)⟩
    intro cred hcred
    match cred, hcred with
    | none, _ => exact hN
    | some (id, sec), hcred =>
      dsimp only
      rw [wpp_ite]
      refine ⟨fun _ => hN, fun hne => ?_⟩
      rw [not_or] at hne
      refine wpp_checkClient (hS id (Or.inl ⟨sec, hcred⟩)) ?_ (fun r d hd => hE _ _ (Or.inr ⟨_, _, rfl⟩) (Or.inl ⟨_, _, rfl, Or.inr rfl, by rintro t ⟨⟩; exact hd⟩))
        (hX id)
      intro c hc hsec hm
      exact hQ id c hc (by rw [hsec]; exact .basic id sec (credentials_iff.mp hcred) hne.1 hne.2) hm
  | post =>
    change WpP A S Q E h (authPost req)
    unfold authPost
    split
    · rename_i id sec h1 h2
      rw [wpp_ite]
      refine ⟨fun _ => hN, fun hne => ?_⟩
      rw [not_or] at hne
      refine wpp_checkClient (hS id (Or.inr h1)) ?_ (fun r d hd => hE _ _ (Or.inr ⟨_, _, rfl⟩) (Or.inl ⟨_, _, rfl, Or.inl rfl, by rintro t ⟨⟩; exact hd⟩)) (hX id)
      intro c hc hsec hm
      exact hQ id c hc (by rw [hsec]; exact .post id sec h1 h2 hne.1 hne.2) hm
    · exact hN
  | none_ =>
    change WpP A S Q E h (authNone req)
    unfold authNone
    split
    · rename_i id h1 h2
      rw [wpp_ite]
      refine ⟨fun _ => hN, fun hne => ?_⟩
      refine wpp_checkClient (hS id (Or.inr h1)) ?_ (fun r d hd => hE _ _ (Or.inr ⟨_, _, rfl⟩) (Or.inl ⟨_, _, rfl, Or.inl rfl, by rintro t ⟨⟩; exact hd⟩)) (hX id)
      intro c hc hsec hm
      exact hQ id c hc (by rw [hsec]; exact .none_ id h1 h2 hne) hm
    · exact hN

/-- Rule for client authentication: at most one client is looked up, and it is returned only if authenticated. -/
theorem wpp_authenticate {req : Request} {methods : Option (List PyStr)} {Q : List Ev → Client → Prop}
    {h : List Ev}
    (hS : ∀ id, LooksUp req id → S h (.findClient id))
    (hQ : ∀ m id (c : Client), A h ⟨.findClient id, .ok (some c)⟩ → Presents req m id c.secret →
      c.authMethod = m.name → Allows methods m → Q (h ++ [⟨.findClient id, .ok (some c)⟩]) c)
    (hE : ∀ h' e, (h' = h ∨ ∃ id r, h' = h ++ [⟨.findClient id, r⟩]) → AuthFailure req e → E h' e)
    (hX : ∀ id e, A h ⟨.findClient id, .error e⟩ → E (h ++ [⟨.findClient id, .error e⟩]) e) :
    WpP A S Q E h (authenticate req methods) := by
  unfold authenticate
  generalize AuthMethod.all = ms
  induction ms with
  | nil => exact hE _ _ (Or.inl rfl) (Or.inl ⟨none, [], rfl, Or.inl rfl, nofun⟩)
  | cons m ms ih =>
    unfold authLoop
    rw [wpp_ite]
    refine ⟨fun hen => ?_, fun _ => ih⟩
    rw [wpp_bind]
    refine wpp_run hS ih ?_ hE hX
    intro id c hc hp hm
    exact hQ m id c hc hp hm (methodEnabled_allows.mp hen)

end Psion
