import Verif.Props.ExampleFlow
import Verif.Props.Revoke

/-!
# C149: what the answer 200 of the revocation endpoint means

RFC 7009, section 2.2: the answer has the status 200 if the token has been revoked, or if it was invalid before; so afterwards it is invalid.
-/

namespace Psion.Props

open Psion Spec Example

variable {env : OEnv} {m m' : Store} {l : List (Draw × Ev)}

/-- Nothing is revoked. -/
theorem alone_lookups (h : Alone env m l m') (hw : ∀ ev ∈ events l, ∃ id, ev.op = .findClient id) : m' = m := by
  induction h with
  | nil => rfl
  | step m m1 m2 d ev l hop _ _ ih =>
    rw [ih (fun e he => hw e (List.mem_cons_of_mem _ he))]
    obtain ⟨id, hid⟩ := hw ev List.mem_cons_self
    obtain ⟨o, a⟩ := ev
    cases hid
    exact (congrArg Prod.fst hop).symm

theorem alone_client {row : ClientRow} (h : Alone env m l m') (hc : m.findClient row.id = some row) (r : ORes (Option Client))
    (hr : (⟨.findClient row.id, r⟩ : Ev) ∈ events l) : r = .ok (some row.client) := by
  obtain ⟨pre, post, he⟩ := List.append_of_mem hr
  obtain ⟨a, b, d, m1, m2, -, -, -, h1, hop, -, -⟩ := alone_event h he
  have : Except.ok ((m1.findClient row.id).map ClientRow.client) = r := congrArg Prod.snd hop
  rw [← this, (alone_find h1).1, hc]
  rfl

theorem alone_revoke {c : Client} {t : PyStr} {hint : Option PyStr} (h : Alone env m l m') (r : ORes Unit)
    (hr : (⟨.revoke c t hint, r⟩ : Ev) ∈ events l) : r = .ok () := by
  obtain ⟨pre, post, he⟩ := List.append_of_mem hr
  obtain ⟨a, b, d, m1, m2, -, -, -, h1, hop, -, -⟩ := alone_event h he
  exact (congrArg Prod.snd hop).symm

/-- C149 for refresh tokens (partial): a client that identifies itself and sends any text as a token, with no hint or a supported one, gets
the same answer 200. Afterwards the database has no refresh token of the client with this text, and all else is as before; if there was none
before, for instance because the client has revoked it already, nothing has changed at all. Missing: access tokens, see `C149_access_refuted`. -/
theorem C149_partial (row : ClientRow) (req : Request) (meth : AuthMethod) (token : PyStr) (out : ORes (Option Response))
    (hc : m.findClient row.id = some row) (hi : Identifies req meth row.id row.client)
    (htok : Dict.get req.form (py! "token") = some token) (hne : token ≠ [])
    (hhint : ∀ hint, Dict.get req.form (py! "token_type_hint") = some hint →
      hint = [] ∨ hint = py! "access_token" ∨ hint = py! "refresh_token")
    (halone : Alone env m l m') (hx : Exec (exProvider.revoke env req) (events l) out) :
    (∃ r, out = .ok (some r) ∧ r.status = 200 ∧ r.body = by! "null") ∧ m'.users = m.users ∧ m'.clients = m.clients ∧ m'.codes = m.codes ∧
      (∀ rt, rt ∈ m'.refresh ↔ rt ∈ m.refresh ∧ ¬ (rt.token = token ∧ rt.clientId = row.id)) ∧
      ((∀ rt ∈ m.refresh, ¬ (rt.token = token ∧ rt.clientId = row.id)) → m' = m) := by
  obtain ⟨r, rfl, hs, hb, hm⟩ := C78_revoke env exProvider req (events l) out meth row.id row.client token hi htok hne hhint
    (alone_client halone hc) (fun _ => alone_revoke halone) hx
  refine ⟨⟨r, rfl, hs, hb⟩, ?_⟩
  have hop : ∀ pre ev post, events l = pre ++ ev :: post → RevokeOp req pre ev.op := fun pre ev post h =>
    wpp_partial (exec_partial hx) (wpp_revoke env exProvider req) answers_true h
  obtain ⟨rv, hrv⟩ : ∃ rv : Ev, rv = ⟨.revoke row.client token (Dict.get req.form (py! "token_type_hint")), .ok ()⟩ := ⟨_, rfl⟩
  rw [← hrv] at hm
  obtain ⟨pre, post, he⟩ := List.append_of_mem hm
  obtain ⟨a, b, d, m1, m2, -, rfl, rfl, h1, ho, -, h2⟩ := alone_event halone he
  have hno : ∀ ev ∈ events a, isRevoke ev.op = false := by
    have h := hop _ _ _ he
    rw [hrv] at h
    exact h.2.2.2.2.2
  have e1 : m1 = m := by
    refine alone_lookups h1 (fun ev hev => ?_)
    obtain ⟨x, y, hxy⟩ := List.append_of_mem hev
    have := hop x ev (y ++ rv :: events b) (by rw [he, hxy]; simp)
    have hn := hno ev hev
    obtain ⟨o, ans⟩ := ev
    cases o with
    | findClient id => exact ⟨id, rfl⟩
    | revoke => cases hn
    | _ => exact this.elim
  have e2 : m' = m2 := by
    refine alone_lookups h2 (fun ev hev => ?_)
    obtain ⟨x, y, hxy⟩ := List.append_of_mem hev
    have := hop (events a ++ rv :: x) ev y (by rw [he, hxy]; simp)
    obtain ⟨o, ans⟩ := ev
    cases o with
    | findClient id => exact ⟨id, rfl⟩
    | revoke =>
      obtain ⟨-, -, -, -, -, hn⟩ := this
      exact absurd (hn rv (List.mem_append_right _ List.mem_cons_self)) (by simp [hrv, isRevoke])
    | _ => exact this.elim
  have e3 : revoke m1 row.client token = m2 := by
    rw [hrv] at ho
    exact congrArg Prod.fst ho
  subst e1 e2 e3
  have hid : row.client.clientId = row.id := rfl
  refine ⟨rfl, rfl, rfl, fun rt => ?_, fun hnone => ?_⟩
  · unfold revoke
    rw [List.mem_filter, hid, decide_eq_true_iff]
  · unfold revoke
    have hf : m1.refresh.filter (fun r => decide (¬ (r.token = token ∧ r.clientId = row.client.clientId))) = m1.refresh :=
      List.filter_eq_self.mpr (fun rt hrt => decide_eq_true (hnone rt hrt))
    rw [hf]

/-- The revocation of the refresh token of the flow, twice. -/
def exRevocation : Request := toyPost (by! "token_type_hint=refresh_token&token=" ++ List.replicate 32 98)

def revoked1 : List (Draw × Ev) × Store × P (Option Response) :=
  solo toyEnv (List.replicate 3 (exDraw 2)) flow1.2.1 (exProvider.revoke toyEnv exRevocation)

def revoked2 : List (Draw × Ev) × Store × P (Option Response) :=
  solo toyEnv (List.replicate 3 (exDraw 3)) revoked1.2.1 (exProvider.revoke toyEnv exRevocation)

example : flow1.2.1.refresh.length = 1 ∧ revoked1.2.1.refresh.length = 0 ∧ revoked2.2.1.refresh.length = 0 ∧
    ((outcome revoked1.2.2).map (isAnswer 200 (by! "null"))) = some true ∧
    ((outcome revoked2.2.2).map (isAnswer 200 (by! "null"))) = some true := by decide +kernel

/-- C149 is violated for access tokens: a client that identifies itself and sends an access token of the application to the revocation
endpoint, with the hint `access_token`, gets the answer 200, which says that the token is invalid now. But it is accepted, with all its claims,
until the hour after its creation is over; the database does not know access tokens at all. -/
theorem C149_access_refuted (hl : FloatLaws env.cr.fe) (row : ClientRow) (req : Request) (meth : AuthMethod) (token : PyStr)
    (out : ORes (Option Response)) (d : Draw) (s s' : Store) (owner : Owner) (scopes : List PyStr)
    (hcreated : exOp env d s (.createAccess row.client owner scopes) = (s', .ok token))
    (hc : m.findClient row.id = some row) (hi : Identifies req meth row.id row.client)
    (htok : Dict.get req.form (py! "token") = some token) (hne : token ≠ [])
    (hhint : Dict.get req.form (py! "token_type_hint") = some (py! "access_token"))
    (halone : Alone env m l m') (hx : Exec (exProvider.revoke env req) (events l) out) :
    (∃ r, out = .ok (some r) ∧ r.status = 200 ∧ r.body = by! "null") ∧ ∃ sub, OwnerHas owner sub ∧
      ∀ n1 n2, d.stamp ≤ n1 → n1 < d.stamp + 3600 → d.stamp ≤ n2 → n2 < d.stamp + 3600 →
        Reads env token n1 n2 d.stamp row.id sub (joinWith [32] scopes) := by
  obtain ⟨h1, -⟩ := C149_partial row req meth token out hc hi htok hne (by rintro hint h; rw [hhint] at h; cases h; exact .inr (.inl rfl))
    halone hx
  exact ⟨h1, C65_content env hl d s s' row.client owner scopes token hcreated⟩

/-- An access token of the client `c1` for the user `u1`. -/
def exAccess : PyStr :=
  match createAccess toyEnv (exDraw 1) exClient.client (.user (some exUser.user)) [py! "openid"] with
  | .ok t => t
  | .error _ => []

/-- The request to revoke it. -/
def exRevokeAccess : Request :=
  toyPost (by! "token_type_hint=access_token&token=" ++ exAccess.map (fun c => (⟨c % 256, Nat.mod_lt _ (by decide)⟩ : Byte)))

def revoked3 : List (Draw × Ev) × Store × P (Option Response) :=
  solo toyEnv (List.replicate 3 (exDraw 2)) exStore (exProvider.revoke toyEnv exRevokeAccess)

/-- The hypotheses can be met. -/
example : exAccess ≠ [] ∧ Dict.get exRevokeAccess.form (py! "token") = some exAccess ∧
    Dict.get exRevokeAccess.form (py! "token_type_hint") = some (py! "access_token") ∧
    ((outcome revoked3.2.2).map (isAnswer 200 (by! "null"))) = some true := by decide +kernel

example : Alone toyEnv exStore revoked3.1 revoked3.2.1 ∧
    Identifies exRevokeAccess .basic exClient.id exClient.client ∧ exStore.findClient exClient.id = some exClient ∧
    exOp toyEnv (exDraw 1) exStore (.createAccess exClient.client (.user (some exUser.user)) [py! "openid"]) = (exStore, .ok exAccess) := by
  refine ⟨solo_alone (by decide +kernel), exClient_identifies _, by decide +kernel, ?_⟩
  have h : (match createAccess toyEnv (exDraw 1) exClient.client (.user (some exUser.user)) [py! "openid"] with
    | .ok _ => true | .error _ => false) = true := by decide +kernel
  show (exStore, liftRes (createAccess toyEnv (exDraw 1) exClient.client (.user (some exUser.user)) [py! "openid"])) = _
  unfold exAccess
  split at h
  · rename_i t ht
    rw [ht]
    rfl
  · cases h

end Psion.Props
