import Verif.Spec.System
import Verif.Props.Token
import Verif.Props.Authorize
import Verif.OAuth.RevokeLemmas
import Verif.Props.Consent

/-!
# Histories: lemmas
-/

namespace Psion

open Spec

theorem ofRequest_append (i : Nat) (a b : List Step) : ofRequest i (a ++ b) = ofRequest i a ++ ofRequest i b := by
  unfold ofRequest; rw [List.filterMap_append]

theorem ofRequest_split (i : Nat) (pre post : List Step) (ev : Ev) :
    ofRequest i (pre ++ (i, ev) :: post) = ofRequest i pre ++ ev :: ofRequest i post := by
  rw [ofRequest_append]
  simp [ofRequest]

theorem mem_ofRequest {i : Nat} {h : List Step} {ev : Ev} : ev ∈ ofRequest i h ↔ (i, ev) ∈ h := by
  unfold ofRequest
  rw [List.mem_filterMap]
  constructor
  · rintro ⟨⟨j, e⟩, hm, he⟩
    by_cases hj : j = i
    · simp only [hj, if_true, Option.some.injEq] at he
      rw [← he, ← hj]; exact hm
    · simp [hj] at he
  · intro hm
    exact ⟨_, hm, by simp⟩

/-- The last operation of a request, in the history. -/
theorem ofRequest_last {i : Nat} {a : List Step} {init : List Ev} {ev : Ev} (h : ofRequest i a = init ++ [ev]) :
    ∃ a1 a2, a = a1 ++ (i, ev) :: a2 ∧ ofRequest i a1 = init := by
  unfold ofRequest at h
  obtain ⟨l1, l2, rfl, h1, h2⟩ := List.filterMap_eq_append_iff.mp h
  obtain ⟨l3, x, l4, rfl, h3, h4, h5⟩ := List.filterMap_eq_cons_iff.mp h2
  obtain ⟨j, e⟩ := x
  by_cases hj : j = i
  · subst hj
    simp only [if_true, Option.some.injEq] at h4
    subst h4
    refine ⟨l1 ++ l3, l4, by simp, ?_⟩
    rw [ofRequest_append]
    have : ofRequest j l3 = [] := List.filterMap_eq_nil_iff.mpr h3
    rw [this, List.append_nil]
    exact h1
  · simp [hj] at h4

theorem history_did {env : OEnv} {table : Hooks} {calls : Nat → Call} {pre post : List Step} {i : Nat} {ev : Ev}
    (h : History env table calls (pre ++ (i, ev) :: post)) :
    (calls i).Did env table (ofRequest i pre ++ ev :: ofRequest i post) := by
  have := h i
  rwa [ofRequest_split] at this

/-- A code is only stored by an authorization. -/
theorem save_authorization {env : OEnv} {table : Hooks} (hb : Benign table) {calls : Nat → Call} {pre post : List Step}
    {j : Nat} {code : PyStr} {data : Dict PyStr Val} {c : Client} {u : User} {ans : ORes Unit}
    (h : History env table calls (pre ++ (j, ⟨.saveCode code data c u, ans⟩) :: post)) :
    ∃ p req, calls j = .authorize p req ∧ Authorizes p req (ofRequest j pre) c u data := by
  have hd := history_did h
  cases hc : calls j with
  | authorize p req =>
    rw [hc] at hd
    exact ⟨p, req, rfl, (authorize_op hb hd).1⟩
  | consent p req =>
    rw [hc] at hd
    obtain ⟨id, -, he⟩ := Props.C61_read_only p req _ _ _ hd
    cases he
  | token p req =>
    rw [hc] at hd
    exact (Props.C38_other_operations env table hb p req _ _ _ hd).elim
  | revoke p req =>
    rw [hc] at hd
    exact (wpp_partial hd (wpp_revoke env p req) answers_true rfl : False).elim

/-- The operation creates a token of the client for the user (or for `None`) with the scopes. -/
def CreatesToken (o : Op) (c : Client) (u : Option User) (scopes : List PyStr) : Prop :=
  o = .createAccess c (.user u) scopes ∨ o = .createRefresh c u scopes

/-- Tokens are only created by the token endpoint, for a reason. -/
theorem create_justified {env : OEnv} {table : Hooks} (hb : Benign table) {calls : Nat → Call} {pre post : List Step}
    {i : Nat} {ev : Ev} {c : Client} {u : Option User} {scopes : List PyStr}
    (h : History env table calls (pre ++ (i, ev) :: post)) (hc : CreatesToken ev.op c u scopes) :
    ∃ p req, calls i = .token p req ∧ Justified env p req (ofRequest i pre) c (.user u) scopes := by
  have hd := history_did h
  obtain ⟨o, ans⟩ := ev
  cases hcall : calls i with
  | authorize p req =>
    rw [hcall] at hd
    have := authorize_op hb hd
    rcases hc with hc | hc <;> (dsimp only at hc; subst hc; exact this.elim)
  | consent p req =>
    rw [hcall] at hd
    obtain ⟨id, -, he⟩ := Props.C61_read_only p req _ _ _ hd
    rcases hc with hc | hc <;> (dsimp only at hc he; subst hc; cases he)
  | token p req =>
    rw [hcall] at hd
    rcases hc with hc | hc <;> (dsimp only at hc; subst hc)
    · exact ⟨p, req, rfl, Props.access_justified hb hd⟩
    · exact ⟨p, req, rfl, (Props.refresh_justified hb hd).2⟩
  | revoke p req =>
    rw [hcall] at hd
    have := wpp_partial hd (wpp_revoke env p req) answers_true rfl
    rcases hc with hc | hc <;> (dsimp only at hc; subst hc; exact this.elim)

theorem authorizes_mono {p : Provider} {req : Request} {h h' : List Ev} {c : Client} {u : User} {data : Dict PyStr Val}
    (H : Authorizes p req h c u data) (hs : h ⊆ h') : Authorizes p req h' c u data := by
  obtain ⟨a1, a2, a3, a4, ⟨id, a5, a6⟩, a7, a8, a9, a10, a11⟩ := H
  exact ⟨a1, a2, a3, a4, ⟨id, a5, hs a6⟩, a7, a8, a9, a10, a11⟩

theorem ofRequest_subset {i : Nat} {h h' : List Step} (hs : h ⊆ h') : ofRequest i h ⊆ ofRequest i h' := fun _ hev =>
  mem_ofRequest.mpr (hs (mem_ofRequest.mp hev))

/-- A code that was found was stored before, by an authorization. -/
theorem found_code_authorized {env : OEnv} {table : Hooks} (hb : Benign table) {calls : Nat → Call} {pre post : List Step}
    (hist : History env table calls (pre ++ post)) (hon : Honest (pre ++ post)) {i : Nat} {code : PyStr} {ac : AuthCode}
    (hf : FoundCode (ofRequest i pre) (.str code) ac) :
    ∃ j p req data c u, Authorization env table calls pre j p req code data c u ∧ StoredAs ac data c u := by
  obtain ⟨a, b, rfl⟩ := List.append_of_mem (mem_ofRequest.mp hf)
  obtain ⟨j, code', data, c, u, ans, hm, he, hst⟩ := hon.code a i (.str code) ac (b ++ post) (by simp)
  cases he
  obtain ⟨a1, a2, rfl⟩ := List.append_of_mem hm
  have hist' := hist
  rw [show a1 ++ (j, (⟨.saveCode code data c u, ans⟩ : Ev)) :: a2 ++ (i, (⟨.getCode (.str code), .ok (some ac)⟩ : Ev)) :: b ++ post =
    a1 ++ (j, (⟨.saveCode code data c u, ans⟩ : Ev)) :: (a2 ++ (i, (⟨.getCode (.str code), .ok (some ac)⟩ : Ev)) :: b ++ post) by
      simp] at hist'
  obtain ⟨p, req, h1, h2⟩ := save_authorization hb hist'
  refine ⟨j, p, req, data, c, u, ⟨h1, ⟨ans, by simp⟩, authorizes_mono h2 (ofRequest_subset ?_)⟩, hst⟩
  intro x hx
  simp [hx]

theorem authorization_mono {env : OEnv} {table : Hooks} {calls : Nat → Call} {h h' : List Step} {j : Nat} {p : Provider}
    {req : Request} {code : PyStr} {data : Dict PyStr Val} {c : Client} {u : User}
    (H : Authorization env table calls h j p req code data c u) (hs : h ⊆ h') :
    Authorization env table calls h' j p req code data c u := by
  obtain ⟨h1, ⟨ans, h2⟩, h3⟩ := H
  exact ⟨h1, ⟨ans, hs h2⟩, authorizes_mono h3 (ofRequest_subset hs)⟩

end Psion
