import Verif.OAuth.OidcLemmas
import Verif.Props.Authorize

/-!
# Property C55: hooks stay with their grant
-/

namespace Psion.Props

open Psion Spec

/-- A call `providers[i].add_hook(cls, hook)`; `cls = none` is `BaseGrant`. -/
structure Registration where
  provider : Nat
  cls : Option GrantClass
  hook : Config → Hook

/-- The table of hooks after some registrations in a process with the given providers. -/
def tableOf (providers : Nat → Provider) (regs : List Registration) : Hooks :=
  regs.foldl (fun t r => addHook t (providers r.provider) r.cls r.hook) Hooks.empty

/-- What C55 asks for: only the registrations with the provider `i` for the class `g` count, once for each. -/
def wantedHooks (providers : Nat → Provider) (i : Nat) (g : GrantClass) (regs : List Registration) : Hooks :=
  (regs.filter (fun r => decide (r.provider = i ∧ g ∈ (providers i).grants ∧ (r.cls = none ∨ r.cls = some g)))).foldl
    (fun t r => t.add (r.hook (providers i).cfg)) Hooks.empty

/-- C55 as stated: every grant of every provider behaves as if it had exactly the hooks registered for it. -/
def HooksStay : Prop :=
  ∀ (env : OEnv) (providers : Nat → Provider) (regs : List Registration) (i : Nat) (g : GrantClass),
    g ∈ (providers i).grants →
    grantOf env (providers i).cfg (tableOf providers regs) g =
      grantOf env (providers i).cfg (wantedHooks providers i g regs) g

/-- A hook that replaces the redirect URI of authorization requests. -/
def toyHook : Config → Hook := fun _ =>
  { authorizationRequest := some (fun _ => P.ret (some [(py! "redirect_uri", .str (py! "https://evil/"))])) }

/-- Does the code grant of this configuration and table store a code with this redirect URI for the toy request? -/
def storesUri (cfg : Config) (table : Hooks) (uri : PyStr) : Bool :=
  (Prog.run toyUsual [] ((grantOf toyEnv cfg table .authorizationCode).authorize toyAuthQuery toyClient toyUser)).1.any
    (fun ev => match ev with
      | ⟨.saveCode _ data _ _, _⟩ => (dget data (py! "redirect_uri")).pyEq (.str uri)
      | _ => false)

/-- C55 is false: a hook that one provider registers for the client credentials grant changes the authorization code grant of
another provider. -/
theorem C55_refuted : ¬ HooksStay := by
  intro H
  let providers : Nat → Provider := fun i => if i = 0 then ⟨toyConfig, [.clientCredentials]⟩ else toyProvider
  let regs : List Registration := [⟨0, some .clientCredentials, toyHook⟩]
  have h := H toyEnv providers regs 1 .authorizationCode (by decide)
  have h1 : storesUri (providers 1).cfg (tableOf providers regs) (py! "https://evil/") = true := by decide +kernel
  have h2 : storesUri (providers 1).cfg (wantedHooks providers 1 .authorizationCode regs) (py! "https://evil/") = false := by
    decide +kernel
  unfold storesUri at h1 h2
  rw [h, h2] at h1
  cases h1

/-- C55, within one provider: a hook that a provider registers for the client credentials grant changes its own authorization code
grant. -/
theorem C55_refuted_one_provider :
    storesUri toyProvider.cfg (tableOf (fun _ => toyProvider) [⟨0, some .clientCredentials, toyHook⟩])
      (py! "https://evil/") = true ∧
    storesUri toyProvider.cfg
      (wantedHooks (fun _ => toyProvider) 0 .authorizationCode [⟨0, some .clientCredentials, toyHook⟩])
      (py! "https://evil/") = false := by decide +kernel

/-- A hook registered for `BaseGrant` runs once for every grant of the provider. -/
theorem C55_registered_per_grant (p : Provider) (hook : Config → Hook) :
    addHook Hooks.empty p none hook = p.grants.foldl (fun t _ => t.add (hook p.cfg)) Hooks.empty := by
  unfold addHook
  rw [List.filter_eq_self.mpr (by simp)]

example : (addHook Hooks.empty toyProvider none toyHook).authorizationRequest.length = 3 := by decide

/-- C55, other grants: whatever is registered, the client credentials and the refresh token grant behave as they should, because
they run no hooks. -/
theorem C55_other_grants (env : OEnv) (providers : Nat → Provider) (regs : List Registration) (i : Nat) (g : GrantClass)
    (hg : g ≠ .authorizationCode) :
    grantOf env (providers i).cfg (tableOf providers regs) g =
      grantOf env (providers i).cfg (wantedHooks providers i g regs) g := by
  cases g with
  | authorizationCode => exact absurd rfl hg
  | clientCredentials => rfl
  | refreshToken => rfl

/-- A registration that stays where it belongs, from the point of view of provider `i`: it is ineffective (the provider that
registers has no grant of the class), or it is for the authorization code grant of provider `i`, which has only one. -/
def Local (providers : Nat → Provider) (i : Nat) (r : Registration) : Prop :=
  (∀ g ∈ (providers r.provider).grants, ¬ (r.cls = none ∨ r.cls = some g)) ∨
    (r.provider = i ∧ r.cls = some .authorizationCode ∧
      ((providers i).grants.filter (fun g => decide (g = .authorizationCode))).length = 1)

theorem add_wanted {providers : Nat → Provider} {i : Nat} {r : Registration} (h : Local providers i r)
    (hi : .authorizationCode ∈ (providers i).grants) (t : Hooks) :
    addHook t (providers r.provider) r.cls r.hook =
      if r.provider = i ∧ GrantClass.authorizationCode ∈ (providers i).grants ∧
          (r.cls = none ∨ r.cls = some .authorizationCode)
      then t.add (r.hook (providers i).cfg) else t := by
  unfold addHook
  rcases h with h | ⟨rfl, h2, h3⟩
  · rw [List.filter_eq_nil_iff.mpr (fun g hg => by simpa using h g hg), List.foldl_nil, if_neg]
    rintro ⟨rfl, h1, h2⟩
    exact h _ hi h2
  · rw [if_pos ⟨rfl, hi, Or.inr h2⟩]
    have : ((providers r.provider).grants.filter (fun g => decide (r.cls = none ∨ r.cls = some g))).length = 1 := by
      rw [← h3]
      congr 2
      funext g
      rw [h2]
      simp [eq_comm]
    obtain ⟨g, hg⟩ := List.length_eq_one_iff.mp this
    rw [hg]
    rfl

/-- C55 where registrations are local: the table then contains exactly the hooks registered for the authorization code grant of
provider `i`. Missing are registrations of several providers, for other grants or for `BaseGrant` (`C55_refuted`). -/
theorem C55_partial (env : OEnv) (providers : Nat → Provider) (regs : List Registration) (i : Nat) (g : GrantClass)
    (hg : g ∈ (providers i).grants) (hr : ∀ r ∈ regs, Local providers i r) :
    grantOf env (providers i).cfg (tableOf providers regs) g =
      grantOf env (providers i).cfg (wantedHooks providers i g regs) g := by
  by_cases hc : g = .authorizationCode
  · subst hc
    have : tableOf providers regs = wantedHooks providers i .authorizationCode regs := by
      unfold tableOf wantedHooks
      generalize Hooks.empty = t
      induction regs generalizing t with
      | nil => rfl
      | cons r l ih =>
        rw [List.foldl_cons, List.filter_cons, add_wanted (hr r List.mem_cons_self) hg]
        have := fun t => ih (fun r' hr' => hr r' (List.mem_cons_of_mem _ hr')) t
        split
        · rename_i hcond
          rw [if_pos (by simpa using hcond), List.foldl_cons]
          exact this _
        · rename_i hcond
          rw [if_neg (by simpa using hcond)]
          exact this _
    rw [this]
  · exact C55_other_grants env providers regs i g hc

example : Local (fun _ => toyProvider) 0 ⟨0, some .authorizationCode, toyHook⟩ ∧
    storesUri toyProvider.cfg (tableOf (fun _ => toyProvider) [⟨0, some .authorizationCode, toyHook⟩])
      (py! "https://evil/") = true :=
  ⟨Or.inr ⟨rfl, rfl, by decide⟩, by decide +kernel⟩

end Psion.Props
