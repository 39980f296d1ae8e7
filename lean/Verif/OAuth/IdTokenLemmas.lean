import Verif.OAuth.OidcLemmas
import Verif.OAuth.AnswerLemmas

/-!
# The ID token: lemmas
-/

namespace Psion

open Spec

/-! ## Substrings -/

theorem isSubstring_iff {n : PyStr} : ∀ {h : PyStr}, isSubstring n h = true ↔ ∃ a b, h = a ++ n ++ b
  | [] => by
    simp only [isSubstring, List.isEmpty_iff]
    constructor
    · rintro rfl; exact ⟨[], [], rfl⟩
    · rintro ⟨a, b, h⟩
      have := congrArg List.length h
      simp only [List.length_nil, List.length_append] at this
      exact List.length_eq_zero_iff.mp (by omega)
  | c :: s => by
    simp only [isSubstring, Bool.or_eq_true, List.isPrefixOf_iff_prefix]
    rw [isSubstring_iff]
    constructor
    · rintro (⟨t, ht⟩ | ⟨a, b, rfl⟩)
      · exact ⟨[], t, by simpa using ht.symm⟩
      · exact ⟨c :: a, b, rfl⟩
    · rintro ⟨a, b, h⟩
      cases a with
      | nil => exact Or.inl ⟨b, by simpa using h.symm⟩
      | cons x a =>
        rw [List.cons_append, List.cons_append, List.cons.injEq] at h
        exact Or.inr ⟨a, b, h.2⟩

/-- A text without spaces occurs in two texts joined by a space only if it occurs in one of them. -/
theorem substring_space {n x y : PyStr} (hn : n ≠ []) (hs : 32 ∉ n) :
    (∃ a b, x ++ 32 :: y = a ++ n ++ b) ↔ (∃ a b, x = a ++ n ++ b) ∨ ∃ a b, y = a ++ n ++ b := by
  constructor
  · rintro ⟨a, b, h⟩
    rw [List.append_assoc, List.append_eq_append_iff] at h
    rcases h with ⟨c, rfl, h⟩ | ⟨c, rfl, h⟩
    · cases c with
      | nil =>
        cases n with
        | nil => exact absurd rfl hn
        | cons d n =>
          simp only [List.nil_append, List.cons_append, List.cons.injEq] at h
          exact absurd (by simp [h.1]) hs
      | cons d c =>
        simp only [List.cons_append, List.cons.injEq] at h
        exact Or.inr ⟨c, b, by rw [h.2, List.append_assoc]⟩
    · rw [List.append_eq_append_iff] at h
      rcases h with ⟨d, rfl, h⟩ | ⟨d, rfl, h⟩
      · exact Or.inl ⟨a, d, by rw [List.append_assoc]⟩
      · cases d with
        | nil => exact Or.inl ⟨a, [], by simp⟩
        | cons e d =>
          simp only [List.cons_append, List.cons.injEq] at h
          exact absurd (by simp [← h.1]) hs
  · rintro (⟨a, b, rfl⟩ | ⟨a, b, rfl⟩)
    · exact ⟨a, b ++ 32 :: y, by simp⟩
    · exact ⟨x ++ 32 :: a, b, by simp⟩

/-- A text without spaces occurs in joined words only if it occurs in one of them. -/
theorem substring_join {n : PyStr} (hn : n ≠ []) (hs : 32 ∉ n) : ∀ {l : List PyStr},
    (∃ a b, joinWith [32] l = a ++ n ++ b) ↔ ∃ s ∈ l, ∃ a b, s = a ++ n ++ b
  | [] => by
    simp only [joinWith, List.not_mem_nil, false_and, exists_false, iff_false]
    rintro ⟨a, b, h⟩
    have := congrArg List.length h
    simp only [List.length_nil, List.length_append] at this
    exact hn (List.length_eq_zero_iff.mp (by omega))
  | [x] => by simp [joinWith]
  | x :: y :: l => by
    have hj : joinWith [32] (x :: y :: l) = x ++ 32 :: joinWith [32] (y :: l) := by simp [joinWith]
    rw [hj, substring_space hn hs, substring_join hn hs (l := y :: l)]
    constructor
    · rintro (h | ⟨s, h, h'⟩)
      · exact ⟨x, List.mem_cons_self, h⟩
      · exact ⟨s, List.mem_cons_of_mem _ h, h'⟩
    · rintro ⟨s, h, h'⟩
      rcases List.mem_cons.mp h with rfl | h
      · exact Or.inl h'
      · exact Or.inr ⟨s, h, h'⟩

/-! ## Executions -/

theorem exec_call {o : Op} {tr : List Ev} {r : ORes o.Ans} (h : Exec (P.call o) tr r) : tr = [⟨o, r⟩] := by
  unfold P.call at h
  cases h with
  | op _ _ r' tr _ h =>
    obtain ⟨rfl, rfl⟩ := exec_done h
    rfl

theorem exec_lift {α : Type} {tr : List Ev} {r r' : ORes α} (h : Exec (P.lift r) tr r') : tr = [] ∧ r = r' := by
  obtain ⟨h1, h2⟩ := exec_done h
  exact ⟨h1, h2.symm⟩

theorem liftRes_eq_ok {α : Type} {r : Res α} {a : α} (h : liftRes r = .ok a) : r = .ok a := by
  cases r with
  | ok b => simpa [liftRes] using h
  | error e => cases h

theorem item_eq_ok {d : Dict PyStr Val} {k : PyStr} {v : Val} (h : item d k = .ok v) : Dict.get d k = some v := by
  have := liftRes_eq_ok h
  unfold Dict.getItem at this
  split at this
  · rename_i x hx; cases this; exact hx
  · cases this

/-- How an ID token comes about. -/
structure IdTokenMade (env : OEnv) (cfg : Config) (token : Dict PyStr Val) (client : Client) (user : User) (h : List Ev)
    (info : Jwk × PyStr) (userinfo : Dict PyStr Val) (now : Int) (tok : PyStr) : Prop where
  key : (⟨.getKeyInfo, .ok info⟩ : Ev) ∈ h
  asked : ∃ scope, Dict.get token (py! "scope") = some (.str scope) ∧
    (⟨.getUserinfo user (splitWs scope), .ok userinfo⟩ : Ev) ∈ h
  clock : (⟨.stamp, .ok now⟩ : Ev) ∈ h
  made : ∃ hash now1 now2 claims kid jwt seed, atHash env token info.2 = .ok hash ∧
    idTokenInit now1 (idTokenClaims cfg client now hash userinfo) .none = .ok claims ∧
    Dict.get info.1.data (py! "kid") = some kid ∧
    Jwt.init env.cr now2 (.dict claims) (idTokenHeader info.2 kid) = .ok jwt ∧
    jwt.encode env.cr info.1 seed = .ok tok

theorem exec_generateIdToken {env : OEnv} {cfg : Config} {token : Dict PyStr Val} {client : Client} {user : User}
    {tr : List Ev} {tok : PyStr} (h : Exec (generateIdToken env cfg token client user) tr (.ok tok)) :
    ∃ info userinfo now, IdTokenMade env cfg token client user tr info userinfo now tok := by
  unfold generateIdToken at h
  obtain ⟨t1, t1', info, rfl, h1, g1⟩ := exec_pbind_ok h
  obtain rfl := exec_call h1
  obtain ⟨t2, t2', scope, rfl, h2, g2⟩ := exec_pbind_ok g1
  obtain ⟨rfl, k2⟩ := exec_lift h2
  obtain ⟨t3, t3', scopes, rfl, h3, g3⟩ := exec_pbind_ok g2
  obtain ⟨rfl, k3⟩ := exec_lift h3
  obtain ⟨t4, t4', userinfo, rfl, h4, g4⟩ := exec_pbind_ok g3
  obtain rfl := exec_call h4
  obtain ⟨t5, t5', now, rfl, h5, g5⟩ := exec_pbind_ok g4
  obtain rfl := exec_call h5
  obtain ⟨t6, t6', hash, rfl, h6, g6⟩ := exec_pbind_ok g5
  obtain ⟨rfl, k6⟩ := exec_lift h6
  obtain ⟨t7, t7', now1, rfl, h7, g7⟩ := exec_pbind_ok g6
  obtain rfl := exec_call h7
  obtain ⟨t8, t8', claims, rfl, h8, g8⟩ := exec_pbind_ok g7
  obtain ⟨rfl, k8⟩ := exec_lift h8
  obtain ⟨t9, t9', kid, rfl, h9, g9⟩ := exec_pbind_ok g8
  obtain ⟨rfl, k9⟩ := exec_lift h9
  obtain ⟨t10, t10', now2, rfl, h10, g10⟩ := exec_pbind_ok g9
  obtain rfl := exec_call h10
  obtain ⟨t11, t11', jwt, rfl, h11, g11⟩ := exec_pbind_ok g10
  obtain ⟨rfl, k11⟩ := exec_lift h11
  obtain ⟨t12, t12', seed, rfl, h12, g12⟩ := exec_pbind_ok g11
  obtain rfl := exec_call h12
  obtain ⟨rfl, g13⟩ := exec_lift g12
  have h3 := liftRes_eq_ok k3
  cases scope with
  | str s =>
    cases h3
    exact ⟨info, userinfo, now, by simp, ⟨s, item_eq_ok k2, by simp⟩, by simp,
      hash, now1, now2, claims, kid, jwt, seed, liftRes_eq_ok k6, liftRes_eq_ok k8, item_eq_ok k9, liftRes_eq_ok k11,
      liftRes_eq_ok g13⟩
  | _ => cases h3

/-- What the hook does to a token response with this scope. -/
theorem exec_oidcTokenResponse {env : OEnv} {cfg : Config} {token data : Dict PyStr Val} {client : Client} {user : User}
    {tr : List Ev} {out : Option (Dict PyStr Val)}
    (h : Exec (oidcTokenResponse env cfg token data client user) tr (.ok out)) :
    ∃ scope, Dict.get token (py! "scope") = some scope ∧
      ((containsText (py! "openid") scope = .ok true ∧ ∃ tok info userinfo now,
          IdTokenMade env cfg token client user tr info userinfo now tok ∧ out = some [(py! "id_token", .str tok)]) ∨
        (containsText (py! "openid") scope = .ok false ∧ out = none)) := by
  unfold oidcTokenResponse at h
  obtain ⟨t1, t1', scope, rfl, h1, g1⟩ := exec_pbind_ok h
  obtain ⟨rfl, k1⟩ := exec_lift h1
  obtain ⟨t2, t2', b, rfl, h2, g2⟩ := exec_pbind_ok g1
  obtain ⟨rfl, k2⟩ := exec_lift h2
  refine ⟨scope, item_eq_ok k1, ?_⟩
  have h2 := liftRes_eq_ok k2
  cases b with
  | false =>
    obtain ⟨-, h3⟩ := exec_done g2
    cases h3
    exact Or.inr ⟨h2, rfl⟩
  | true =>
    rw [if_pos rfl] at g2
    obtain ⟨t3, t3', tok, rfl, h3, g3⟩ := exec_pbind_ok g2
    obtain ⟨rfl, h4⟩ := exec_done g3
    cases h4
    obtain ⟨info, userinfo, now, hm⟩ := exec_generateIdToken h3
    refine Or.inl ⟨h2, tok, info, userinfo, now, ?_, rfl⟩
    simpa using hm

end Psion
