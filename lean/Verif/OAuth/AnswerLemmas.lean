import Verif.OAuth.TokenLemmas
import Verif.OAuth.TextLemmas

/-!
# When the token endpoint answers: lemmas
-/

namespace Psion

open Spec

/-! ## Executions of composed coroutines -/

theorem exec_bind {α β : Type} {f : α → Prog β} {p : Prog α} : ∀ {tr : List Ev} {b : β}, Exec (Prog.bind p f) tr b →
    ∃ tr1 tr2 a, tr = tr1 ++ tr2 ∧ Exec p tr1 a ∧ Exec (f a) tr2 b := by
  induction p with
  | done a => intro tr b h; exact ⟨[], tr, a, rfl, .done a, h⟩
  | op o k ih =>
    intro tr b h
    cases h with
    | op _ _ r tr _ h =>
      obtain ⟨tr1, tr2, a, rfl, h1, h2⟩ := ih r h
      exact ⟨⟨o, r⟩ :: tr1, tr2, a, rfl, .op o k r tr1 a h1, h2⟩

theorem exec_done {α : Type} {a b : α} {tr : List Ev} (h : Exec (Prog.done a) tr b) : tr = [] ∧ b = a := by
  cases h; exact ⟨rfl, rfl⟩

/-- An execution of `x = await p; ...` that returned. -/
theorem exec_pbind_ok {α β : Type} {f : α → P β} {p : P α} {tr : List Ev} {b : β}
    (h : Exec (P.bind p f) tr (.ok b)) :
    ∃ tr1 tr2 a, tr = tr1 ++ tr2 ∧ Exec p tr1 (.ok a) ∧ Exec (f a) tr2 (.ok b) := by
  obtain ⟨tr1, tr2, a, rfl, h1, h2⟩ := exec_bind h
  cases a with
  | ok a => exact ⟨tr1, tr2, a, rfl, h1, h2⟩
  | error e => cases (exec_done h2).2

/-- A property of the dictionary that every hook preserves. -/
theorem runHooks_inv {reserved : List PyStr} {l : List (Dict PyStr Val → P (Option (Dict PyStr Val)))}
    (hb : ∀ f ∈ l, ∀ acc, BenignHook reserved (f acc)) {h : List Ev} {acc0 : Dict PyStr Val}
    {I : Dict PyStr Val → Prop}
    (hstep : ∀ f ∈ l, ∀ acc tr d, (∀ k ∈ reserved, Dict.get acc k = Dict.get acc0 k) → tr <:+: h →
      Exec (f acc) tr (.ok (some d)) → I acc → I (Dict.update acc d)) :
    ∀ {acc tr a}, (∀ k ∈ reserved, Dict.get acc k = Dict.get acc0 k) → I acc → tr <:+: h →
      Exec (runHooks acc l) tr (.ok a) → I a := by
  induction l with
  | nil =>
    intro acc tr a _ hi _ hx
    cases hx
    exact hi
  | cons f l ih =>
    intro acc tr a hk hi hs hx
    obtain ⟨tr1, tr2, r, rfl, h1, h2⟩ := exec_pbind_ok hx
    have hs1 : tr1 <:+: h := (List.prefix_append _ _).isInfix.trans hs
    have hs2 : tr2 <:+: h := (List.suffix_append _ _).isInfix.trans hs
    refine ih (fun g hg => hb g (List.mem_cons_of_mem _ hg)) (fun g hg => hstep g (List.mem_cons_of_mem _ hg)) ?_ ?_ hs2 h2
    · intro k hk'
      rw [get_updateHook (fun d hd => ?_) k hk', hk k hk']
      subst hd
      exact (hb f List.mem_cons_self acc).keys tr1 d h1
    · cases r with
      | none => exact hi
      | some d => exact hstep f List.mem_cons_self acc tr1 d hk hs1 h1 hi

/-! ## Encodable values -/

theorem encD_update {d e : Dict PyStr Val} (hd : Val.EncD d) (he : Val.EncD e) : Val.EncD (Dict.update d e) := by
  rw [encD_iff] at hd he ⊢
  intro kv hkv
  rcases Dict.mem_update hkv with h | h
  · exact hd kv h
  · exact he kv h

theorem encodable_join {l : List PyStr} (h : ∀ s ∈ l, Encodable s) : Encodable (joinWith [32] l) := by
  induction l with
  | nil => exact encodable_nil
  | cons a l ih =>
    cases l with
    | nil => exact h a List.mem_cons_self
    | cons b l =>
      unfold joinWith
      refine encodable_append (encodable_append (h a List.mem_cons_self) (encodable_ascii (by decide))) ?_
      exact ih (fun s hs => h s (List.mem_cons_of_mem _ hs))

theorem encD_createToken {cfg : Config} {access : PyStr} {refresh : Option PyStr} {scopes : Option (List PyStr)}
    (ha : Encodable access) (hr : ∀ t, refresh = some t → Encodable t)
    (hs : ∀ l, scopes = some l → ∀ s ∈ l, Encodable s) : Val.EncD (createToken cfg access refresh scopes) := by
  rw [encD_iff]
  intro kv hkv
  have hkv := (List.mem_filter.mp hkv).1
  simp only [List.mem_cons, List.not_mem_nil, or_false] at hkv
  rcases hkv with rfl | rfl | rfl | rfl | rfl
  · exact ⟨encodable_ascii (by dsimp only; decide), ha⟩
  · exact ⟨encodable_ascii (by dsimp only; decide), encodable_ascii (by decide)⟩
  · exact ⟨encodable_ascii (by dsimp only; decide), trivial⟩
  · refine ⟨encodable_ascii (by dsimp only; decide), ?_⟩
    cases refresh with
    | none => trivial
    | some t => exact hr t rfl
  · refine ⟨encodable_ascii (by dsimp only; decide), ?_⟩
    match scopes, hs with
    | none, _ => trivial
    | some [], _ => trivial
    | some (s :: l), hs => exact encodable_join (hs _ rfl)

theorem encD_dump {x : OErr} (h : ∀ t, x.error = some t ∨ x.description = some t ∨ x.uri = some t ∨ x.state = some t →
    Encodable t) : Val.EncD (ndictVal x.dump) := by
  rw [encD_iff]
  intro kv hkv
  unfold ndictVal at hkv
  obtain ⟨q, hq, rfl⟩ := List.mem_map.mp hkv
  rw [dump_eq] at hq
  have hq := (List.mem_filter.mp hq).1
  simp only [OErr.params, List.mem_cons, List.not_mem_nil, or_false] at hq
  have enc : ∀ o : Option PyStr, (∀ t, o = some t → Encodable t) →
      Val.Enc (match o with | some s => .str s | none => .none) := by
    intro o ho
    cases o with
    | none => trivial
    | some t => exact ho t rfl
  rcases hq with rfl | rfl | rfl | rfl
  · exact ⟨encodable_ascii (by dsimp only; decide), enc _ (fun t ht => h t (Or.inl ht))⟩
  · exact ⟨encodable_ascii (by dsimp only; decide), enc _ (fun t ht => h t (Or.inr (Or.inl ht)))⟩
  · exact ⟨encodable_ascii (by dsimp only; decide), enc _ (fun t ht => h t (Or.inr (Or.inr (Or.inl ht))))⟩
  · exact ⟨encodable_ascii (by dsimp only; decide), enc _ (fun t ht => h t (Or.inr (Or.inr (Or.inr ht))))⟩

theorem jsonResponse_ok {fe : FloatEnv} (hl : FloatLaws fe) {d : Dict PyStr Val} (hd : Val.EncD d) (status : Nat)
    (headers : Dict PyStr PyStr) : ∃ r, jsonResponse fe status headers (.dict d) = .ok r := by
  have h : Encodable (jsonDumps fe (.dict d)) := encodable_print hl _ hd
  obtain ⟨b, hb⟩ := utf8Encode_ok h
  unfold jsonResponse
  rw [hb]
  exact ⟨_, rfl⟩

/-! ## Headers -/

theorem get_someVals (d : Dict PyStr PyStr) (k : PyStr) : Dict.get (someVals d) k = (Dict.get d k).map some := by
  induction d with
  | nil => rfl
  | cons p d ih =>
    obtain ⟨k', v⟩ := p
    unfold someVals at ih ⊢
    rw [List.map_cons, Dict.get_cons, Dict.get_cons, ih]
    split <;> rfl

theorem ok_someVals {d : Dict PyStr PyStr} (h : Dict.Ok d) : Dict.Ok (someVals d) := by
  unfold Dict.Ok Dict.keys someVals
  rw [List.map_map]
  exact h

theorem get_parseHeaders {hd : Dict PyStr PyStr} (hok : Dict.Ok hd) {m k v : PyStr} (h : Dict.get hd k = some v) :
    Dict.get (parseHeaders (some m) hd) k = some (some v) := by
  unfold parseHeaders FullDict.init dropNone
  rw [Dict.get_filter (Dict.ok_update (by simp [Dict.Ok, Dict.keys]) _), Dict.get_update_ok (ok_someVals hok), get_someVals, h]
  rfl

end Psion
