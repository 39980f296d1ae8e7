import Verif.Spec.KeySetErrors
import Verif.Props.JoseErrors
import Verif.Props.KeyParse

/-!
# Property C135: the refusal of a key set says what is wrong
-/

namespace Psion.Props

open Psion Psion.Spec

theorem hashable_false_iff {v : Val} : v.hashable = false ↔ Unhashable v := by
  constructor
  · intro h
    cases v with
    | list l => exact Or.inl ⟨l, rfl⟩
    | dict d => exact Or.inr ⟨d, rfl⟩
    | _ => cases h
  · rintro (⟨l, rfl⟩ | ⟨d, rfl⟩) <;> rfl

/-- A list whose members are not pairwise related has two that are not. -/
theorem split_of_not_pairwise {α : Type} {R : α → α → Prop} : ∀ {l : List α}, ¬ l.Pairwise R →
    ∃ pre a mid b post, l = pre ++ a :: mid ++ b :: post ∧ ¬ R a b
  | [], h => absurd List.Pairwise.nil h
  | v :: l, h => by
    by_cases hl : l.Pairwise R
    · have : ¬ ∀ b ∈ l, R v b := fun hv => h (List.Pairwise.cons hv hl)
      obtain ⟨b, hb⟩ := Classical.not_forall.mp this
      obtain ⟨hm, hr⟩ := Classical.not_imp.mp hb
      obtain ⟨mid, post, rfl⟩ := List.append_of_mem hm
      exact ⟨[], v, mid, b, post, rfl, hr⟩
    · obtain ⟨pre, a, mid, b, post, rfl, hr⟩ := split_of_not_pairwise hl
      exact ⟨v :: pre, a, mid, b, post, rfl, hr⟩

theorem not_pairwise_of_split {α : Type} {R : α → α → Prop} {pre mid post : List α} {a b : α} (h : ¬ R a b) :
    ¬ (pre ++ a :: mid ++ b :: post).Pairwise R := by
  intro hp
  rw [List.append_assoc, List.pairwise_append] at hp
  have := hp.2.1
  rw [List.cons_append, List.pairwise_cons] at this
  exact h (this.1 b (by simp))

/-- C135, in part: exactly which error the keys of a set are refused with. -/
theorem C135_keys_partial (keys : List Jwk) (e : Exc) :
    keySetInit keys = .error e ↔ IdsRefused (keys.map (fun k => dget k.data (py! "kid"))) e := by
  unfold keySetInit
  generalize hids : keys.map (fun k => dget k.data (py! "kid")) = ids
  have hnil : keys = [] ↔ ids = [] := by rw [← hids]; simp
  have hnone : ids.any Val.isNone = true ↔ Val.none ∈ ids := by
    rw [List.any_eq_true]
    constructor
    · rintro ⟨v, hv, hn⟩; rw [← isNone_iff.mp hn]; exact hv
    · intro h; exact ⟨_, h, rfl⟩
  have hun : ids.any (fun v => !v.hashable) = true ↔ ∃ v ∈ ids, Unhashable v := by
    rw [List.any_eq_true]
    constructor
    · rintro ⟨v, hv, hn⟩; exact ⟨v, hv, hashable_false_iff.mp (by simpa using hn)⟩
    · rintro ⟨v, hv, hn⟩; exact ⟨v, hv, by simp [hashable_false_iff.mpr hn]⟩
  simp only
  constructor
  · intro h
    split at h
    · rename_i hk
      cases h
      rw [hnil.mp hk]
      exact .empty
    split at h
    · rename_i hn
      cases h
      exact .missing (hnone.mp hn)
    rename_i hn
    have hn' : Val.none ∉ ids := fun hm => hn (hnone.mpr hm)
    split at h
    · rename_i hu
      cases h
      obtain ⟨v, hv, hvu⟩ := hun.mp hu
      exact .unhashable hn' hv hvu
    rename_i hu
    have hu' : ∀ v ∈ ids, ¬ Unhashable v := fun v hv hvu => hu (hun.mpr ⟨v, hv, hvu⟩)
    split at h
    · rename_i hl
      cases h
      rw [ne_eq, dedup_eq_iff] at hl
      obtain ⟨pre, a, mid, b, post, rfl, hr⟩ := split_of_not_pairwise hl
      exact .repeated hn' hu' (by simpa using hr)
    · cases h
  · intro h
    have hne : ∀ {e'}, IdsRefused ids e' → ids ≠ [] → keys ≠ [] := fun _ hi hk => hi (hnil.mp hk)
    cases h with
    | empty => rw [if_pos (hnil.mpr rfl)]
    | missing hm =>
      rw [if_neg (fun hk => by rw [hnil.mp hk] at hm; cases hm), if_pos (hnone.mpr hm)]
    | unhashable hn hv hu =>
      rw [if_neg (fun hk => by rw [hnil.mp hk] at hv; cases hv), if_neg (fun h => hn (hnone.mp h)), if_pos (hun.mpr ⟨_, hv, hu⟩)]
    | repeated hn hu hr =>
      rw [if_neg (fun hk => by have := hnil.mp hk; simp at this), if_neg (fun h => hn (hnone.mp h)),
        if_neg (fun h => by obtain ⟨v, hv, hvu⟩ := hun.mp h; exact hu v hv hvu), if_pos]
      rw [ne_eq, dedup_eq_iff]
      exact not_pairwise_of_split (by simp [hr])

/-- Loading fails with what the first refused item says. -/
theorem loadAll_error {cr : Crypto} {e : Exc} : ∀ {l : List Val}, loadAll cr l = .error e ↔
    ∃ pre v post, l = pre ++ v :: post ∧ (∀ u ∈ pre, ∃ k, Jwk.init cr u = .ok k) ∧ Jwk.init cr v = .error e
  | [] => by
    constructor
    · intro h; cases h
    · rintro ⟨pre, v, post, h, -, -⟩; simp at h
  | v :: l => by
    simp only [loadAll]
    constructor
    · intro h
      split at h
      · rename_i e' he
        cases h
        exact ⟨[], v, l, rfl, (by simp), he⟩
      · rename_i k hk
        split at h
        · rename_i e' he
          cases h
          obtain ⟨pre, w, post, rfl, hp, hw⟩ := loadAll_error.mp he
          refine ⟨v :: pre, w, post, rfl, ?_, hw⟩
          intro u hu
          rcases List.mem_cons.mp hu with rfl | hu
          · exact ⟨k, hk⟩
          · exact hp u hu
        · cases h
    · rintro ⟨pre, w, post, hl, hp, hw⟩
      cases pre with
      | nil =>
        cases hl
        rw [hw]
      | cons u pre =>
        rw [List.cons_append, List.cons.injEq] at hl
        obtain ⟨rfl, rfl⟩ := hl
        obtain ⟨k, hk⟩ := hp _ (List.mem_cons_self ..)
        rw [hk, loadAll_error.mpr ⟨pre, w, post, rfl, fun u hu => hp u (List.mem_cons_of_mem _ hu), hw⟩]

theorem loadsAll_map {cr : Crypto} : ∀ {l : List Val} {ks : List Jwk}, LoadsAll cr l ks ↔ l.map (Jwk.init cr) = ks.map Except.ok
  | [], ks => by
    constructor
    · intro h; cases h; rfl
    · intro h
      cases ks with
      | nil => exact .nil
      | cons k ks => cases h
  | v :: l, ks => by
    constructor
    · intro h
      cases h with
      | cons hk hks => simp only [List.map_cons, hk, loadsAll_map.mp hks]
    · intro h
      cases ks with
      | nil => cases h
      | cons k ks =>
        simp only [List.map_cons, List.cons.injEq] at h
        exact .cons h.1 (loadsAll_map.mpr h.2)

/-- C135, in part: exactly which error a value that is loaded as a key set is refused with. -/
theorem C135_load_partial (cr : Crypto) (v : Val) (e : Exc) : keySetLoad cr v = .error e ↔ KeySetRefused cr v e := by
  constructor
  · intro h
    unfold keySetLoad at h
    split at h
    · rename_i k w
      split at h
      · rename_i hk
        subst hk
        split at h
        · rename_i l
          split at h
          · rename_i e' he
            cases h
            obtain ⟨pre, u, post, rfl, hp, hu⟩ := loadAll_error.mp he
            exact .key hp hu
          · rename_i ks hl
            exact .ids (loadsAll_map.mp (loadAll_iff.mp hl)) ((C135_keys_partial ks e).mp h)
        · cases h; exact .noText
        · cases h; exact .noMembers
        · rename_i hs; cases h; exact .text hs
        · rename_i hs; cases h; exact .members hs
        · rename_i h1 _ _ h2 h3
          cases h
          exact .scalar (fun l hl => h1 l hl) (fun s hs => h2 s hs) (fun d hd => h3 d hd)
      · rename_i hk
        cases h
        refine .format ?_
        rintro u ⟨⟩
        exact hk rfl
    · rename_i hd
      cases h
      exact .format (fun w hw => hd _ _ hw)
  · intro h
    cases h with
    | format hf =>
      unfold keySetLoad
      split
      · rename_i k w
        rw [if_neg]
        rintro rfl
        exact hf w rfl
      · rfl
    | scalar h1 h2 h3 =>
      rename_i w
      cases w with
      | list l => exact absurd rfl (h1 l)
      | str s => exact absurd rfl (h2 s)
      | dict d => exact absurd rfl (h3 d)
      | _ => rfl
    | noText => rfl
    | noMembers => rfl
    | text hs =>
      rename_i s
      cases s with
      | nil => exact absurd rfl hs
      | cons => rfl
    | members hs =>
      rename_i s
      cases s with
      | nil => exact absurd rfl hs
      | cons => rfl
    | key hp hv =>
      simp only [keySetLoad, loadAll_error.mpr ⟨_, _, _, rfl, hp, hv⟩, if_true]
    | ids hl hi =>
      simp only [keySetLoad, loadAll_iff.mpr (loadsAll_map.mpr hl), if_true]
      exact (C135_keys_partial _ _).mpr hi

/-- C135, for ids that are texts as in RFC 7517: the one refusal is that of a key set, exactly for no keys at all, a key without id and
an id used twice. -/
theorem C135_texts_partial (keys : List Jwk) (ht : ∀ k ∈ keys, dget k.data (py! "kid") = .none ∨ ∃ s, dget k.data (py! "kid") = .str s) (e : Exc) :
    keySetInit keys = .error e ↔ e = .jose .invalidKeySet ∧
      (keys = [] ∨ (∃ k ∈ keys, dget k.data (py! "kid") = .none) ∨
        ∃ i j, ∃ (hi : i < keys.length) (hj : j < keys.length), i ≠ j ∧ dget keys[i].data (py! "kid") = dget keys[j].data (py! "kid")) := by
  constructor
  · intro h
    have hr := (C135_keys_partial keys _).mp h
    generalize hids : keys.map (fun k => dget k.data (py! "kid")) = ids at hr
    have ht' : ∀ v ∈ ids, v = .none ∨ ∃ s, v = .str s := by
      rw [← hids]
      intro v hv
      obtain ⟨k, hk, rfl⟩ := List.mem_map.mp hv
      exact ht k hk
    cases hr with
    | empty => exact ⟨rfl, Or.inl (by simpa using hids)⟩
    | missing hm =>
      rw [← hids] at hm
      obtain ⟨k, hk, hn⟩ := List.mem_map.mp hm
      exact ⟨rfl, Or.inr (Or.inl ⟨k, hk, hn⟩)⟩
    | unhashable _ hv hu =>
      rcases ht' _ hv with rfl | ⟨s, rfl⟩ <;> rcases hu with ⟨_, h⟩ | ⟨_, h⟩ <;> cases h
    | repeated hn hu hr =>
      rename_i pre mid post a b
      refine ⟨rfl, Or.inr (Or.inr ?_)⟩
      have hab : a = b := by
        rcases ht' a (by simp) with rfl | ⟨s, rfl⟩
        · exact absurd (by simp) hn
        · rcases ht' b (by simp) with rfl | ⟨t, rfl⟩
          · exact absurd (by simp) hn
          · rw [pyEq_str.mp hr]
      have hlen : keys.length = (pre ++ a :: mid ++ b :: post).length := by rw [← hids, List.length_map]
      simp only [List.length_append, List.length_cons] at hlen
      have hg : ∀ n (hn : n < keys.length), dget keys[n].data (py! "kid") = (pre ++ a :: mid ++ b :: post)[n]'(by simp; omega) := by
        intro n hn
        simp only [← hids, List.getElem_map]
      refine ⟨pre.length, pre.length + 1 + mid.length, by omega, by omega, by omega, ?_⟩
      rw [hg _ (by omega), hg _ (by omega), ← hab]
      rw [List.getElem_append_left (by simp), List.getElem_append_right (by simp)]
      rw [List.getElem_append_right (by simp; omega)]
      have h0 : pre.length + 1 + mid.length - (pre.length + (mid.length + 1)) = 0 := by omega
      simp [hab, h0]
  · rintro ⟨rfl, h⟩
    cases hk : keySetInit keys with
    | error e =>
      have hr := (C135_keys_partial keys e).mp hk
      generalize hids : keys.map (fun k => dget k.data (py! "kid")) = ids at hr
      cases hr with
      | unhashable _ hv hu =>
        rw [← hids] at hv
        obtain ⟨k, hkm, rfl⟩ := List.mem_map.mp hv
        rcases ht k hkm with h | ⟨s, h⟩ <;> rw [h] at hu <;> rcases hu with ⟨_, h⟩ | ⟨_, h⟩ <;> cases h
      | _ => rfl
    | ok ks =>
      obtain ⟨rfl, h1, h2, h3, h4⟩ := (C15_key_set _ _).mp hk
      rcases h with h | ⟨k, hkm, hn⟩ | ⟨i, j, hi, hj, hne, he⟩
      · exact absurd h h1
      · exact absurd hn (h2 k hkm)
      · rw [List.pairwise_iff_getElem] at h4
        have hp : ∀ m n (hm : m < ks.length) (hn : n < ks.length), m < n → dget ks[m].data (py! "kid") = dget ks[n].data (py! "kid") → False := by
          intro m n hm hn hlt heq
          have h5 := h4 m n hm hn hlt
          rcases ht ks[m] (List.getElem_mem hm) with h6 | ⟨s, h6⟩
          · exact h2 _ (List.getElem_mem hm) h6
          · unfold kidOf at h5
            rw [← heq, h6, pyEq_str.mpr rfl] at h5
            cases h5
        rcases Nat.lt_or_gt_of_ne hne with hlt | hlt
        · exact (hp i j hi hj hlt he).elim
        · exact (hp j i hj hi hlt he.symm).elim

/-- C135 is violated: an id that is a list is an error of Python, and so is a member `keys` that is a number; keys that are no list are
called an invalid key. -/
theorem C135_refuted (cr : Crypto) :
    (∀ l, keySetInit [⟨[(py! "kty", .str (py! "oct")), (py! "k", .str (py! "c2VjcmV0")), (py! "kid", .list l)], .oct (by! "secret")⟩] = .error .typeErr) ∧
    keySetLoad cr (.dict [(py! "keys", .int 1)]) = .error .typeErr ∧
    keySetLoad cr (.dict [(py! "keys", .dict [(py! "kty", .str (py! "oct"))])]) = .error (.jose .invalidKey) :=
  ⟨fun _ => rfl, rfl, rfl⟩

/-- Key sets that are refused exist. -/
example : keySetLoad toyCrypto (.dict [(py! "keys", .list [.dict [(py! "kty", .str (py! "oct")), (py! "k", .str (py! "QUJD"))]])]) =
    .error (.jose .invalidKeySet) := by
  refine (C135_load_partial _ _ _).mpr (.ids (ks := [⟨[(py! "kty", .str (py! "oct")), (py! "k", .str (py! "QUJD"))], .oct (by! "ABC")⟩]) ?_ ?_)
  · rfl
  · exact .missing (List.mem_cons_self ..)
example : keySetInit [kidKey 65, kidKey 66, kidKey 65] = .error (.jose .invalidKeySet) := by
  refine (C135_texts_partial _ ?_ _).mpr ⟨rfl, Or.inr (Or.inr ⟨0, 2, by decide, by decide, by decide, rfl⟩)⟩
  intro k hk
  simp only [List.mem_cons, List.not_mem_nil, or_false] at hk
  rcases hk with rfl | rfl | rfl <;> exact Or.inr ⟨_, rfl⟩

end Psion.Props
