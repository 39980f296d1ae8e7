import Verif.Py.Dict

/-! Helper lemmas about dictionaries. -/

namespace Psion.Dict

variable {κ α : Type} [DecidableEq κ]

@[simp] theorem get_nil (k : κ) : get ([] : Dict κ α) k = none := rfl

theorem get_cons (k' : κ) (v : α) (d : Dict κ α) (k : κ) :
    get ((k', v) :: d) k = if k' = k then some v else get d k := rfl

@[simp] theorem get_set_same (d : Dict κ α) (k : κ) (v : α) : get (set d k v) k = some v := by
  induction d with
  | nil => simp [set, get]
  | cons p d ih =>
    obtain ⟨k', v'⟩ := p
    simp only [set]
    split
    · simp_all [get]
    · simp_all [get]

theorem get_set_ne (d : Dict κ α) {k k' : κ} (v : α) (h : k ≠ k') :
    get (set d k v) k' = get d k' := by
  induction d with
  | nil => simp [set, get, h]
  | cons p d ih =>
    obtain ⟨k2, v2⟩ := p
    simp only [set]
    split
    · subst_vars; simp [get, h]
    · simp only [get, ih]

theorem get_set (d : Dict κ α) (k k' : κ) (v : α) :
    get (set d k v) k' = if k = k' then some v else get d k' := by
  split
  · subst_vars; exact get_set_same ..
  · exact get_set_ne _ _ (by assumption)

theorem mem_of_get {d : Dict κ α} {k : κ} {v : α} (h : get d k = some v) : (k, v) ∈ d := by
  induction d with
  | nil => simp at h
  | cons p d ih =>
    obtain ⟨k', v'⟩ := p
    simp only [get] at h
    split at h
    · simp_all
    · exact List.mem_cons_of_mem _ (ih h)

theorem get_isSome_iff {d : Dict κ α} {k : κ} : (get d k).isSome ↔ k ∈ keys d := by
  induction d with
  | nil => simp [keys]
  | cons p d ih =>
    obtain ⟨k', v'⟩ := p
    simp only [get, keys, List.map_cons, List.mem_cons]
    split
    · simp_all
    · rw [ih]; simp [keys]; intro h; simp_all

theorem get_eq_none_iff {d : Dict κ α} {k : κ} : get d k = none ↔ k ∉ keys d := by
  rw [← get_isSome_iff]; simp

theorem get_of_mem {d : Dict κ α} (hd : Ok d) {k : κ} {v : α} (h : (k, v) ∈ d) :
    get d k = some v := by
  induction d with
  | nil => cases h
  | cons p d ih =>
    obtain ⟨k', v'⟩ := p
    simp only [Ok, keys, List.map_cons, List.nodup_cons] at hd
    rcases List.mem_cons.mp h with h | h
    · cases h; simp [get]
    · simp only [get]
      split
      · subst_vars
        exact absurd (List.mem_map_of_mem (f := Prod.fst) h) hd.1
      · exact ih hd.2 h

theorem set_of_not_mem {d : Dict κ α} {k : κ} {v : α} (h : k ∉ keys d) : set d k v = d ++ [(k, v)] := by
  induction d with
  | nil => rfl
  | cons p d ih =>
    obtain ⟨k', v'⟩ := p
    simp only [keys, List.map_cons, List.mem_cons, not_or] at h
    simp only [set]
    rw [if_neg (fun hh => h.1 hh.symm), ih h.2]; rfl

theorem keys_set (d : Dict κ α) (k : κ) (v : α) :
    keys (set d k v) = if k ∈ keys d then keys d else keys d ++ [k] := by
  induction d with
  | nil => simp [set, keys]
  | cons p d ih =>
    obtain ⟨k', v'⟩ := p
    simp only [set]
    split
    · subst_vars; simp [keys]
    · rename_i h
      simp only [keys, List.map_cons, List.mem_cons] at ih ⊢
      rw [ih]
      have : k ≠ k' := fun hh => h hh.symm
      simp only [this, false_or]
      split <;> simp [*]

theorem ok_set {d : Dict κ α} (h : Ok d) (k : κ) (v : α) : Ok (set d k v) := by
  unfold Ok at *
  rw [keys_set]
  split
  · exact h
  · rename_i hk
    rw [List.nodup_append]
    refine ⟨h, by simp, ?_⟩
    intro a ha b hb
    simp at hb; subst hb
    intro hab; subst hab; exact hk ha

theorem ok_update {d : Dict κ α} (h : Ok d) (e : Dict κ α) : Ok (update d e) := by
  unfold update
  induction e generalizing d with
  | nil => exact h
  | cons p e ih => exact ih (ok_set h _ _)

theorem ok_ofPairs (l : List (κ × α)) : Ok (ofPairs l) := ok_update (by simp [Ok, keys]) l

@[simp] theorem update_nil (d : Dict κ α) : update d [] = d := rfl

theorem update_cons (d : Dict κ α) (p : κ × α) (e : Dict κ α) :
    update d (p :: e) = update (set d p.1 p.2) e := rfl

theorem update_append (d e f : Dict κ α) : update d (e ++ f) = update (update d e) f := by
  unfold update; rw [List.foldl_append]

theorem get_update_ok {e : Dict κ α} (he : Ok e) (d : Dict κ α) (k : κ) :
    get (update d e) k = (get e k).or (get d k) := by
  induction e generalizing d with
  | nil => simp
  | cons p e ih =>
    obtain ⟨k', v'⟩ := p
    have he' : Ok e := by
      simp only [Ok, keys, List.map_cons, List.nodup_cons] at he ⊢; exact he.2
    have hk' : k' ∉ keys e := by
      simp only [Ok, keys, List.map_cons, List.nodup_cons] at he ⊢; exact he.1
    rw [update_cons, ih he', get_set, get_cons]
    by_cases h : k' = k
    · subst h
      rw [get_eq_none_iff.mpr hk']; simp
    · simp [h]

theorem update_of_disjoint {d e : Dict κ α} (he : Ok e) (h : ∀ k ∈ keys e, k ∉ keys d) :
    update d e = d ++ e := by
  induction e generalizing d with
  | nil => simp
  | cons p e ih =>
    obtain ⟨k', v'⟩ := p
    simp only [Ok, keys, List.map_cons, List.nodup_cons] at he
    have hk' := h k' (by simp [keys])
    rw [update_cons, set_of_not_mem hk', ih he.2]
    · simp
    · intro k hk hmem
      simp only [keys, List.map_append, List.mem_append, List.map_cons, List.map_nil,
        List.mem_singleton] at hmem
      rcases hmem with hmem | rfl
      · exact h k (by simp only [keys, List.map_cons]; exact List.mem_cons_of_mem _ hk) hmem
      · exact he.1 hk

theorem ofPairs_ok {l : Dict κ α} (h : Ok l) : ofPairs l = l := by
  unfold ofPairs
  rw [update_of_disjoint h (by simp [keys])]; rfl

omit [DecidableEq κ] in
theorem ok_filter {d : Dict κ α} (h : Ok d) (p : κ × α → Bool) : Ok (d.filter p) := by
  unfold Ok keys at *
  exact List.Nodup.sublist (List.Sublist.map _ List.filter_sublist) h

theorem keys_update_subset {d e : Dict κ α} {k : κ} (h : k ∈ keys (update d e)) :
    k ∈ keys d ∨ k ∈ keys e := by
  induction e generalizing d with
  | nil => exact Or.inl h
  | cons p e ih =>
    rcases ih (d := set d p.1 p.2) h with h | h
    · rw [keys_set] at h
      split at h
      · exact Or.inl h
      · rcases List.mem_append.mp h with h | h
        · exact Or.inl h
        · simp at h; subst h; exact Or.inr (by simp [keys])
    · right; simp only [keys, List.map_cons]; exact List.mem_cons_of_mem _ h

theorem mem_set {d : Dict κ α} {k : κ} {v : α} {p : κ × α} (h : p ∈ set d k v) :
    p ∈ d ∨ p = (k, v) := by
  induction d with
  | nil => simp [set] at h; exact Or.inr h
  | cons q d ih =>
    obtain ⟨k', v'⟩ := q
    simp only [set] at h
    split at h
    · rcases List.mem_cons.mp h with h | h
      · subst_vars; exact Or.inr rfl
      · exact Or.inl (List.mem_cons_of_mem _ h)
    · rcases List.mem_cons.mp h with h | h
      · subst h; exact Or.inl List.mem_cons_self
      · rcases ih h with h | h
        · exact Or.inl (List.mem_cons_of_mem _ h)
        · exact Or.inr h

theorem mem_update {d e : Dict κ α} {p : κ × α} (h : p ∈ update d e) : p ∈ d ∨ p ∈ e := by
  induction e generalizing d with
  | nil => exact Or.inl h
  | cons q e ih =>
    rcases ih (d := set d q.1 q.2) h with h | h
    · rcases mem_set h with h | h
      · exact Or.inl h
      · subst h; exact Or.inr List.mem_cons_self
    · exact Or.inr (List.mem_cons_of_mem _ h)

theorem get_filter {d : Dict κ α} (hd : Ok d) (p : κ × α → Bool) (k : κ) :
    get (d.filter p) k = (get d k).filter (fun v => p (k, v)) := by
  induction d with
  | nil => rfl
  | cons q d ih =>
    obtain ⟨k', v'⟩ := q
    simp only [Ok, keys, List.map_cons, List.nodup_cons] at hd
    have ih := ih hd.2
    by_cases hk : k' = k
    · subst hk
      have hn : get d k' = none := get_eq_none_iff.mpr hd.1
      simp only [get_cons, if_true]
      by_cases hp : p (k', v') = true
      · simp [hp, get_cons, Option.filter]
      · simp [hp, ih, hn, Option.filter]
    · simp only [get_cons, if_neg hk]
      by_cases hp : p (k', v') = true
      · simp [hp, get_cons, hk, ih]
      · simp [hp, ih]

end Psion.Dict
