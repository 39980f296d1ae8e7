import Verif.Py.Url
import Verif.Py.Utf8Lemmas
import Verif.Py.DictLemmas

/-! Helper lemmas about URL encoding. -/

namespace Psion

/-! ### split and join -/

section split
variable {α : Type} [DecidableEq α]

theorem splitOn_ne_nil (sep : α) (s : List α) : splitOn sep s ≠ [] := by
  induction s with
  | nil => simp [splitOn]
  | cons c s ih =>
    simp only [splitOn]
    split
    · simp
    · split <;> simp

theorem splitOn_not_mem {sep : α} {s : List α} (h : sep ∉ s) : splitOn sep s = [s] := by
  induction s with
  | nil => rfl
  | cons c s ih =>
    simp only [List.mem_cons, not_or] at h
    simp only [splitOn]
    rw [if_neg (fun hh => h.1 hh.symm), ih h.2]

theorem splitOn_append {sep : α} {p s : List α} (h : sep ∉ p) :
    splitOn sep (p ++ sep :: s) = p :: splitOn sep s := by
  induction p with
  | nil => simp [splitOn]
  | cons c p ih =>
    simp only [List.mem_cons, not_or] at h
    simp only [List.cons_append, splitOn]
    rw [if_neg (fun hh => h.1 hh.symm), ih h.2]

theorem splitOn_append_sep (sep : α) (p s : List α) :
    splitOn sep (p ++ sep :: s) = splitOn sep p ++ splitOn sep s := by
  induction p with
  | nil => simp [splitOn]
  | cons c p ih =>
    simp only [List.cons_append, splitOn]
    rw [ih]
    split
    · simp
    · have hne := splitOn_ne_nil sep p
      cases hp : splitOn sep p with
      | nil => exact absurd hp hne
      | cons q qs => simp

theorem splitOn_join {sep : α} (ps : List (List α)) (h : ∀ p ∈ ps, sep ∉ p) (hne : ps ≠ []) :
    splitOn sep (joinWith [sep] ps) = ps := by
  induction ps with
  | nil => exact absurd rfl hne
  | cons p ps ih =>
    cases ps with
    | nil => exact splitOn_not_mem (h p List.mem_cons_self)
    | cons q ps =>
      rw [joinWith, List.append_assoc, List.singleton_append,
        splitOn_append (h p List.mem_cons_self),
        ih (fun x hx => h x (List.mem_cons_of_mem _ hx)) (by simp)]

/-- Splitting and joining back is the identity. -/
theorem join_splitOn (sep : α) (s : List α) : joinWith [sep] (splitOn sep s) = s := by
  induction s with
  | nil => rfl
  | cons c s ih =>
    simp only [splitOn]
    split
    · subst_vars
      have hne := splitOn_ne_nil c s
      revert ih hne
      cases splitOn c s with
      | nil => intro _ h; exact absurd rfl h
      | cons p ps => intro ih _; rw [joinWith, ih]; rfl
    · have hne := splitOn_ne_nil sep s
      revert ih hne
      cases splitOn sep s with
      | nil => intro _ h; exact absurd rfl h
      | cons p ps =>
        intro ih _
        cases ps with
        | nil => simp only [joinWith] at ih ⊢; rw [ih]
        | cons q ps => simp only [joinWith, List.cons_append] at ih ⊢; rw [ih]

theorem splitOn_pieces (sep : α) (s : List α) : ∀ p ∈ splitOn sep s, sep ∉ p := by
  induction s with
  | nil => simp [splitOn]
  | cons c s ih =>
    simp only [splitOn]
    split
    · intro p hp
      rcases List.mem_cons.mp hp with rfl | hp
      · simp
      · exact ih p hp
    · rename_i hc
      revert ih
      cases splitOn sep s with
      | nil => intro _ p hp; simp at hp; subst hp; simpa using fun h => hc h.symm
      | cons q qs =>
        intro ih p hp
        rcases List.mem_cons.mp hp with rfl | hp
        · have := ih q List.mem_cons_self
          simp only [List.mem_cons, not_or]
          exact ⟨fun h => hc h.symm, this⟩
        · exact ih p (List.mem_cons_of_mem _ hp)

theorem splitOnce_append {sep : α} {p s : List α} (h : sep ∉ p) :
    splitOnce sep (p ++ sep :: s) = some (p, s) := by
  induction p with
  | nil => simp [splitOnce]
  | cons c p ih =>
    simp only [List.mem_cons, not_or] at h
    simp only [List.cons_append, splitOnce]
    rw [if_neg (fun hh => h.1 hh.symm), ih h.2]; rfl

theorem splitOnce_none {sep : α} {s : List α} : splitOnce sep s = none ↔ sep ∉ s := by
  induction s with
  | nil => simp [splitOnce]
  | cons c s ih =>
    simp only [splitOnce]
    split
    · subst_vars; simp
    · rename_i hc
      simp only [Option.map_eq_none_iff, ih, List.mem_cons, not_or]
      exact ⟨fun h => ⟨fun hh => hc hh.symm, h⟩, fun h => h.2⟩

theorem splitOnce_some {sep : α} {s p q : List α} (h : splitOnce sep s = some (p, q)) :
    s = p ++ sep :: q ∧ sep ∉ p := by
  induction s generalizing p with
  | nil => simp [splitOnce] at h
  | cons c s ih =>
    simp only [splitOnce] at h
    split at h
    · simp at h; obtain ⟨rfl, rfl⟩ := h; simp [*]
    · rename_i hc
      simp only [Option.map_eq_some_iff] at h
      obtain ⟨⟨a, b⟩, hab, heq⟩ := h
      simp only [Prod.mk.injEq] at heq
      obtain ⟨rfl, rfl⟩ := heq
      obtain ⟨rfl, hn⟩ := ih hab
      refine ⟨rfl, ?_⟩
      simp only [List.mem_cons, not_or]
      exact ⟨fun h => hc h.symm, hn⟩

end split

/-! ### percent encoding -/

theorem unquoteBytes_nil : unquoteBytes [] = [] := by rw [unquoteBytes.eq_def]

theorem unquoteBytes_plain {c : Nat} (h : c ≠ 37) (s : PyStr) :
    unquoteBytes (c :: s) = byte c :: unquoteBytes s := by
  rw [unquoteBytes.eq_def]; simp [h]

theorem unquoteBytes_hex {a b x y : Nat} (ha : hexVal a = some x) (hb : hexVal b = some y)
    (s : PyStr) : unquoteBytes (37 :: a :: b :: s) = byte (x * 16 + y) :: unquoteBytes s := by
  rw [unquoteBytes.eq_def]; simp [ha, hb]

theorem hexVal_hexUp {n : Nat} (h : n < 16) : hexVal (hexUp n) = some n := by
  unfold hexVal hexUp
  split
  · rw [if_pos (by omega)]; simp
  · rw [if_neg (by omega), if_pos (by omega)]; simp

/-- `replace("+", " ")` on one character. -/
def unplus (c : Nat) : Nat := if c = 43 then 32 else c

theorem alwaysSafe_iff (n : Nat) : alwaysSafe n = true ↔
    (65 ≤ n ∧ n ≤ 90) ∨ (97 ≤ n ∧ n ≤ 122) ∨ (48 ≤ n ∧ n ≤ 57) ∨ n = 95 ∨ n = 46 ∨ n = 45 ∨
      n = 126 := by
  simp [alwaysSafe, or_assoc]

theorem hexUp_val {n : Nat} (h : n < 16) :
    (48 ≤ hexUp n ∧ hexUp n ≤ 57) ∨ (65 ≤ hexUp n ∧ hexUp n ≤ 70) := by
  unfold hexUp; split <;> omega

theorem unquoteBytes_quoteByte (b : Byte) (rest : PyStr) :
    unquoteBytes ((quoteByte noSafe b).map unplus ++ rest) = b :: unquoteBytes rest := by
  have hb := b.isLt
  unfold quoteByte
  split
  · simp only [List.map, unplus, List.cons_append, List.nil_append, if_true]
    rw [unquoteBytes_plain (by decide)]
    congr 1; apply Fin.ext; simp_all
  split
  · rename_i h1 h2
    simp only [noSafe, Bool.or_false, alwaysSafe_iff] at h2
    simp only [List.map, unplus, List.cons_append, List.nil_append]
    rw [if_neg (by omega), unquoteBytes_plain (by omega), byte_of_val]
  · have h1 := hexUp_val (n := b.val / 16) (by omega)
    have h2 := hexUp_val (n := b.val % 16) (by omega)
    simp only [List.map, unplus, List.cons_append, List.nil_append]
    rw [if_neg (by omega), if_neg (by omega), if_neg (by omega),
      unquoteBytes_hex (hexVal_hexUp (by omega)) (hexVal_hexUp (by omega))]
    congr 1
    exact byte_eq (by omega)

theorem unquoteBytes_quote (b : Bytes) :
    unquoteBytes ((b.flatMap (quoteByte noSafe)).map unplus) = b := by
  induction b with
  | nil => simp [unquoteBytes_nil]
  | cons x b ih =>
    rw [List.flatMap_cons, List.map_append, unquoteBytes_quoteByte, ih]

theorem unquoteLoop_ascii (s : PyStr) (h : ∀ c ∈ s, c < 128) (run : PyStr) :
    unquoteLoop run s = utf8DecodeReplace (unquoteBytes (run ++ s)) := by
  induction s generalizing run with
  | nil => simp [unquoteLoop]
  | cons c s ih =>
    simp only [unquoteLoop]
    rw [if_pos (h c List.mem_cons_self), ih (fun x hx => h x (List.mem_cons_of_mem _ hx))]
    simp

/-- Characters produced by `quote_plus` without additional safe characters. -/
theorem quoteByte_mem {b : Byte} {c : Nat} (h : c ∈ quoteByte noSafe b) :
    c = 43 ∨ c = 37 ∨ alwaysSafe c = true := by
  have hb := b.isLt
  unfold quoteByte at h
  split at h
  · simp at h; exact Or.inl h
  split at h
  · rename_i h2
    simp only [List.mem_singleton] at h
    subst h
    simp only [noSafe, Bool.or_false] at h2
    exact Or.inr (Or.inr h2)
  · simp only [List.mem_cons, List.not_mem_nil, or_false] at h
    rcases h with rfl | rfl | rfl
    · exact Or.inr (Or.inl rfl)
    · right; right; rw [alwaysSafe_iff]
      have := hexUp_val (n := b.val / 16) (by omega); omega
    · right; right; rw [alwaysSafe_iff]
      have := hexUp_val (n := b.val % 16) (by omega); omega

theorem quotePlus_mem {s q : PyStr} (h : quotePlus noSafe s = .ok q) :
    ∀ c ∈ q, c = 43 ∨ c = 37 ∨ alwaysSafe c = true := by
  unfold quotePlus at h
  split at h
  · cases h
  · cases h
    intro c hc
    rw [List.mem_flatMap] at hc
    obtain ⟨b, _, hc⟩ := hc
    exact quoteByte_mem hc

theorem quotePlus_ascii {s q : PyStr} (h : quotePlus noSafe s = .ok q) : ∀ c ∈ q, c < 128 := by
  intro c hc
  rcases quotePlus_mem h c hc with h | h | h
  · omega
  · omega
  · rw [alwaysSafe_iff] at h; omega

theorem unquotePlus_quotePlus {s q : PyStr} (h : quotePlus noSafe s = .ok q) :
    unquotePlus q = s := by
  have hq := quotePlus_ascii h
  unfold unquotePlus unquote
  rw [unquoteLoop_ascii]
  · unfold quotePlus at h
    split at h
    · cases h
    · cases h
      rename_i b hb
      have := unquoteBytes_quote b
      unfold unplus at this
      rw [List.nil_append, this, utf8DecodeReplace_encode hb]
  · intro c hc
    simp only [List.mem_map] at hc
    obtain ⟨a, ha, rfl⟩ := hc
    have := hq a ha
    split <;> omega

theorem quotePlus_nil_iff {s q : PyStr} (h : quotePlus noSafe s = .ok q) : q = [] ↔ s = [] := by
  constructor
  · intro hq; subst hq
    have := unquotePlus_quotePlus h
    rw [← this]
    simp [unquotePlus, unquote, unquoteLoop, unquoteBytes_nil, utf8DecodeReplace, utf8Segs_nil]
  · intro hs; subst hs
    simp [quotePlus, utf8Encode] at h; exact h

theorem quotePlus_ok (safe : Nat → Bool) {s : PyStr} (h : Encodable s) :
    ∃ q, quotePlus safe s = .ok q := by
  obtain ⟨b, hb⟩ := utf8Encode_ok h
  exact ⟨b.flatMap (quoteByte safe), by simp [quotePlus, hb]⟩

theorem quotePlus_encodable {safe : Nat → Bool} {s q : PyStr} (h : quotePlus safe s = .ok q) :
    Encodable s := by
  unfold quotePlus at h
  split at h
  · cases h
  · rename_i hb; exact utf8Encode_encodable hb

/-! ### query strings -/

theorem parsePair_quoted {k v k' v' : PyStr} (hk : quotePlus noSafe k = .ok k')
    (hv : quotePlus noSafe v = .ok v') :
    parsePair (k' ++ 61 :: v') = if v = [] then none else some (k, v) := by
  have h61 : (61 : Nat) ∉ k' := by
    intro h
    rcases quotePlus_mem hk 61 h with h | h | h
    · omega
    · omega
    · rw [alwaysSafe_iff] at h; omega
  unfold parsePair
  rw [splitOnce_append h61]
  simp only [quotePlus_nil_iff hv, unquotePlus_quotePlus hk, unquotePlus_quotePlus hv]

/-- Entries with a non-empty value. -/
def nonEmpty (d : Dict PyStr PyStr) : Dict PyStr PyStr := d.filter (fun kv => !kv.2.isEmpty)

theorem quoted_no_amp {k v k' v' : PyStr} (hk : quotePlus noSafe k = .ok k')
    (hv : quotePlus noSafe v = .ok v') : (38 : Nat) ∉ k' ++ 61 :: v' := by
  simp only [List.mem_append, List.mem_cons, not_or]
  refine ⟨?_, by decide, ?_⟩
  · intro h
    rcases quotePlus_mem hk 38 h with h | h | h
    · omega
    · omega
    · rw [alwaysSafe_iff] at h; omega
  · intro h
    rcases quotePlus_mem hv 38 h with h | h | h
    · omega
    · omega
    · rw [alwaysSafe_iff] at h; omega

theorem urlencodePairs_spec {d : Dict PyStr PyStr} {ps : List PyStr}
    (h : urlencodePairs d = .ok ps) :
    ps.filterMap parsePair = nonEmpty d ∧ (∀ p ∈ ps, (38 : Nat) ∉ p) ∧ ps.length = d.length ∧
      (∀ p ∈ ps, ∀ c ∈ p, c = 61 ∨ c = 43 ∨ c = 37 ∨ alwaysSafe c = true) := by
  induction d generalizing ps with
  | nil => cases h; simp [nonEmpty]
  | cons p d ih =>
    obtain ⟨k, v⟩ := p
    simp only [urlencodePairs] at h
    split at h
    · cases h
    split at h
    · cases h
    split at h
    · cases h
    · cases h
      rename_i _ k' hk _ v' hv _ r hr
      obtain ⟨h1, h2, h3, h4⟩ := ih hr
      refine ⟨?_, ?_, ?_, ?_⟩
      · simp only [List.filterMap_cons, parsePair_quoted hk hv, nonEmpty, List.filter_cons]
        rw [h1]
        cases v <;> simp [nonEmpty]
      · intro p hp
        rcases List.mem_cons.mp hp with rfl | hp
        · exact quoted_no_amp hk hv
        · exact h2 p hp
      · simp [h3]
      · intro p hp c hc
        rcases List.mem_cons.mp hp with rfl | hp
        · rcases List.mem_append.mp hc with hc | hc
          · exact Or.inr (quotePlus_mem hk c hc)
          · rcases List.mem_cons.mp hc with rfl | hc
            · exact Or.inl rfl
            · exact Or.inr (quotePlus_mem hv c hc)
        · exact h4 p hp c hc

theorem parseQsl_join {d : Dict PyStr PyStr} {ps : List PyStr} (h : urlencodePairs d = .ok ps) :
    parseQsl (joinWith [38] ps) = nonEmpty d := by
  obtain ⟨h1, h2, h3, -⟩ := urlencodePairs_spec h
  unfold parseQsl
  cases ps with
  | nil =>
    have : d = [] := List.length_eq_zero_iff.mp (by simpa using h3.symm)
    subst this
    simp [joinWith, splitOn, parsePair, splitOnce, nonEmpty]
  | cons p ps => rw [splitOn_join _ h2 (by simp), h1]

theorem joinWith_mem {α : Type} {sep : List α} {ps : List (List α)} {c : α}
    (h : c ∈ joinWith sep ps) : c ∈ sep ∨ ∃ p ∈ ps, c ∈ p := by
  induction ps using joinWith.induct with
  | case1 => simp [joinWith] at h
  | case2 p => exact Or.inr ⟨p, by simp, h⟩
  | case3 p q ps ih =>
    simp only [joinWith, List.mem_append] at h
    rcases h with (h | h) | h
    · exact Or.inr ⟨p, by simp, h⟩
    · exact Or.inl h
    · rcases ih h with h | ⟨x, hx, h⟩
      · exact Or.inl h
      · exact Or.inr ⟨x, List.mem_cons_of_mem _ hx, h⟩

/-- Characters of an encoded query. -/
theorem query_chars {d : Dict PyStr PyStr} {ps : List PyStr} (h : urlencodePairs d = .ok ps) :
    ∀ c ∈ joinWith [38] ps, c = 38 ∨ c = 61 ∨ c = 43 ∨ c = 37 ∨ alwaysSafe c = true := by
  intro c hc
  rcases joinWith_mem hc with h' | ⟨p, hp, hc⟩
  · simp at h'; exact Or.inl h'
  · exact Or.inr ((urlencodePairs_spec h).2.2.2 p hp c hc)

theorem someEntries_keys_sublist (d : NDict PyStr PyStr) :
    List.Sublist (Dict.keys (someEntries d)) (Dict.keys d) := by
  induction d with
  | nil => exact List.Sublist.refl _
  | cons p d ih =>
    obtain ⟨k, v⟩ := p
    cases v with
    | none =>
      simp only [someEntries, List.filterMap_cons, Option.map_none, Dict.keys, List.map_cons] at ih ⊢
      exact List.Sublist.cons _ ih
    | some v =>
      simp only [someEntries, List.filterMap_cons, Option.map_some, Dict.keys, List.map_cons] at ih ⊢
      exact List.Sublist.cons_cons _ ih

theorem ok_someEntries {d : NDict PyStr PyStr} (h : Dict.Ok d) : Dict.Ok (someEntries d) :=
  List.Nodup.sublist (someEntries_keys_sublist d) h

theorem someEntries_dropNone (d : NDict PyStr PyStr) : someEntries (dropNone d) = someEntries d := by
  induction d with
  | nil => rfl
  | cons p d ih =>
    obtain ⟨k, v⟩ := p
    unfold someEntries dropNone at *
    cases v with
    | none => simpa using ih
    | some v => simp [ih]

theorem someEntries_init (d : NDict PyStr PyStr) : someEntries (FullDict.init d []) = someEntries d := by
  rw [FullDict.init, Dict.update_nil, someEntries_dropNone]

theorem urlencodePairs_ok {d : Dict PyStr PyStr} (h : ∀ kv ∈ d, Encodable kv.1 ∧ Encodable kv.2) :
    ∃ ps, urlencodePairs d = .ok ps := by
  induction d with
  | nil => exact ⟨[], rfl⟩
  | cons p d ih =>
    obtain ⟨k, v⟩ := p
    obtain ⟨hk, hv⟩ := h (k, v) List.mem_cons_self
    obtain ⟨k', hk'⟩ := quotePlus_ok noSafe hk
    obtain ⟨v', hv'⟩ := quotePlus_ok noSafe hv
    obtain ⟨r, hr⟩ := ih (fun x hx => h x (List.mem_cons_of_mem _ hx))
    exact ⟨(k' ++ 61 :: v') :: r, by simp [urlencodePairs, hk', hv', hr]⟩

theorem urlencodePairs_encodable {d : Dict PyStr PyStr} {ps} (h : urlencodePairs d = .ok ps) :
    ∀ kv ∈ d, Encodable kv.1 ∧ Encodable kv.2 := by
  induction d generalizing ps with
  | nil => simp
  | cons p d ih =>
    obtain ⟨k, v⟩ := p
    simp only [urlencodePairs] at h
    split at h
    · cases h
    split at h
    · cases h
    split at h
    · cases h
    · rename_i _ k' hk _ v' hv _ r hr
      intro kv hkv
      rcases List.mem_cons.mp hkv with rfl | hkv
      · exact ⟨quotePlus_encodable hk, quotePlus_encodable hv⟩
      · exact ih hr kv hkv

/-- `quote_plus` is the identity on texts of safe characters. -/
theorem quotePlus_safe {safe : Nat → Bool} {s : PyStr}
    (h : ∀ c ∈ s, c < 128 ∧ c ≠ 32 ∧ (alwaysSafe c || safe c) = true) :
    quotePlus safe s = .ok s := by
  unfold quotePlus
  rw [utf8Encode_ascii (fun c hc => (h c hc).1)]
  simp only [Except.ok.injEq]
  induction s with
  | nil => rfl
  | cons c s ih =>
    obtain ⟨h1, h2, h3⟩ := h c List.mem_cons_self
    rw [List.map_cons, List.flatMap_cons, ih (fun x hx => h x (List.mem_cons_of_mem _ hx))]
    unfold quoteByte
    rw [byte_of_lt (by omega), if_neg h2, if_pos h3]; rfl

theorem quotePlus_append {safe : Nat → Bool} {s t a b : PyStr} (h : quotePlus safe s = .ok a)
    (h' : quotePlus safe t = .ok b) : quotePlus safe (s ++ t) = .ok (a ++ b) := by
  unfold quotePlus at *
  split at h
  · cases h
  split at h'
  · cases h'
  · rename_i hb _ _ hd
    cases h; cases h'
    rw [utf8Encode_append hb hd]
    simp

theorem locSafe_iff (n : Nat) : locSafe n = true ↔ n ∈ py! ":/%#?&=@[]!$&'()*+,;" := by
  simp [locSafe]

end Psion
