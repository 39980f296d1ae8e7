import Verif.Py.WebtoolsLemmas
import Verif.Spec.Headers

/-!
# Authorization headers: lemmas
-/

namespace Psion

open Spec

theorem getBasic_sound (headers : Dict PyStr PyStr) (id secret : PyStr)
    (h : getBasicAuthorization headers = .ok (some (id, secret))) :
    ∃ auth scheme token raw, authHeader headers = some auth ∧ splitNone1 auth = [scheme, token] ∧
      asciiLower scheme = py! "basic" ∧ b64decodeStr token = .ok raw ∧
      utf8Encode (id ++ py! ":" ++ secret) = .ok raw ∧ 58 ∉ id := by
  unfold getBasicAuthorization at h
  split at h
  · cases h
  rename_i auth hauth
  split at h
  · cases h
  split at h
  · rename_i scheme token hsplit
    split at h
    · cases h
    rename_i hscheme
    split at h
    · cases h
    · cases h
    · cases h
    · rename_i raw hraw
      refine ⟨auth, scheme, token, raw, hauth, hsplit, Decidable.not_not.mp hscheme, hraw, ?_⟩
      have hs := splitOnce_some (Except.ok.inj h)
      unfold toStringB at hs
      split at hs
      · rename_i s hdec
        obtain ⟨h1, h2⟩ := hs
        refine ⟨?_, h2⟩
        have := utf8Encode_decode hdec
        rw [h1] at this
        simpa using this
      · exfalso
        have h58 : 58 ∈ asciiStr (b64urlEncode raw) := by rw [hs.1]; simp
        simp only [asciiStr, List.mem_map] at h58
        obtain ⟨c, hc, hcv⟩ := h58
        have := b64urlEncode_alphabet raw c hc
        unfold IsB64uChar at this
        omega
  · cases h

theorem spells_iff {s name : PyStr} (h : ∀ c ∈ name, 97 ≤ c) : asciiLower s = name ↔ Spells s name := by
  induction s generalizing name with
  | nil =>
    constructor
    · intro e; cases e; exact .nil
    · intro e; cases e; rfl
  | cons c s ih =>
    constructor
    · intro e
      cases name with
      | nil => cases e
      | cons l name =>
        unfold asciiLower at e
        rw [List.map_cons, List.cons.injEq] at e
        refine .cons c l s name ?_ ((ih (fun x hx => h x (List.mem_cons_of_mem _ hx))).mp e.2)
        have e1 := e.1
        split at e1
        · rename_i hc; exact Or.inr ⟨hc.1, hc.2, e1.symm⟩
        · exact Or.inl e1
    · intro e
      cases e with
      | cons _ l _ name h1 h2 =>
        have := (ih (fun x hx => h x (List.mem_cons_of_mem _ hx))).mpr h2
        unfold asciiLower at this ⊢
        rw [List.map_cons, this, List.cons.injEq]
        refine ⟨?_, rfl⟩
        have hl := h l List.mem_cons_self
        rcases h1 with rfl | ⟨h1, h3, rfl⟩
        · rw [if_neg (by omega)]
        · rw [if_pos ⟨h1, h3⟩]

theorem dropWhile_blank {a s : PyStr} (h : Blank a) : (a ++ s).dropWhile isPySpace = s.dropWhile isPySpace := by
  induction a with
  | nil => rfl
  | cons c a ih =>
    rw [List.cons_append, List.dropWhile_cons, if_pos (h c List.mem_cons_self)]
    exact ih (fun x hx => h x (List.mem_cons_of_mem _ hx))

theorem take_drop_while (p : Nat → Bool) (s : PyStr) :
    s = s.takeWhile p ++ s.dropWhile p ∧ (∀ c ∈ s.takeWhile p, p c = true) ∧
      (s.dropWhile p = [] ∨ ∃ c r, s.dropWhile p = c :: r ∧ p c = false) := by
  induction s with
  | nil => simp
  | cons c s ih =>
    by_cases hc : p c = true
    · rw [List.takeWhile_cons, List.dropWhile_cons, if_pos hc, if_pos hc]
      refine ⟨congrArg (c :: ·) ih.1, ?_, ih.2.2⟩
      intro x hx
      rcases List.mem_cons.mp hx with rfl | hx
      · exact hc
      · exact ih.2.1 x hx
    · rw [List.takeWhile_cons, List.dropWhile_cons, if_neg hc, if_neg hc]
      exact ⟨rfl, by simp, Or.inr ⟨c, s, rfl, by simpa using hc⟩⟩

/-- What `split(None, 1)` returns. -/
theorem splitNone1_cases (auth : PyStr) :
    (∃ w t, splitNone1 auth = [w, t] ∧ Parts auth w t) ∨
      ((∀ w t, ¬ Parts auth w t) ∧ ∀ w t, splitNone1 auth ≠ [w, t]) := by
  obtain ⟨e1, b1, d1⟩ := take_drop_while isPySpace auth
  rcases d1 with d1 | ⟨c, r, d1, hc⟩
  · refine Or.inr ⟨?_, ?_⟩
    · rintro w t ⟨a, b, c, r, rfl, ha, hb, hb0, hw0, hw, rfl, hc⟩
      rw [List.append_assoc, List.append_assoc, dropWhile_blank ha] at d1
      obtain ⟨x, w', rfl⟩ := List.exists_cons_of_ne_nil hw0
      rw [List.cons_append, List.dropWhile_cons, if_neg (by simp [hw x])] at d1
      cases d1
    · intro w t
      unfold splitNone1
      rw [d1]
      simp
  · obtain ⟨e2, b2, d2⟩ := take_drop_while (fun c => !isPySpace c) (c :: r)
    obtain ⟨e3, b3, d3⟩ := take_drop_while isPySpace ((c :: r).dropWhile (fun c => !isPySpace c))
    have hw0 : (c :: r).takeWhile (fun c => !isPySpace c) ≠ [] := by
      rw [List.takeWhile_cons, if_pos (by simp [hc])]; simp
    rcases d3 with d3 | ⟨x, y, d3, hx⟩
    · have hs : ∀ w t, splitNone1 auth ≠ [w, t] := by
        intro w t
        unfold splitNone1
        rw [d1]
        simp [d3]
      refine Or.inr ⟨?_, hs⟩
      rintro w t ⟨a, b, x, y, rfl, ha, hb, hb0, hw0', hw, rfl, hx⟩
      have hd : (a ++ w ++ b ++ x :: y).dropWhile isPySpace = w ++ (b ++ x :: y) := by
        rw [List.append_assoc, List.append_assoc, dropWhile_blank ha]
        obtain ⟨z, w', rfl⟩ := List.exists_cons_of_ne_nil hw0'
        rw [List.cons_append, List.dropWhile_cons, if_neg (by simp [hw z])]
      rw [hd] at d1
      rw [← d1] at d3
      obtain ⟨z, b', rfl⟩ := List.exists_cons_of_ne_nil hb0
      have h2 := takeWhile_append_stop (p := fun c => !isPySpace c) (w := w) (c := z) (r := b' ++ x :: y)
        (fun c hc => by simp [hw c hc]) (by simp [hb z])
      rw [show w ++ (z :: b' ++ x :: y) = w ++ z :: (b' ++ x :: y) from rfl, h2.2,
        show z :: (b' ++ x :: y) = (z :: b') ++ (x :: y) from rfl, dropWhile_blank hb,
        List.dropWhile_cons, if_neg (by simp [hx])] at d3
      cases d3
    · refine Or.inl ⟨(c :: r).takeWhile (fun c => !isPySpace c), x :: y, ?_, ?_⟩
      · unfold splitNone1
        rw [d1]
        simp [d3]
      · refine ⟨auth.takeWhile isPySpace, ((c :: r).dropWhile (fun c => !isPySpace c)).takeWhile isPySpace, x, y, ?_, b1, b3,
          ?_, hw0, ?_, rfl, hx⟩
        · rw [List.append_assoc, ← d3, ← e3, List.append_assoc, ← e2, ← d1]
          exact e1
        · intro h0
          rcases d2 with d2 | ⟨z, s, d2, hz⟩
          · rw [d2] at d3; cases d3
          · rw [d2, List.takeWhile_cons, if_pos (by simpa using hz)] at h0
            cases h0
        · intro z hz
          simpa using b2 z hz

theorem splitNone1_iff (auth w t : PyStr) : splitNone1 auth = [w, t] ↔ Parts auth w t := by
  rcases splitNone1_cases auth with ⟨w', t', h1, h2⟩ | ⟨h1, h2⟩
  · rw [h1]
    constructor
    · intro e; cases e; exact h2
    · intro h
      obtain ⟨a, b, c, r, e, ha, hb, hb0, hw0, hw, rfl, hc⟩ := h
      · have hd : auth.dropWhile isPySpace = w ++ (b ++ c :: r) := by
          rw [e, List.append_assoc, List.append_assoc, dropWhile_blank ha]
          obtain ⟨z, w', rfl⟩ := List.exists_cons_of_ne_nil hw0
          rw [List.cons_append, List.dropWhile_cons, if_neg (by simp [hw z])]
        obtain ⟨z, b', rfl⟩ := List.exists_cons_of_ne_nil hb0
        have h2 := takeWhile_append_stop (p := fun c => !isPySpace c) (w := w) (c := z) (r := b' ++ c :: r)
          (fun c hc => by simp [hw c hc]) (by simp [hb z])
        rw [← h1]
        unfold splitNone1
        rw [hd]
        dsimp only
        rw [if_neg (by simp [hw0]), show w ++ (z :: b' ++ c :: r) = w ++ z :: (b' ++ c :: r) from rfl, h2.1, h2.2,
          show z :: (b' ++ c :: r) = (z :: b') ++ (c :: r) from rfl, dropWhile_blank hb,
          List.dropWhile_cons, if_neg (c := isPySpace c = true) (by rw [hc]; decide), if_neg (by simp)]
  · exact ⟨fun h => absurd h (h2 w t), fun h => absurd h (h1 w t)⟩

/-- There is at most one way to read a header. -/
theorem parts_unique {auth w t w' t' : PyStr} (h : Parts auth w t) (h' : Parts auth w' t') : w' = w ∧ t' = t := by
  have h1 := (splitNone1_iff _ _ _).mpr h
  rw [(splitNone1_iff _ _ _).mpr h'] at h1
  cases h1
  exact ⟨rfl, rfl⟩

/-- What `get_basic_authorization` does with a header of two words. -/
def basicOf (w t : PyStr) : Res (Option (PyStr × PyStr)) :=
  if asciiLower w ≠ py! "basic" then .ok none
  else
    match b64decodeStr t with
    | .error .binascii => .ok none
    | .error .typeErr => .ok none
    | .error e => .error e
    | .ok raw => .ok (splitOnce 58 (toStringB raw))

/-- The cases of both functions. -/
theorem header_cases (headers : Dict PyStr PyStr) :
    ((∀ auth, authHeader headers = some auth → 32 ∉ auth) ∧ getBasicAuthorization headers = .ok none ∧
      getBearerAuthorization headers = .ok none) ∨
    ∃ auth, authHeader headers = some auth ∧ 32 ∈ auth ∧
      (((∀ w t, ¬ Parts auth w t) ∧ getBasicAuthorization headers = .error .valueErr ∧
        getBearerAuthorization headers = .error .valueErr) ∨
      ∃ w t, Parts auth w t ∧ getBasicAuthorization headers = basicOf w t ∧
        getBearerAuthorization headers = if asciiLower w ≠ py! "bearer" then .ok none else .ok (some t)) := by
  unfold getBasicAuthorization getBearerAuthorization
  cases ha : authHeader headers with
  | none => exact Or.inl ⟨nofun, rfl, rfl⟩
  | some auth =>
    dsimp only
    by_cases h : 32 ∈ auth
    · refine Or.inr ⟨auth, rfl, h, ?_⟩
      have h0 : ¬ (auth = [] ∨ 32 ∉ auth) := by
        rintro (rfl | h')
        · cases h
        · exact h' h
      rw [if_neg h0, if_neg h0]
      rcases splitNone1_cases auth with ⟨w, t, hs, hp⟩ | ⟨hp, hs⟩
      · refine Or.inr ⟨w, t, hp, ?_⟩
        rw [hs]
        exact ⟨rfl, rfl⟩
      · refine Or.inl ⟨hp, ?_, ?_⟩
        · split
          · rename_i w t e; exact absurd e (hs w t)
          · rfl
        · split
          · rename_i w t e; exact absurd e (hs w t)
          · rfl
    · rw [if_pos (Or.inr h), if_pos (Or.inr h)]
      exact Or.inl ⟨fun _ e => by cases e; exact h, rfl, rfl⟩

theorem getBasic_iff (headers : Dict PyStr PyStr) (id secret : PyStr) :
    getBasicAuthorization headers = .ok (some (id, secret)) ↔
      ∃ auth scheme token raw, authHeader headers = some auth ∧ 32 ∈ auth ∧ Parts auth scheme token ∧
        Spells scheme (py! "basic") ∧ b64decodeStr token = .ok raw ∧ utf8Encode (id ++ py! ":" ++ secret) = .ok raw ∧
        58 ∉ id := by
  constructor
  · intro h
    obtain ⟨auth, w, t, raw, h1, h2, h3, h4, h5, h6⟩ := getBasic_sound headers id secret h
    refine ⟨auth, w, t, raw, h1, ?_, (splitNone1_iff _ _ _).mp h2, (spells_iff (by decide)).mp h3, h4, h5, h6⟩
    rcases header_cases headers with ⟨-, hn, -⟩ | ⟨auth', ha, h32, -⟩
    · rw [hn] at h; cases h
    · rw [h1] at ha; cases ha; exact h32
  · rintro ⟨auth, w, t, raw, h1, h32, hp, hw, h4, h5, h6⟩
    rcases header_cases headers with ⟨hn, -, -⟩ | ⟨auth', ha, -, ⟨hn, -⟩ | ⟨w', t', hp', hb, -⟩⟩
    · exact absurd h32 (hn auth h1)
    · rw [h1] at ha; cases ha; exact absurd hp (hn w t)
    · rw [h1] at ha
      cases ha
      obtain ⟨rfl, rfl⟩ := parts_unique hp' hp
      rw [hb]
      unfold basicOf
      rw [if_neg (by simp [(spells_iff (by decide)).mpr hw]), h4]
      dsimp only
      have : toStringB raw = id ++ py! ":" ++ secret := by
        unfold toStringB
        rw [utf8Decode_encode h5]
      rw [this, List.append_assoc]
      exact congrArg _ (splitOnce_append h6)

theorem getBasic_error_iff (headers : Dict PyStr PyStr) :
    ((∃ e, getBearerAuthorization headers = .error e) ↔
      ∃ auth, authHeader headers = some auth ∧ 32 ∈ auth ∧ ∀ w t, ¬ Parts auth w t) ∧
    ((∃ e, getBasicAuthorization headers = .error e) ↔
      ∃ auth, authHeader headers = some auth ∧ 32 ∈ auth ∧ ((∀ w t, ¬ Parts auth w t) ∨
        ∃ w t, Parts auth w t ∧ Spells w (py! "basic") ∧ ∃ c ∈ t, 128 ≤ c)) := by
  rcases header_cases headers with ⟨hn, h1, h2⟩ | ⟨auth, ha, h32, ⟨hn, h1, h2⟩ | ⟨w, t, hp, h1, h2⟩⟩
  · rw [h1, h2]
    refine ⟨⟨nofun, ?_⟩, ⟨nofun, ?_⟩⟩ <;> rintro ⟨a, h3, h4, -⟩ <;> exact absurd h4 (hn a h3)
  · rw [h1, h2]
    exact ⟨⟨fun _ => ⟨auth, ha, h32, hn⟩, fun _ => ⟨_, rfl⟩⟩, ⟨fun _ => ⟨auth, ha, h32, Or.inl hn⟩, fun _ => ⟨_, rfl⟩⟩⟩
  · rw [h1, h2]
    constructor
    · constructor
      · rintro ⟨e, he⟩; split at he <;> cases he
      · rintro ⟨a, h3, -, h4⟩
        rw [ha] at h3; cases h3
        exact absurd hp (h4 w t)
    · unfold basicOf b64decodeStr
      constructor
      · rintro ⟨e, he⟩
        refine ⟨auth, ha, h32, Or.inr ⟨w, t, hp, ?_⟩⟩
        split at he
        · cases he
        · rename_i hb
          refine ⟨(spells_iff (by decide)).mp (Decidable.not_not.mp hb), ?_⟩
          by_cases hall : t.all (· < 128) = true
          · rw [if_pos hall] at he
            cases hd : a2b (t.map byte) with
            | ok raw => rw [hd] at he; cases he
            | error e' =>
              rw [hd, a2bLoop_error hd] at he; cases he
          · rw [List.all_eq_true] at hall
            simpa using hall
      · rintro ⟨a, h3, -, h4⟩
        rw [ha] at h3; cases h3
        rcases h4 with h4 | ⟨w', t', hp', hs, c, hc, h5⟩
        · exact absurd hp (h4 w t)
        · obtain ⟨rfl, rfl⟩ := parts_unique hp hp'
          rw [if_neg (by simp [(spells_iff (by decide)).mpr hs]), if_neg]
          · exact ⟨_, rfl⟩
          · intro h
            rw [List.all_eq_true] at h
            have := h c hc
            simp at this
            omega

theorem getBearer_iff (headers : Dict PyStr PyStr) (token : PyStr) :
    getBearerAuthorization headers = .ok (some token) ↔
      ∃ auth scheme, authHeader headers = some auth ∧ 32 ∈ auth ∧ Parts auth scheme token ∧ Spells scheme (py! "bearer") := by
  unfold getBearerAuthorization
  cases ha : authHeader headers with
  | none => simp
  | some auth =>
    dsimp only
    by_cases h32 : auth = [] ∨ 32 ∉ auth
    · rw [if_pos h32]
      refine ⟨nofun, ?_⟩
      rintro ⟨a, w, e, h, -, -⟩
      cases e
      rcases h32 with rfl | h32
      · cases h
      · exact absurd h h32
    · rw [if_neg h32]
      have h32' : 32 ∈ auth := by
        by_cases h : 32 ∈ auth
        · exact h
        · exact absurd (Or.inr h) h32
      split
      · rename_i w t hs
        have hp := (splitNone1_iff auth w t).mp hs
        split
        · rename_i hne
          refine ⟨nofun, ?_⟩
          rintro ⟨a, w', e, -, hp', hw⟩
          cases e
          have := (splitNone1_iff _ _ _).mpr hp'
          rw [hs] at this
          cases this
          exact absurd ((spells_iff (by decide)).mpr hw) hne
        · rename_i he
          have he : asciiLower w = py! "bearer" := Decidable.not_not.mp he
          constructor
          · intro e
            cases e
            exact ⟨auth, w, rfl, h32', hp, (spells_iff (by decide)).mp he⟩
          · rintro ⟨a, w', e, -, hp', hw⟩
            cases e
            have := (splitNone1_iff _ _ _).mpr hp'
            rw [hs] at this
            cases this
            rfl
      · rename_i hne
        refine ⟨nofun, ?_⟩
        rintro ⟨a, w', e, -, hp', -⟩
        cases e
        exact absurd ((splitNone1_iff _ _ _).mpr hp') (hne _ _)

theorem authHeader_iff {headers : Dict PyStr PyStr} {auth : PyStr} : authHeader headers = some auth ↔ Sent headers auth := by
  unfold authHeader Sent
  match Dict.get headers (py! "authorization") with
  | none => simp
  | some [] => simp
  | some (c :: s) =>
    simp only [Option.some.injEq]
    constructor
    · rintro rfl; exact Or.inl ⟨rfl, by simp⟩
    · rintro (⟨h, -⟩ | ⟨h, -⟩)
      · exact h
      · exact absurd (h _ rfl) (by simp)

theorem credentials_iff {headers : Dict PyStr PyStr} {id secret : PyStr} :
    getBasicAuthorization headers = .ok (some (id, secret)) ↔ Credentials headers id secret := by
  rw [getBasic_iff]
  constructor
  · rintro ⟨auth, w, t, raw, h1, h2, h3, h4, h5, h6, h7⟩
    exact ⟨t, raw, ⟨auth, w, authHeader_iff.mp h1, h2, h3, h4⟩, h5, h6, h7⟩
  · rintro ⟨t, raw, ⟨auth, w, h1, h2, h3, h4⟩, h5, h6, h7⟩
    exact ⟨auth, w, t, raw, authHeader_iff.mpr h1, h2, h3, h4, h5, h6, h7⟩

theorem notTwoWords_iff {headers : Dict PyStr PyStr} :
    (∃ e, getBearerAuthorization headers = .error e) ↔ NotTwoWords headers := by
  rw [(getBasic_error_iff headers).1]
  simp only [authHeader_iff]
  exact Iff.rfl

theorem malformedBasic_iff {headers : Dict PyStr PyStr} :
    (∃ e, getBasicAuthorization headers = .error e) ↔ MalformedBasic headers := by
  rw [(getBasic_error_iff headers).2]
  simp only [authHeader_iff]
  constructor
  · rintro ⟨auth, h1, h2, h | ⟨w, t, h3, h4, h5⟩⟩
    · exact Or.inl ⟨auth, h1, h2, h⟩
    · exact Or.inr ⟨t, ⟨auth, w, h1, h2, h3, h4⟩, h5⟩
  · rintro (⟨auth, h1, h2, h⟩ | ⟨t, ⟨auth, w, h1, h2, h3, h4⟩, h5⟩)
    · exact ⟨auth, h1, h2, Or.inl h⟩
    · exact ⟨auth, h1, h2, Or.inr ⟨w, t, h3, h4, h5⟩⟩

theorem getBasic_none_iff {headers : Dict PyStr PyStr} :
    getBasicAuthorization headers = .ok none ↔ ¬ MalformedBasic headers ∧ ∀ id secret, ¬ Credentials headers id secret := by
  rw [← malformedBasic_iff]
  simp only [← credentials_iff]
  match getBasicAuthorization headers with
  | .error e => simp
  | .ok none => simp
  | .ok (some (a, b)) => simp

end Psion
