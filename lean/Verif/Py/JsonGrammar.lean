import Verif.Py.JsonLemmas
import Verif.Spec.Json

/-! Helper lemmas: the scanner and the grammar of `Spec/Json.lean`. -/

namespace Psion

open Psion.Spec

/-! ### whitespace -/

theorem isJsonWs_iff {c : Nat} : isJsonWs c = true ↔ c = 32 ∨ c = 9 ∨ c = 10 ∨ c = 13 := by
  simp [isJsonWs, or_assoc]

theorem skipWs_split (s : PyStr) : ∃ w, s = w ++ skipWs s ∧ White w := by
  induction s with
  | nil => exact ⟨[], rfl, by simp [White]⟩
  | cons c s ih =>
    cases h : isJsonWs c with
    | true =>
      obtain ⟨w, h1, h2⟩ := ih
      refine ⟨c :: w, ?_, ?_⟩
      · simp only [skipWs, List.dropWhile_cons, h, if_true, List.cons_append, List.cons.injEq, true_and]
        exact h1
      · intro x hx
        rcases List.mem_cons.mp hx with rfl | hx
        · exact isJsonWs_iff.mp h
        · exact h2 x hx
    | false => exact ⟨[], by simp [skipWs, h], by simp [White]⟩

theorem skipWs_white {w s : PyStr} (h : White w) : skipWs (w ++ s) = skipWs s := by
  induction w with
  | nil => rfl
  | cons c w ih =>
    have hc := isJsonWs_iff.mpr (h c List.mem_cons_self)
    simp only [List.cons_append, skipWs, List.dropWhile_cons, hc, if_true]
    exact ih (fun x hx => h x (List.mem_cons_of_mem _ hx))

theorem skipWs_white_nil {w : PyStr} (h : White w) : skipWs w = [] := by
  have := skipWs_white (s := []) h
  rwa [List.append_nil] at this

theorem white_append {w w' : PyStr} (h : White w) (h' : White w') : White (w ++ w') := by
  intro c hc
  rcases List.mem_append.mp hc with hc | hc
  · exact h c hc
  · exact h' c hc

theorem skipWs_nil_white {s : PyStr} (h : skipWs s = []) : White s := by
  obtain ⟨w, h1, h2⟩ := skipWs_split s
  rw [h, List.append_nil] at h1
  rw [h1]
  exact h2

/-! ### texts -/

theorem jhex_iff {c d : Nat} : jhex c = some d ↔ HexDigit c d := by
  unfold jhex HexDigit
  constructor
  · intro h
    split at h
    · simp at h; omega
    split at h
    · simp at h; omega
    split at h
    · simp at h; omega
    · cases h
  · intro h
    split
    · simp; omega
    split
    · simp; omega
    split
    · simp; omega
    · omega

theorem hex4_iff {s r : PyStr} {u : Nat} : hex4 s = some (u, r) ↔ ∃ e, UnitEscape e u ∧ 92 :: 117 :: s = e ++ r := by
  constructor
  · intro h
    unfold hex4 at h
    split at h
    · rename_i a b c d s
      split at h
      · rename_i w x y z h1 h2 h3 h4
        simp only [Option.some.injEq, Prod.mk.injEq] at h
        obtain ⟨rfl, rfl⟩ := h
        exact ⟨_, ⟨a, b, c, d, w, x, y, z, rfl, jhex_iff.mp h1, jhex_iff.mp h2, jhex_iff.mp h3, jhex_iff.mp h4, by omega⟩, rfl⟩
      · cases h
    · cases h
  · rintro ⟨e, ⟨a, b, c, d, w, x, y, z, rfl, h1, h2, h3, h4, rfl⟩, h⟩
    simp only [List.cons_append, List.nil_append, List.cons.injEq, true_and] at h
    subst h
    simp only [hex4, jhex_iff.mpr h1, jhex_iff.mpr h2, jhex_iff.mpr h3, jhex_iff.mpr h4, Option.some.injEq, Prod.mk.injEq, and_true]
    omega

theorem simpleEscape_iff {e x : Nat} : simpleEscape e = some x ↔ (e, x) ∈ shortEscapes := by
  unfold simpleEscape shortEscapes
  simp only [List.mem_cons, List.not_mem_nil, or_false, Prod.mk.injEq]
  constructor
  · intro h
    repeat' split at h
    all_goals first
      | (simp only [Option.some.injEq] at h; omega)
      | cases h
  · intro h
    rcases h with ⟨rfl, rfl⟩ | ⟨rfl, rfl⟩ | ⟨rfl, rfl⟩ | ⟨rfl, rfl⟩ | ⟨rfl, rfl⟩ | ⟨rfl, rfl⟩ | ⟨rfl, rfl⟩ | ⟨rfl, rfl⟩ <;> decide

theorem map_some_inv {α β : Type} {o : Option α} {f : α → β} {b : β} (h : o.map f = some b) : ∃ a, o = some a ∧ f a = b := by
  cases o with
  | none => cases h
  | some a => exact ⟨a, rfl, by simpa using h⟩

/-- A scanned text is a text of the grammar. -/
theorem scanString_sound (n : Nat) : ∀ {s v r : PyStr}, scanString n s = some (v, r) → ∃ p, Chars p v ∧ s = p ++ 34 :: r := by
  induction n with
  | zero => intro s v r h; cases h
  | succ n ih =>
    intro s v r h
    -- one step of the scanner followed by the rest of the text
    have rest : ∀ {t : PyStr} {x : Nat}, (scanString n t).map (fun p => (x :: p.1, p.2)) = some (v, r) →
        ∃ v' p, v = x :: v' ∧ Chars p v' ∧ t = p ++ 34 :: r := by
      intro t x ht
      obtain ⟨⟨v', r'⟩, h1, h2⟩ := map_some_inv ht
      simp only [Prod.mk.injEq] at h2
      obtain ⟨rfl, rfl⟩ := h2
      obtain ⟨p, hp, ht'⟩ := ih h1
      exact ⟨v', p, rfl, hp, ht'⟩
    cases s with
    | nil => cases h
    | cons c s =>
      simp only [scanString] at h
      split at h
      · rename_i hc
        subst hc
        simp only [Option.some.injEq, Prod.mk.injEq] at h
        obtain ⟨rfl, rfl⟩ := h
        exact ⟨[], .nil, rfl⟩
      · rename_i hc
        split at h
        · rename_i hb
          subst hb
          cases s with
          | nil => cases h
          | cons e t =>
            simp only at h
            split at h
            · rename_i he
              subst he
              split at h
              · cases h
              · rename_i u r1 hu
                obtain ⟨eu, heu, hsplit⟩ := hex4_iff.mp hu
                rw [hsplit]
                -- a single code unit
                have single : (¬ (High u ∧ ∃ f lo t, r1 = f ++ t ∧ UnitEscape f lo ∧ Low lo)) →
                    (scanString n r1).map (fun p => (u :: p.1, p.2)) = some (v, r) → ∃ p, Chars p v ∧ eu ++ r1 = p ++ 34 :: r := by
                  intro hno h
                  obtain ⟨v', p, rfl, hp, rfl⟩ := rest h
                  refine ⟨eu ++ p, .unit heu ?_ hp, by simp⟩
                  rintro hhi ⟨f, lo, t, rfl, hf, hlo⟩
                  exact hno ⟨hhi, f, lo, t ++ 34 :: r, by simp, hf, hlo⟩
                split at h
                · rename_i hhi
                  have hhi' : High u := ⟨hhi.1, by omega⟩
                  split at h
                  · rename_i r'
                    split at h
                    · rename_i lo r'' hlo
                      obtain ⟨el, hel, hsplit'⟩ := hex4_iff.mp hlo
                      split at h
                      · rename_i hlo'
                        obtain ⟨v', p, rfl, hp, rfl⟩ := rest h
                        exact ⟨eu ++ (el ++ p), .pair heu hel hhi' ⟨hlo'.1, by omega⟩ hp, by rw [hsplit']; simp⟩
                      · rename_i hlo'
                        refine single ?_ h
                        rintro ⟨-, f, lo2, t, hft, hf, hlo2⟩
                        have := hex4_iff.mpr ⟨f, hf, hft⟩
                        rw [hlo] at this
                        simp only [Option.some.injEq, Prod.mk.injEq] at this
                        obtain ⟨rfl, -⟩ := this
                        exact hlo' ⟨hlo2.1, by have := hlo2.2; omega⟩
                    · rename_i hno
                      refine single ?_ h
                      rintro ⟨-, f, lo2, t, hft, hf, hlo2⟩
                      have := hex4_iff.mpr ⟨f, hf, hft⟩
                      rw [hno] at this
                      cases this
                  · rename_i hno
                    refine single ?_ h
                    rintro ⟨-, f, lo2, t, rfl, ⟨a, b, c, d, -, -, -, -, rfl, -⟩, -⟩
                    exact hno (a :: b :: c :: d :: t) rfl
                · rename_i hhi
                  refine single ?_ h
                  rintro ⟨hu', -⟩
                  exact hhi ⟨hu'.1, by have := hu'.2; omega⟩
            · split at h
              · cases h
              · rename_i x hx
                obtain ⟨v', p, rfl, hp, rfl⟩ := rest h
                exact ⟨92 :: e :: p, .short (simpleEscape_iff.mp hx) hp, rfl⟩
        · rename_i hb
          split at h
          · cases h
          · rename_i hlt
            obtain ⟨v', p, rfl, hp, rfl⟩ := rest h
            exact ⟨c :: p, .plain (by omega) hc hb hp, rfl⟩

theorem unitEscape_shape {e : PyStr} {u : Nat} (h : UnitEscape e u) :
    e.length = 6 ∧ 34 ∉ e ∧ ∀ r, ∃ t, e ++ r = 92 :: 117 :: t ∧ hex4 t = some (u, r) := by
  have h' := h
  obtain ⟨a, b, c, d, w, x, y, z, rfl, h1, h2, h3, h4, -⟩ := h
  refine ⟨rfl, ?_, fun r => ⟨a :: b :: c :: d :: r, rfl, hex4_iff.mpr ⟨_, h', rfl⟩⟩⟩
  unfold HexDigit at h1 h2 h3 h4
  simp only [List.mem_cons, List.not_mem_nil, or_false]
  omega

/-- Every text of the grammar is scanned. -/
theorem scanString_complete {p v : PyStr} (h : Chars p v) : ∀ (n : Nat) (r : PyStr), p.length < n →
    scanString n (p ++ 34 :: r) = some (v, r) := by
  induction h with
  | nil =>
    intro n r hn
    obtain ⟨n, rfl⟩ : ∃ m, n = m + 1 := ⟨n - 1, by simp at hn; omega⟩
    simp [scanString]
  | @plain c p v h1 h2 h3 _ ih =>
    intro n r hn
    obtain ⟨n, rfl⟩ : ∃ m, n = m + 1 := ⟨n - 1, by simp at hn; omega⟩
    simp only [List.length_cons] at hn
    simp only [List.cons_append, scanString]
    rw [if_neg h2, if_neg h3, if_neg (by omega), ih n r (by omega)]
    rfl
  | @short e x p v h1 _ ih =>
    intro n r hn
    obtain ⟨n, rfl⟩ : ∃ m, n = m + 1 := ⟨n - 1, by simp at hn; omega⟩
    simp only [List.length_cons] at hn
    have he : e ≠ 117 := by
      rintro rfl
      simp [shortEscapes] at h1
    simp only [List.cons_append, scanString]
    rw [if_neg (by decide), if_pos trivial, if_neg he, simpleEscape_iff.mpr h1]
    simp only
    rw [ih n r (by omega)]
    rfl
  | @pair e f hi lo p v h1 h2 h3 h4 _ ih =>
    intro n r hn
    obtain ⟨n, rfl⟩ : ∃ m, n = m + 1 := ⟨n - 1, by simp at hn; omega⟩
    obtain ⟨l1, -, s1⟩ := unitEscape_shape h1
    obtain ⟨l2, -, s2⟩ := unitEscape_shape h2
    simp only [List.length_append, l1, l2] at hn
    obtain ⟨t1, ht1, hx1⟩ := s1 (f ++ (p ++ 34 :: r))
    obtain ⟨t2, ht2, hx2⟩ := s2 (p ++ 34 :: r)
    rw [show e ++ (f ++ p) ++ 34 :: r = e ++ (f ++ (p ++ 34 :: r)) by simp, ht1]
    simp only [scanString]
    rw [if_neg (by decide), if_pos trivial, if_pos trivial, hx1]
    simp only
    rw [if_pos ⟨h3.1, by have := h3.2; omega⟩, ht2]
    simp only [hx2]
    rw [if_pos ⟨h4.1, by have := h4.2; omega⟩, ih n r (by omega)]
    rfl
  | @unit e u p v h1 h2 _ ih =>
    intro n r hn
    obtain ⟨n, rfl⟩ : ∃ m, n = m + 1 := ⟨n - 1, by simp at hn; omega⟩
    obtain ⟨l1, -, s1⟩ := unitEscape_shape h1
    simp only [List.length_append, l1] at hn
    obtain ⟨t1, ht1, hx1⟩ := s1 (p ++ 34 :: r)
    rw [List.append_assoc, ht1]
    simp only [scanString]
    rw [if_neg (by decide), if_pos trivial, if_pos trivial, hx1]
    simp only
    have hih := ih n r (by omega)
    split
    · rename_i hhi
      split
      · rename_i r' hr'
        split
        · rename_i lo r'' hlo
          split
          · rename_i hlo'
            exfalso
            obtain ⟨f, hf, hsplit⟩ := hex4_iff.mp hlo
            obtain ⟨l2, h34, -⟩ := unitEscape_shape hf
            rw [← hr'] at hsplit
            refine h2 ⟨hhi.1, by omega⟩ ⟨f, lo, ?_⟩
            by_cases hlen : 6 ≤ p.length
            · refine ⟨p.drop 6, ?_, hf, hlo'.1, by omega⟩
              have h6 : (p ++ 34 :: r).take 6 = f := by rw [hsplit, List.take_append, l2]; simp [← l2]
              rw [List.take_append_of_le_length hlen] at h6
              rw [← h6, List.take_append_drop]
            · exfalso
              apply h34
              have : f = (p ++ 34 :: r).take 6 := by rw [hsplit, List.take_append, l2]; simp [← l2]
              rw [this, List.take_append]
              apply List.mem_append_right
              obtain ⟨k, hk⟩ : ∃ k, 6 - p.length = k + 1 := ⟨5 - p.length, by omega⟩
              rw [hk]
              simp
          · rw [hih]; rfl
        · rw [hih]; rfl
      · rw [hih]; rfl
    · rw [hih]; rfl

/-! ### numbers -/

theorem isDigit_iff {c : Nat} : isDigit c = true ↔ 48 ≤ c ∧ c ≤ 57 := by simp [isDigit]

theorem natOfDigits_acc (ds : PyStr) : ∀ acc, ds.foldl (fun acc d => acc * 10 + (d - 48)) acc = acc * 10 ^ ds.length + decimal ds := by
  induction ds with
  | nil => intro acc; simp [decimal]
  | cons d ds ih =>
    intro acc
    rw [List.foldl_cons, ih, decimal, List.length_cons, Nat.pow_succ, Nat.add_mul, Nat.mul_comm (10 ^ ds.length) 10, Nat.mul_assoc,
      Nat.add_assoc]

theorem natOfDigits_eq (ds : PyStr) : natOfDigits ds = decimal ds := by
  unfold natOfDigits
  rw [natOfDigits_acc]
  simp

theorem digits_split (t : PyStr) : t = t.takeWhile isDigit ++ t.dropWhile isDigit ∧ ∀ d ∈ t.takeWhile isDigit, 48 ≤ d ∧ d ≤ 57 := by
  refine ⟨List.takeWhile_append_dropWhile.symm, ?_⟩
  intro d hd
  induction t with
  | nil => simp at hd
  | cons c t ih =>
    rw [List.takeWhile_cons] at hd
    split at hd
    · rename_i hc
      rcases List.mem_cons.mp hd with rfl | hd
      · exact isDigit_iff.mp hc
      · exact ih hd
    · simp at hd

theorem scanIntPart_sound {s ip r : PyStr} (h : scanIntPart s = some (ip, r)) : IntText ip ∧ s = ip ++ r := by
  unfold scanIntPart at h
  split at h
  · rename_i d t
    split at h
    · rename_i hd
      subst hd
      simp only [Option.some.injEq, Prod.mk.injEq] at h
      obtain ⟨rfl, rfl⟩ := h
      exact ⟨⟨⟨by simp, by simp⟩, fun _ => rfl⟩, rfl⟩
    · rename_i hd
      split at h
      · rename_i hdig
        simp only [Option.some.injEq, Prod.mk.injEq] at h
        obtain ⟨rfl, rfl⟩ := h
        refine ⟨⟨⟨by simp, ?_⟩, ?_⟩, by simp [List.takeWhile_append_dropWhile]⟩
        · intro x hx
          rcases List.mem_cons.mp hx with rfl | hx
          · exact isDigit_iff.mp hdig
          · exact (digits_split t).2 x hx
        · intro h48
          simp at h48
          exact absurd h48 hd
      · cases h
  · cases h

theorem scanFrac_sound {s fp r : PyStr} (h : scanFrac s = (fp, r)) : FracText fp ∧ s = fp ++ r := by
  unfold scanFrac at h
  split at h
  · rename_i d t
    split at h
    · rename_i hd
      simp only [Prod.mk.injEq] at h
      obtain ⟨rfl, rfl⟩ := h
      refine ⟨Or.inr ⟨d :: t.takeWhile isDigit, ⟨by simp, ?_⟩, rfl⟩, by simp [List.takeWhile_append_dropWhile]⟩
      intro x hx
      rcases List.mem_cons.mp hx with rfl | hx
      · exact isDigit_iff.mp hd
      · exact (digits_split t).2 x hx
    · simp only [Prod.mk.injEq] at h
      obtain ⟨rfl, rfl⟩ := h
      exact ⟨Or.inl rfl, rfl⟩
  · simp only [Prod.mk.injEq] at h
    obtain ⟨rfl, rfl⟩ := h
    exact ⟨Or.inl rfl, rfl⟩

theorem scanExp_sound {s ep r : PyStr} (h : scanExp s = (ep, r)) : ExpText ep ∧ s = ep ++ r := by
  have none : ∀ {s : PyStr}, (([], s) : PyStr × PyStr) = (ep, r) → ExpText ep ∧ s = ep ++ r := by
    intro s h
    simp only [Prod.mk.injEq] at h
    obtain ⟨rfl, rfl⟩ := h
    exact ⟨Or.inl rfl, rfl⟩
  unfold scanExp at h
  split at h
  · rename_i e t
    split at h
    · rename_i he
      split at h
      · rename_i g u
        split at h
        · rename_i hg
          split at h
          · exact none h
          · rename_i hne
            simp only [Prod.mk.injEq] at h
            obtain ⟨rfl, rfl⟩ := h
            refine ⟨Or.inr ⟨e, [g], _, he, ?_, ⟨hne, (digits_split u).2⟩, rfl⟩, by simp [List.takeWhile_append_dropWhile]⟩
            rcases hg with rfl | rfl <;> simp
        · split at h
          · exact none h
          · rename_i hne
            simp only [Prod.mk.injEq] at h
            obtain ⟨rfl, rfl⟩ := h
            exact ⟨Or.inr ⟨e, [], _, he, Or.inl rfl, ⟨hne, (digits_split (g :: u)).2⟩, rfl⟩,
              by rw [List.cons_append, ← (digits_split (g :: u)).1]⟩
      · exact none h
    · exact none h
  · exact none h

theorem scanNumber_sound {fe : FloatEnv} {neg : Bool} {s r : PyStr} {v : Val} (h : scanNumber fe neg s = some (v, r)) :
    ∃ p, JsonValue fe v (minus neg ++ p) ∧ s = p ++ r := by
  unfold scanNumber at h
  split at h
  · cases h
  · rename_i ip r0 hi
    obtain ⟨hip, rfl⟩ := scanIntPart_sound hi
    simp only at h
    generalize hf : scanFrac r0 = f at h
    obtain ⟨fp, r1⟩ := f
    obtain ⟨hfp, rfl⟩ := scanFrac_sound hf
    simp only at h
    generalize he : scanExp r1 = e at h
    obtain ⟨ep, r2⟩ := e
    obtain ⟨hep, rfl⟩ := scanExp_sound he
    simp only at h
    split at h
    · rename_i hnil
      obtain ⟨rfl, rfl⟩ := hnil
      simp only [Option.some.injEq, Prod.mk.injEq] at h
      obtain ⟨rfl, rfl⟩ := h
      refine ⟨ip, ?_, by simp⟩
      rw [natOfDigits_eq]
      exact .int neg hip
    · rename_i hne
      simp only [Option.some.injEq, Prod.mk.injEq] at h
      obtain ⟨rfl, rfl⟩ := h
      refine ⟨ip ++ fp ++ ep, ?_, by simp⟩
      have := JsonValue.float (fe := fe) neg hip hfp hep (fun hh => hne (List.append_eq_nil_iff.mp hh))
      simpa [minus] using this

theorem stripLit_sound {lit s r : PyStr} (h : stripLit lit s = some r) : s = lit ++ r := by
  unfold stripLit at h
  split at h
  · rename_i ht
    cases h
    conv => lhs; rw [← List.take_append_drop lit.length s, ht]
  · cases h

theorem scanAtom_sound {fe : FloatEnv} {s r : PyStr} {v : Val} (h : scanAtom fe s = some (v, r)) :
    ∃ p, JsonValue fe v p ∧ s = p ++ r := by
  unfold scanAtom at h
  repeat' split at h
  · rename_i hs; cases h; exact ⟨_, .null, stripLit_sound hs⟩
  · rename_i hs; cases h; exact ⟨_, .true_, stripLit_sound hs⟩
  · rename_i hs; cases h; exact ⟨_, .false_, stripLit_sound hs⟩
  · rename_i hs; cases h; exact ⟨_, .nan, stripLit_sound hs⟩
  · rename_i hs; cases h; exact ⟨_, .inf, stripLit_sound hs⟩
  · rename_i hs; cases h; exact ⟨_, .negInf, stripLit_sound hs⟩
  · obtain ⟨p, hp, rfl⟩ := scanNumber_sound h
    exact ⟨_, hp, rfl⟩
  · obtain ⟨p, hp, rfl⟩ := scanNumber_sound h
    exact ⟨_, hp, rfl⟩

/-- What ends a number: anything that cannot continue it. -/
def Stop (r : PyStr) : Prop := ∀ c, r.head? = some c → isDigit c = false ∧ c ≠ 46 ∧ c ≠ 101 ∧ c ≠ 69

theorem digits_all {ds : PyStr} (h : Digits ds) : ∀ d ∈ ds, isDigit d = true := fun d hd => isDigit_iff.mpr (h.2 d hd)

theorem intText_part {ip : PyStr} (h : IntText ip) : IntPart ip := by
  refine ⟨digits_all h.1, ?_⟩
  cases ip with
  | nil => exact absurd rfl h.1.1
  | cons d t =>
    refine ⟨d, t, rfl, ?_⟩
    rintro rfl
    have := h.2 rfl
    simpa using this

theorem scanExp_complete {ep r : PyStr} (h : ExpText ep) (hr : Stop r) : scanExp (ep ++ r) = (ep, r) := by
  rcases h with rfl | ⟨e, sign, ds, he, hs, hd, rfl⟩
  · exact scanExp_delim (fun c hc => (hr c hc).2.2)
  · have hall := digits_all hd
    have hnot : ∀ c, r.head? = some c → isDigit c = false := fun c hc => (hr c hc).1
    cases ds with
    | nil => exact absurd rfl hd.1
    | cons d t =>
      have hd' := hall d List.mem_cons_self
      have ht : ∀ x ∈ t, isDigit x = true := fun x hx => hall x (List.mem_cons_of_mem _ hx)
      rcases hs with rfl | rfl | rfl
      · have hw := takeWhile_digits hall hnot
        have hdr := isDigit_iff.mp hd'
        simp only [List.nil_append, List.cons_append, scanExp] at hw ⊢
        rw [if_pos he, if_neg (by omega), hw.1, hw.2, if_neg (by simp)]
      · exact scanExp_spec he (Or.inl rfl) hd' ht hnot
      · exact scanExp_spec he (Or.inr rfl) hd' ht hnot

theorem scanFrac_complete {fp r : PyStr} (h : FracText fp) (hr : ∀ c, r.head? = some c → isDigit c = false ∧ c ≠ 46) :
    scanFrac (fp ++ r) = (fp, r) := by
  rcases h with rfl | ⟨ds, hd, rfl⟩
  · exact scanFrac_delim (fun c hc => (hr c hc).2)
  · have hall := digits_all hd
    cases ds with
    | nil => exact absurd rfl hd.1
    | cons d t =>
      exact scanFrac_spec (hall d List.mem_cons_self) (fun x hx => hall x (List.mem_cons_of_mem _ hx)) (fun c hc => (hr c hc).1)

theorem scanNumber_complete {fe : FloatEnv} {neg : Bool} {ip fp ep r : PyStr} (hip : IntText ip) (hfp : FracText fp)
    (hep : ExpText ep) (hr : Stop r) : scanNumber fe neg (ip ++ (fp ++ (ep ++ r))) =
      if fp = [] ∧ ep = [] then some (.int (if neg then -(decimal ip : Int) else decimal ip), r)
      else some (.float (fe.parse (minus neg ++ ip ++ fp ++ ep)), r) := by
  have h1 : ∀ c, (ep ++ r).head? = some c → isDigit c = false ∧ c ≠ 46 := by
    intro c hc
    rcases hep with rfl | ⟨e, sign, ds, he, -, -, rfl⟩
    · exact ⟨(hr c hc).1, (hr c hc).2.1⟩
    · simp at hc
      subst hc
      rcases he with rfl | rfl <;> decide
  have h2 : ∀ c, (fp ++ (ep ++ r)).head? = some c → isDigit c = false := by
    intro c hc
    rcases hfp with rfl | ⟨ds, -, rfl⟩
    · exact (h1 c hc).1
    · simp at hc
      subst hc
      decide
  unfold scanNumber
  rw [scanIntPart_spec (intText_part hip) h2]
  simp only [scanFrac_complete hfp h1, scanExp_complete hep hr, natOfDigits_eq, minus]

theorem scanAtom_number {fe : FloatEnv} {neg : Bool} {ip fp ep r : PyStr} (hip : IntText ip) (hfp : FracText fp)
    (hep : ExpText ep) (hr : Stop r) : scanAtom fe (minus neg ++ (ip ++ (fp ++ (ep ++ r)))) =
      if fp = [] ∧ ep = [] then some (.int (if neg then -(decimal ip : Int) else decimal ip), r)
      else some (.float (fe.parse (minus neg ++ ip ++ fp ++ ep)), r) := by
  rw [← scanNumber_complete hip hfp hep hr]
  obtain ⟨hall, d, t, rfl, -⟩ := intText_part hip
  have hd := hall d List.mem_cons_self
  cases neg with
  | true => exact scanAtom_minus fe _ hd
  | false => exact scanAtom_digit fe _ hd

/-- A number starts with a digit or a minus sign. -/
theorem number_head {neg : Bool} {ip q : PyStr} (hip : IntText ip) :
    ∃ c t, minus neg ++ (ip ++ q) = c :: t ∧ (isDigit c = true ∨ c = 45) := by
  obtain ⟨hall, d, t, rfl, -⟩ := intText_part hip
  cases neg with
  | true => exact ⟨45, d :: t ++ q, rfl, Or.inr rfl⟩
  | false => exact ⟨d, t ++ q, rfl, Or.inl (hall d List.mem_cons_self)⟩

/-! ### values -/

theorem elems_white {fe : FloatEnv} {w p : PyStr} {l : List Val} (hw : White w) (h : JsonElems fe l p) : JsonElems fe l (w ++ p) := by
  cases h with
  | one h1 h2 h3 => rw [← List.append_assoc]; exact .one (white_append hw h1) h2 h3
  | more h1 h2 h3 h4 => rw [← List.append_assoc]; exact .more (white_append hw h1) h2 h3 h4

theorem members_white {fe : FloatEnv} {w p : PyStr} {kvs : List (PyStr × Val)} (hw : White w) (h : JsonMembers fe kvs p) :
    JsonMembers fe kvs (w ++ p) := by
  cases h with
  | one h1 h2 h3 h4 h5 h6 => rw [← List.append_assoc]; exact .one (white_append hw h1) h2 h3 h4 h5 h6
  | more h1 h2 h3 h4 h5 h6 h7 => rw [← List.append_assoc]; exact .more (white_append hw h1) h2 h3 h4 h5 h6 h7

theorem white_nil : White [] := by simp [White]

/-- What the scanner returns is in the grammar. -/
theorem scan_sound (fe : FloatEnv) (n : Nat) :
    (∀ {s r : PyStr} {v : Val}, scanOnce fe n s = some (v, r) → ∃ p, JsonValue fe v p ∧ s = p ++ r) ∧
    (∀ {acc d : Dict PyStr Val} {s r : PyStr}, scanMembers fe n acc s = some (d, r) →
      ∃ kvs p, JsonMembers fe kvs p ∧ s = p ++ 125 :: r ∧ d = kvs.foldl (fun d kv => Dict.set d kv.1 kv.2) acc) ∧
    (∀ {acc l : List Val} {s r : PyStr}, scanElems fe n acc s = some (l, r) →
      ∃ l' p, JsonElems fe l' p ∧ s = p ++ 93 :: r ∧ l = acc ++ l') := by
  induction n with
  | zero => exact ⟨fun h => by simp [scanOnce] at h, fun h => by simp [scanMembers] at h, fun h => by simp [scanElems] at h⟩
  | succ n ih =>
    obtain ⟨ih1, ih2, ih3⟩ := ih
    refine ⟨?_, ?_, ?_⟩
    · intro s r v h
      cases s with
      | nil => simp [scanOnce] at h
      | cons c s =>
        simp only [scanOnce] at h
        split at h
        · rename_i hc
          subst hc
          obtain ⟨⟨v', r'⟩, h1, h2⟩ := map_some_inv h
          cases h2
          obtain ⟨p, hp, rfl⟩ := scanString_sound _ h1
          exact ⟨_, .str hp, by simp⟩
        split at h
        · rename_i hc
          subst hc
          obtain ⟨w, hs, hw⟩ := skipWs_split s
          split at h
          · rename_i r' hr'
            cases h
            rw [hr'] at hs
            exact ⟨_, .emptyDict hw, by rw [hs]; simp⟩
          · obtain ⟨⟨v', r'⟩, h1, h2⟩ := map_some_inv h
            cases h2
            obtain ⟨kvs, p, hp, hsk, rfl⟩ := ih2 h1
            rw [hsk] at hs
            exact ⟨_, .dict (members_white hw hp), by rw [hs]; simp⟩
        split at h
        · rename_i hc
          subst hc
          obtain ⟨w, hs, hw⟩ := skipWs_split s
          split at h
          · rename_i r' hr'
            cases h
            rw [hr'] at hs
            exact ⟨_, .emptyList hw, by rw [hs]; simp⟩
          · obtain ⟨⟨v', r'⟩, h1, h2⟩ := map_some_inv h
            cases h2
            obtain ⟨l', p, hp, hsk, rfl⟩ := ih3 h1
            rw [hsk] at hs
            exact ⟨_, .list (elems_white hw hp), by rw [hs]; simp⟩
        · exact scanAtom_sound h
    · intro acc d s r h
      simp only [scanMembers] at h
      split at h
      · rename_i s1
        split at h
        · cases h
        · rename_i k s2 hk
          obtain ⟨q, hq, rfl⟩ := scanString_sound _ hk
          obtain ⟨w2, hs2, hw2⟩ := skipWs_split s2
          split at h
          · rename_i s3 hs3
            rw [hs3] at hs2
            obtain ⟨w3, hs3', hw3⟩ := skipWs_split s3
            split at h
            · cases h
            · rename_i v s4 hv
              obtain ⟨p, hp, hps⟩ := ih1 hv
              obtain ⟨w4, hs4, hw4⟩ := skipWs_split s4
              split at h
              · rename_i r' hr'
                cases h
                rw [hr'] at hs4
                refine ⟨_, _, .one white_nil hq hw2 hw3 hp hw4, ?_, rfl⟩
                rw [hs2, hs3', hps, hs4]
                simp
              · rename_i r' hr'
                rw [hr'] at hs4
                obtain ⟨w5, hs5, hw5⟩ := skipWs_split r'
                obtain ⟨kvs, p', hp', hps', rfl⟩ := ih2 h
                refine ⟨_, _, .more white_nil hq hw2 hw3 hp hw4 (members_white hw5 hp'), ?_, rfl⟩
                rw [hs2, hs3', hps, hs4, hs5, hps']
                simp
              · cases h
          · cases h
      · cases h
    · intro acc l s r h
      simp only [scanElems] at h
      split at h
      · cases h
      · rename_i v s1 hv
        obtain ⟨p, hp, rfl⟩ := ih1 hv
        obtain ⟨w1, hs1, hw1⟩ := skipWs_split s1
        split at h
        · rename_i r' hr'
          cases h
          rw [hr'] at hs1
          refine ⟨_, _, .one white_nil hp hw1, ?_, rfl⟩
          rw [hs1]
          simp
        · rename_i r' hr'
          rw [hr'] at hs1
          obtain ⟨w2, hs2, hw2⟩ := skipWs_split r'
          obtain ⟨l', p', hp', hps', rfl⟩ := ih3 h
          refine ⟨_, _, .more white_nil hp hw1 (elems_white hw2 hp'), ?_, by simp⟩
          rw [hs1, hs2, hps']
          simp
        · cases h

theorem notWs {c : Nat} (h : 32 < c) : isJsonWs c = false := by
  simp only [isJsonWs, Bool.or_eq_false_iff, beq_eq_false_iff_ne]
  omega

/-- The first character of a value. -/
theorem value_head {fe : FloatEnv} {v : Val} {p : PyStr} (h : JsonValue fe v p) :
    ∃ c t, p = c :: t ∧ 32 < c ∧ c ≠ 93 ∧ c ≠ 125 ∧ c < 128 := by
  have num : ∀ {neg : Bool} {ip q : PyStr}, IntText ip → ∃ c t, minus neg ++ (ip ++ q) = c :: t ∧ 32 < c ∧ c ≠ 93 ∧ c ≠ 125 ∧ c < 128 := by
    intro neg ip q hip
    obtain ⟨c, t, h1, h2⟩ := number_head (neg := neg) (q := q) hip
    refine ⟨c, t, h1, ?_⟩
    rcases h2 with h2 | rfl
    · have := isDigit_iff.mp h2
      omega
    · omega
  cases h with
  | null => exact ⟨_, _, rfl, by decide⟩
  | true_ => exact ⟨_, _, rfl, by decide⟩
  | false_ => exact ⟨_, _, rfl, by decide⟩
  | nan => exact ⟨_, _, rfl, by decide⟩
  | inf => exact ⟨_, _, rfl, by decide⟩
  | negInf => exact ⟨_, _, rfl, by decide⟩
  | int neg hip =>
    have := num (neg := neg) (q := []) hip
    simpa using this
  | @float neg ip fp ep hip =>
    have := num (neg := neg) (q := fp ++ ep) hip
    simpa using this
  | str _ => exact ⟨_, _, rfl, by decide⟩
  | emptyList _ => exact ⟨_, _, rfl, by decide⟩
  | list _ => exact ⟨_, _, rfl, by decide⟩
  | emptyDict _ => exact ⟨_, _, rfl, by decide⟩
  | dict _ => exact ⟨_, _, rfl, by decide⟩

theorem skipWs_value {fe : FloatEnv} {v : Val} {w p q : PyStr} (hw : White w) (h : JsonValue fe v p) :
    skipWs (w ++ (p ++ q)) = p ++ q := by
  obtain ⟨c, t, rfl, hc, -⟩ := value_head h
  rw [skipWs_white hw]
  exact skipWs_of_head (notWs hc)

theorem stop_white {w r : PyStr} (hw : White w) (hr : Stop r) : Stop (w ++ r) := by
  cases w with
  | nil => exact hr
  | cons c w =>
    intro x hx
    simp at hx
    subst hx
    rcases hw c List.mem_cons_self with rfl | rfl | rfl | rfl <;> decide

theorem stop_cons {c : Nat} {r : PyStr} (h : c = 44 ∨ c = 93 ∨ c = 125) : Stop (c :: r) := by
  intro x hx
  simp at hx
  subst hx
  rcases h with rfl | rfl | rfl <;> decide

theorem stop_nil : Stop [] := by intro c hc; cases hc

mutual
/-- Every text of the grammar is scanned. -/
theorem scanOnce_complete {fe : FloatEnv} : ∀ {v : Val} {p : PyStr}, JsonValue fe v p → ∀ (n : Nat) (r : PyStr), p.length ≤ n →
    Stop r → scanOnce fe n (p ++ r) = some (v, r)
  | _, _, .null, n, r, hn, _ => by
    obtain ⟨n, rfl⟩ : ∃ m, n = m + 1 := ⟨n - 1, by simp at hn; omega⟩
    exact (atom_not_struct fe n _ _ (by decide) (by decide) (by decide)).trans rfl
  | _, _, .true_, n, r, hn, _ => by
    obtain ⟨n, rfl⟩ : ∃ m, n = m + 1 := ⟨n - 1, by simp at hn; omega⟩
    exact (atom_not_struct fe n _ _ (by decide) (by decide) (by decide)).trans rfl
  | _, _, .false_, n, r, hn, _ => by
    obtain ⟨n, rfl⟩ : ∃ m, n = m + 1 := ⟨n - 1, by simp at hn; omega⟩
    exact (atom_not_struct fe n _ _ (by decide) (by decide) (by decide)).trans rfl
  | _, _, .nan, n, r, hn, _ => by
    obtain ⟨n, rfl⟩ : ∃ m, n = m + 1 := ⟨n - 1, by simp at hn; omega⟩
    exact (atom_not_struct fe n _ _ (by decide) (by decide) (by decide)).trans rfl
  | _, _, .inf, n, r, hn, _ => by
    obtain ⟨n, rfl⟩ : ∃ m, n = m + 1 := ⟨n - 1, by simp at hn; omega⟩
    exact (atom_not_struct fe n _ _ (by decide) (by decide) (by decide)).trans rfl
  | _, _, .negInf, n, r, hn, _ => by
    obtain ⟨n, rfl⟩ : ∃ m, n = m + 1 := ⟨n - 1, by simp at hn; omega⟩
    exact (atom_not_struct fe n _ _ (by decide) (by decide) (by decide)).trans rfl
  | _, _, @JsonValue.int _ neg ip hip, n, r, hn, hr => by
    have key := scanAtom_number (fe := fe) (neg := neg) hip (Or.inl rfl) (Or.inl rfl) hr
    obtain ⟨c, t, h1, h2⟩ := number_head (neg := neg) (q := r) hip
    obtain ⟨n, rfl⟩ : ∃ m, n = m + 1 := by
      refine ⟨n - 1, ?_⟩
      have : ip.length ≠ 0 := fun h => hip.1.1 (List.eq_nil_of_length_eq_zero h)
      simp only [List.length_append] at hn
      omega
    have h3 : c ≠ 34 ∧ c ≠ 123 ∧ c ≠ 91 := by
      rcases h2 with h2 | rfl
      · have := isDigit_iff.mp h2
        omega
      · decide
    simp only [List.nil_append, and_self, if_true] at key
    rw [List.append_assoc, h1, atom_not_struct fe n _ _ h3.1 h3.2.1 h3.2.2, ← h1]
    exact key
  | _, _, @JsonValue.float _ neg ip fp ep hip hfp hep hne, n, r, hn, hr => by
    have key := scanAtom_number (fe := fe) (neg := neg) hip hfp hep hr
    obtain ⟨c, t, h1, h2⟩ := number_head (neg := neg) (q := fp ++ (ep ++ r)) hip
    obtain ⟨n, rfl⟩ : ∃ m, n = m + 1 := by
      refine ⟨n - 1, ?_⟩
      have : ip.length ≠ 0 := fun h => hip.1.1 (List.eq_nil_of_length_eq_zero h)
      simp only [List.length_append] at hn
      omega
    have h3 : c ≠ 34 ∧ c ≠ 123 ∧ c ≠ 91 := by
      rcases h2 with h2 | rfl
      · have := isDigit_iff.mp h2
        omega
      · decide
    rw [if_neg (fun h => hne (by rw [h.1, h.2]; rfl))] at key
    rw [show minus neg ++ ip ++ fp ++ ep ++ r = minus neg ++ (ip ++ (fp ++ (ep ++ r))) by simp, h1,
      atom_not_struct fe n _ _ h3.1 h3.2.1 h3.2.2, ← h1]
    exact key
  | _, _, @JsonValue.str _ p v hp, n, r, hn, _ => by
    obtain ⟨n, rfl⟩ : ∃ m, n = m + 1 := ⟨n - 1, by simp at hn; omega⟩
    simp only [List.length_cons, List.length_append, List.length_nil] at hn
    have := scanString_complete hp (n + 1) r (by omega)
    simp only [List.cons_append, List.append_assoc, List.nil_append, scanOnce, if_true, this, Option.map_some]
  | _, _, @JsonValue.emptyList _ w hw, n, r, hn, _ => by
    obtain ⟨n, rfl⟩ : ∃ m, n = m + 1 := ⟨n - 1, by simp at hn; omega⟩
    simp only [List.cons_append, List.append_assoc, List.nil_append, scanOnce]
    rw [if_neg (by decide), if_neg (by decide), if_pos trivial, skipWs_white hw, skipWs_of_head (by decide)]
    rfl
  | _, _, @JsonValue.emptyDict _ w hw, n, r, hn, _ => by
    obtain ⟨n, rfl⟩ : ∃ m, n = m + 1 := ⟨n - 1, by simp at hn; omega⟩
    simp only [List.cons_append, List.append_assoc, List.nil_append, scanOnce]
    rw [if_neg (by decide), if_pos trivial, skipWs_white hw, skipWs_of_head (by decide)]
    rfl
  | _, _, @JsonValue.list _ p l hp, n, r, hn, _ => by
    obtain ⟨n, rfl⟩ : ∃ m, n = m + 1 := ⟨n - 1, by simp at hn; omega⟩
    simp only [List.length_cons, List.length_append, List.length_nil] at hn
    obtain ⟨h1, h2⟩ := scanElems_complete hp n r (by omega)
    simp only [List.cons_append, List.append_assoc, List.nil_append, scanOnce]
    rw [if_neg (by decide), if_neg (by decide), if_pos trivial]
    rw [h2 []]
    rfl
  | _, _, @JsonValue.dict _ p kvs hp, n, r, hn, _ => by
    obtain ⟨n, rfl⟩ : ∃ m, n = m + 1 := ⟨n - 1, by simp at hn; omega⟩
    simp only [List.length_cons, List.length_append, List.length_nil] at hn
    obtain ⟨h1, h2⟩ := scanMembers_complete hp n r (by omega)
    simp only [List.cons_append, List.append_assoc, List.nil_append, scanOnce]
    rw [if_neg (by decide), if_pos trivial]
    rw [h2 []]
    rfl
theorem scanElems_complete {fe : FloatEnv} : ∀ {l : List Val} {p : PyStr}, JsonElems fe l p → ∀ (n : Nat) (r : PyStr),
    p.length < n → (∀ t, skipWs (p ++ 93 :: r) ≠ 93 :: t) ∧
      ∀ acc, scanElems fe n acc (skipWs (p ++ 93 :: r)) = some (acc ++ l, r)
  | _, _, @JsonElems.one _ w w' p v hw hp hw', n, r, hn => by
    obtain ⟨n, rfl⟩ : ∃ m, n = m + 1 := ⟨n - 1, by omega⟩
    simp only [List.length_append] at hn
    have hs : skipWs ((w ++ (p ++ w')) ++ 93 :: r) = p ++ (w' ++ 93 :: r) := by
      rw [show (w ++ (p ++ w')) ++ 93 :: r = w ++ (p ++ (w' ++ 93 :: r)) by simp]
      exact skipWs_value hw hp
    rw [hs]
    obtain ⟨c, t, hc, -, h93, -⟩ := value_head hp
    refine ⟨fun t' h => ?_, fun acc => ?_⟩
    · rw [hc] at h
      simp at h
      exact h93 h.1
    · rw [scanElems_step (scanOnce_complete hp n _ (by omega) (stop_white hw' (stop_cons (Or.inr (Or.inl rfl))))), tailElems,
        skipWs_white hw', skipWs_of_head (by decide)]
      rfl
  | _, _, @JsonElems.more _ w w' p q v l hw hp hw' hq, n, r, hn => by
    obtain ⟨n, rfl⟩ : ∃ m, n = m + 1 := ⟨n - 1, by omega⟩
    simp only [List.length_append, List.length_cons] at hn
    have hs : skipWs ((w ++ (p ++ (w' ++ 44 :: q))) ++ 93 :: r) = p ++ (w' ++ 44 :: (q ++ 93 :: r)) := by
      rw [show (w ++ (p ++ (w' ++ 44 :: q))) ++ 93 :: r = w ++ (p ++ (w' ++ 44 :: (q ++ 93 :: r))) by simp]
      exact skipWs_value hw hp
    rw [hs]
    obtain ⟨c, t, hc, -, h93, -⟩ := value_head hp
    refine ⟨fun t' h => ?_, fun acc => ?_⟩
    · rw [hc] at h
      simp at h
      exact h93 h.1
    · rw [scanElems_step (scanOnce_complete hp n _ (by omega) (stop_white hw' (stop_cons (Or.inl rfl)))), tailElems,
        skipWs_white hw', skipWs_of_head (by decide)]
      simp only
      rw [(scanElems_complete hq n r (by omega)).2]
      simp
theorem scanMembers_complete {fe : FloatEnv} : ∀ {kvs : List (PyStr × Val)} {p : PyStr}, JsonMembers fe kvs p →
    ∀ (n : Nat) (r : PyStr), p.length < n → (∀ t, skipWs (p ++ 125 :: r) ≠ 125 :: t) ∧
      ∀ acc, scanMembers fe n acc (skipWs (p ++ 125 :: r)) = some (kvs.foldl (fun d kv => Dict.set d kv.1 kv.2) acc, r)
  | _, _, @JsonMembers.one _ w1 w2 w3 w4 m k p v hw1 hk hw2 hw3 hp hw4, n, r, hn => by
    obtain ⟨n, rfl⟩ : ∃ m, n = m + 1 := ⟨n - 1, by omega⟩
    simp only [List.length_append, List.length_cons] at hn
    have hs : skipWs ((w1 ++ 34 :: (m ++ 34 :: (w2 ++ 58 :: (w3 ++ (p ++ w4))))) ++ 125 :: r) =
        34 :: (m ++ 34 :: (w2 ++ 58 :: (w3 ++ (p ++ (w4 ++ 125 :: r))))) := by
      rw [List.append_assoc, skipWs_white hw1, List.cons_append, skipWs_of_head (by decide)]
      simp
    rw [hs]
    refine ⟨fun t h => by simp at h, fun acc => ?_⟩
    have h1 := scanString_complete hk (n + 1) (w2 ++ 58 :: (w3 ++ (p ++ (w4 ++ 125 :: r)))) (by omega)
    have h2 : skipWs (w2 ++ 58 :: (w3 ++ (p ++ (w4 ++ 125 :: r)))) = 58 :: (w3 ++ (p ++ (w4 ++ 125 :: r))) := by
      rw [skipWs_white hw2, skipWs_of_head (by decide)]
    have h3 : scanOnce fe n (skipWs (w3 ++ (p ++ (w4 ++ 125 :: r)))) = some (v, w4 ++ 125 :: r) := by
      rw [skipWs_value hw3 hp]
      exact scanOnce_complete hp n _ (by omega) (stop_white hw4 (stop_cons (Or.inr (Or.inr rfl))))
    rw [scanMembers_step h1 h2 h3, tailMembers, skipWs_white hw4, skipWs_of_head (by decide)]
    rfl
  | _, _, @JsonMembers.more _ w1 w2 w3 w4 m k p q v kvs hw1 hk hw2 hw3 hp hw4 hq, n, r, hn => by
    obtain ⟨n, rfl⟩ : ∃ m, n = m + 1 := ⟨n - 1, by omega⟩
    simp only [List.length_append, List.length_cons] at hn
    have hs : skipWs ((w1 ++ 34 :: (m ++ 34 :: (w2 ++ 58 :: (w3 ++ (p ++ (w4 ++ 44 :: q)))))) ++ 125 :: r) =
        34 :: (m ++ 34 :: (w2 ++ 58 :: (w3 ++ (p ++ (w4 ++ 44 :: (q ++ 125 :: r)))))) := by
      rw [List.append_assoc, skipWs_white hw1, List.cons_append, skipWs_of_head (by decide)]
      simp
    rw [hs]
    refine ⟨fun t h => by simp at h, fun acc => ?_⟩
    have h1 := scanString_complete hk (n + 1) (w2 ++ 58 :: (w3 ++ (p ++ (w4 ++ 44 :: (q ++ 125 :: r))))) (by omega)
    have h2 : skipWs (w2 ++ 58 :: (w3 ++ (p ++ (w4 ++ 44 :: (q ++ 125 :: r))))) = 58 :: (w3 ++ (p ++ (w4 ++ 44 :: (q ++ 125 :: r)))) := by
      rw [skipWs_white hw2, skipWs_of_head (by decide)]
    have h3 : scanOnce fe n (skipWs (w3 ++ (p ++ (w4 ++ 44 :: (q ++ 125 :: r))))) = some (v, w4 ++ 44 :: (q ++ 125 :: r)) := by
      rw [skipWs_value hw3 hp]
      exact scanOnce_complete hp n _ (by omega) (stop_white hw4 (stop_cons (Or.inl rfl)))
    rw [scanMembers_step h1 h2 h3, tailMembers, skipWs_white hw4, skipWs_of_head (by decide)]
    simp only
    rw [(scanMembers_complete hq n r (by omega)).2]
    rfl
end

/-- `json.loads` reads exactly the JSON texts. -/
theorem jsonParse_iff {fe : FloatEnv} {s : PyStr} {v : Val} : jsonParse fe s = .ok v ↔ JsonText fe v s := by
  constructor
  · intro h
    unfold jsonParse at h
    split at h
    · cases h
    · split at h
      · cases h
      · rename_i v' r hs
        split at h
        · rename_i hr
          cases h
          obtain ⟨w, h1, hw⟩ := skipWs_split s
          obtain ⟨p, hp, h2⟩ := (scan_sound fe _).1 hs
          rw [h2] at h1
          exact ⟨w, p, r, h1, hw, hp, skipWs_nil_white hr⟩
        · cases h
  · rintro ⟨w, p, w', rfl, hw, hp, hw'⟩
    unfold jsonParse
    have hlen : p.length ≤ (w ++ (p ++ w')).length + 1 := by simp; omega
    have hstop : Stop w' := by
      have := stop_white hw' stop_nil
      rwa [List.append_nil] at this
    have hhead : ¬ (w ++ (p ++ w')).head? = some 0xFEFF := by
      cases w with
      | cons c w =>
        intro h
        simp at h
        have := hw c List.mem_cons_self
        omega
      | nil =>
        obtain ⟨c, t, rfl, -, -, -, hc⟩ := value_head hp
        intro h
        simp at h
        omega
    rw [if_neg hhead, skipWs_value hw hp, scanOnce_complete hp _ _ hlen hstop]
    simp only [skipWs_white_nil hw', if_true]

end Psion
