import Verif.Props.Auth
import Verif.Py.FormLemmas

/-!
# Property C89: parameters are read exactly as the format says
-/

namespace Psion.Props

open Psion Spec

/-! ## Helpers -/

theorem pieces_iff {q : PyStr} {ps : List PyStr} : Pieces q ps ↔ splitOn 38 q = ps := by
  constructor
  · intro h
    induction h with
    | last p h => exact splitOn_not_mem h
    | cons p q ps h _ ih => rw [splitOn_append h, ih]
  · rintro rfl
    have key : ∀ (n : Nat) (q : PyStr), q.length ≤ n → Pieces q (splitOn 38 q) := by
      intro n
      induction n with
      | zero =>
        intro q hn
        cases q with
        | nil => exact .last [] (by simp)
        | cons => simp at hn
      | succ n ih =>
        intro q hn
        cases hs : splitOnce 38 q with
        | none =>
          have h := splitOnce_none.mp hs
          rw [splitOn_not_mem h]
          exact .last q h
        | some ab =>
          obtain ⟨a, b⟩ := ab
          obtain ⟨rfl, h⟩ := splitOnce_some hs
          rw [splitOn_append h]
          exact .cons a b _ h (ih b (by simp at hn; omega))
    exact key _ q (Nat.le_refl _)

theorem field_iff {p k v : PyStr} : parsePair p = some (k, v) ↔ Field p k v := by
  unfold parsePair
  constructor
  · intro h
    split at h
    · cases h
    · rename_i a b hs
      split at h
      · cases h
      · rename_i hb
        cases h
        obtain ⟨rfl, ha⟩ := splitOnce_some hs
        exact ⟨a, b, rfl, ha, hb, written_iff.mpr rfl, written_iff.mpr rfl⟩
  · rintro ⟨a, b, rfl, ha, hb, h1, h2⟩
    rw [splitOnce_append ha]
    dsimp only
    rw [if_neg hb, written_iff.mp h1, written_iff.mp h2]

theorem find_reverse_iff {κ α : Type} [DecidableEq κ] (l : List (κ × α)) (k : κ) (v : α) :
    ((l.reverse.find? (fun kv => decide (kv.1 = k))).map Prod.snd) = some v ↔
      ∃ a b, l = a ++ (k, v) :: b ∧ ∀ kv ∈ b, kv.1 ≠ k := by
  constructor
  · intro h
    obtain ⟨⟨k', v'⟩, h1, rfl⟩ := Option.map_eq_some_iff.mp h
    obtain ⟨h2, as, bs, h3, h4⟩ := List.find?_eq_some_iff_append.mp h1
    have h2 : k' = k := by simpa using h2
    subst h2
    refine ⟨bs.reverse, as.reverse, ?_, ?_⟩
    · have := congrArg List.reverse h3
      simpa using this
    · intro kv hkv
      have := h4 kv (List.mem_reverse.mp hkv)
      simpa using this
  · rintro ⟨a, b, rfl, h⟩
    refine Option.map_eq_some_iff.mpr ⟨(k, v), List.find?_eq_some_iff_append.mpr ⟨by simp, b.reverse, a.reverse, by simp, ?_⟩, rfl⟩
    intro kv hkv
    simpa using h kv (List.mem_reverse.mp hkv)

theorem filterMap_split {α β : Type} (f : α → Option β) (l : List α) (a b : List β) (x : β) :
    l.filterMap f = a ++ x :: b ↔ ∃ l1 p l2, l = l1 ++ p :: l2 ∧ f p = some x ∧ l1.filterMap f = a ∧ l2.filterMap f = b := by
  constructor
  · intro h
    obtain ⟨l1, r, rfl, h1, h2⟩ := List.filterMap_eq_append_iff.mp h
    obtain ⟨m, p, l2, rfl, hm, hp, h3⟩ := List.filterMap_eq_cons_iff.mp h2
    refine ⟨l1 ++ m, p, l2, by simp, hp, ?_, h3⟩
    rw [List.filterMap_append, h1, List.filterMap_eq_nil_iff.mpr hm, List.append_nil]
  · rintro ⟨l1, p, l2, rfl, hp, rfl, rfl⟩
    rw [List.filterMap_append, List.filterMap_cons, hp]

theorem get_urldecode (q k v : PyStr) : Dict.get (urldecode q) k = some v ↔ Parameter q k v := by
  unfold urldecode parseQsl Dict.ofPairs
  rw [get_update_last, Dict.get_nil, Option.or_none, find_reverse_iff]
  constructor
  · rintro ⟨a, b, h, hb⟩
    obtain ⟨l, p, r, hs, hp, -, rfl⟩ := (filterMap_split _ _ _ _ _).mp h
    refine ⟨_, l, p, r, pieces_iff.mpr rfl, hs, field_iff.mp hp, ?_⟩
    intro p' hp' v' hf
    exact hb (k, v') (List.mem_filterMap.mpr ⟨p', hp', field_iff.mpr hf⟩) rfl
  · rintro ⟨ps, l, p, r, h1, rfl, h2, h3⟩
    refine ⟨_, _, (filterMap_split _ _ _ _ _).mpr ⟨l, p, r, pieces_iff.mp h1, field_iff.mpr h2, rfl, rfl⟩, ?_⟩
    rintro ⟨k', v'⟩ hm rfl
    obtain ⟨p', hp', hf⟩ := List.mem_filterMap.mp hm
    exact h3 p' hp' v' (field_iff.mp hf)

theorem queryOf_iff {url q : PyStr} : QueryOf url q ↔ urlQuery url = q := by
  unfold QueryOf urlQuery
  rw [dropUnsafe_filter]
  generalize dropUnsafe url = u
  dsimp only
  constructor
  · rintro ⟨main, hm, h35, hq⟩
    have fin : (match splitOnce 63 main with | some (_, q) => q | none => []) = q := by
      rcases hq with ⟨h63, rfl⟩ | ⟨base, rfl, h63⟩
      · rw [splitOnce_none.mpr h63]
      · rw [splitOnce_append h63]
    rcases hm with rfl | ⟨f, rfl⟩
    · rw [splitOnce_none.mpr h35]
      exact fin
    · rw [splitOnce_append h35]
      exact fin
  · rintro rfl
    have fin : ∀ main : PyStr, (63 ∉ main ∧ (match splitOnce 63 main with | some (_, q) => q | none => []) = []) ∨
        ∃ base, main = base ++ 63 :: (match splitOnce 63 main with | some (_, q) => q | none => []) ∧ 63 ∉ base := by
      intro main
      cases h : splitOnce 63 main with
      | none => exact Or.inl ⟨splitOnce_none.mp h, rfl⟩
      | some ab => exact Or.inr ⟨ab.1, splitOnce_some (p := ab.1) (q := ab.2) h⟩
    cases h : splitOnce 35 u with
    | none => exact ⟨u, Or.inl rfl, splitOnce_none.mp h, fin u⟩
    | some ab =>
      have := splitOnce_some (p := ab.1) (q := ab.2) h
      exact ⟨ab.1, Or.inr ⟨ab.2, this.1⟩, this.2, fin ab.1⟩

/-! ## C89 -/

/-- C89: a written text is read as exactly the text that it stands for; every text stands for exactly one. -/
theorem C89_written (s t : PyStr) : unquotePlus s = t ↔ Written s t :=
  written_iff.symm

/-- Escapes in either case, `+`, a raw character, a lone `%` and ill-formed bytes. -/
example : unquotePlus (py! "a%2B+%c3%A9%" ++ [233] ++ py! "%E2%82z%ff") =
    py! "a+ " ++ [233, 37, 233, 0xFFFD, 122, 0xFFFD] := by decide +kernel

/-- C89: decoding a query string gives exactly the parameters that it gives a value; the last one counts, and parameters without
`=` or without value do not count. -/
theorem C89_parameters (q k v : PyStr) : Dict.get (urldecode q) k = some v ↔ Parameter q k v :=
  get_urldecode q k v

/-- C89: the parameters of the URL are those of its query. Every URL has exactly one query. -/
theorem C89_query (method url : PyStr) (headers : Dict PyStr PyStr) (body : Option Bytes) (user : Option User) (req : Request)
    (h : Request.init method url headers body user = .ok req) :
    ∃ q, (∀ q', QueryOf url q' ↔ q' = q) ∧ ∀ k v, Dict.get req.query k = some v ↔ Parameter q k v := by
  refine ⟨urlQuery url, fun q' => queryOf_iff.trans eq_comm, ?_⟩
  cases request_init h
  exact get_urldecode _

/-- C89: the parameters of the form are those of the body, if it is UTF-8. A request without body or with a body that is not UTF-8
has none. -/
theorem C89_form (req : Request) :
    (∀ b text, req.body = some b → Utf8Text text b → ∀ k v, Dict.get req.form k = some v ↔ Parameter text k v) ∧
    (∀ b, req.body = some b → (∀ text, ¬ Utf8Text text b) → req.form = []) ∧ (req.body = none → req.form = []) := by
  unfold Request.form
  refine ⟨?_, ?_, ?_⟩
  · intro b text hb ht k v
    rw [hb]
    dsimp only
    have : toStringB b = text := by
      unfold toStringB
      rw [utf8Decode_encode (utf8Text_iff.mpr ht)]
    rw [this]
    exact get_urldecode _ _ _
  · intro b hb hno
    rw [hb]
    dsimp only
    unfold toStringB
    cases hd : utf8Decode b with
    | some s => exact absurd (utf8Text_iff.mp (utf8Encode_decode hd)) (hno s)
    | none =>
      dsimp only
      have hmem : ∀ c ∈ asciiStr (b64urlEncode b), c ≠ 61 ∧ c ≠ 38 := by
        intro c hc
        simp only [asciiStr, List.mem_map] at hc
        obtain ⟨x, hx, rfl⟩ := hc
        have := b64urlEncode_alphabet b x hx
        unfold IsB64uChar at this
        omega
      unfold urldecode parseQsl
      rw [splitOn_not_mem (fun h => (hmem _ h).2 rfl)]
      have : parsePair (asciiStr (b64urlEncode b)) = none := by
        unfold parsePair
        rw [splitOnce_none.mpr (fun h => (hmem _ h).1 rfl)]
      simp [this, Dict.ofPairs]
  · intro hb
    rw [hb]

/-- C89: a parameter of a request comes from its form, or, if the form does not have it, from the query of its URL. -/
theorem C89_request (method url : PyStr) (headers : Dict PyStr PyStr) (body : Bytes) (user : Option User) (req : Request)
    (q text k v : PyStr) (h : Request.init method url headers (some body) user = .ok req) (hq : QueryOf url q)
    (ht : Utf8Text text body) :
    Dict.get req.data k = some v ↔ Parameter text k v ∨ (∀ w, ¬ Parameter text k w) ∧ Parameter q k v := by
  have hb : req.body = some body := by
    cases request_init h
    rfl
  obtain ⟨q', h1, h2⟩ := C89_query method url headers (some body) user req h
  have hf := (C89_form req).1 body text hb ht k
  rw [C60_form_overrides]
  rw [(h1 q).mp hq]
  cases hg : Dict.get req.form k with
  | some w =>
    dsimp only
    have hw := (hf w).mp hg
    constructor
    · intro e; cases e; exact Or.inl hw
    · rintro (hv | ⟨hno, -⟩)
      · rw [← (hf v).mpr hv, hg]
      · exact absurd hw (hno w)
  | none =>
    dsimp only
    have hno : ∀ w, ¬ Parameter text k w := by
      intro w hw
      rw [(hf w).mpr hw] at hg
      cases hg
    rw [h2]
    exact ⟨fun h => Or.inr ⟨hno, h⟩, fun h => h.elim (fun h => absurd h (hno v)) And.right⟩

/-- A request whose form and query both have the parameter. -/
example : Parameter (py! "a=1&b=%26&a=+2&c&d=") (py! "a") (py! " 2") ∧ QueryOf (py! "https://s/x?a=3&e=4#f?g=5") (py! "a=3&e=4") ∧
    ¬ ∃ v, Parameter (py! "a=1&b=%26&a=+2&c&d=") (py! "d") v := by
  refine ⟨(get_urldecode _ _ _).mp (by decide +kernel), queryOf_iff.mpr (by decide), ?_⟩
  rintro ⟨v, h⟩
  have h := (get_urldecode _ _ _).mpr h
  rw [show Dict.get (urldecode (py! "a=1&b=%26&a=+2&c&d=")) (py! "d") = none from by decide +kernel] at h
  cases h

end Psion.Props
