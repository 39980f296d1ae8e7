import Verif.Py.JsonGrammar
import Verif.Props.Webtools
import Verif.Props.Toy

/-!
# Property C86: JSON texts (`/repo/src/psion/webtools.py:162-192`)
-/

namespace Psion.Props

open Psion Psion.Spec

/-- C86: `json_loads` returns a value exactly for its texts according to the grammar, and raises `JSONDecodeError` for everything
else. -/
theorem C86_grammar (fe : FloatEnv) (s : PyStr) :
    (∀ v, jsonParse fe s = .ok v ↔ JsonText fe v s) ∧
      ((¬ ∃ v, JsonText fe v s) → jsonParse fe s = .error .jsonDecode) := by
  refine ⟨fun v => jsonParse_iff, fun hno => ?_⟩
  cases h : jsonParse fe s with
  | ok v => exact absurd ⟨v, jsonParse_iff.mp h⟩ hno
  | error e =>
    unfold jsonParse at h
    split at h
    · cases h; rfl
    · split at h
      · cases h; rfl
      · split at h <;> cases h
        rfl

/-- C86: the grammar is unambiguous. -/
theorem C86_unambiguous (fe : FloatEnv) (s : PyStr) (v v' : Val) (h : JsonText fe v s) (h' : JsonText fe v' s) : v = v' :=
  Except.ok.inj ((jsonParse_iff.mpr h).symm.trans (jsonParse_iff.mpr h'))

/-- C86: what `json_dumps` writes is a text for the value. -/
theorem C86_printed (fe : FloatEnv) (hl : FloatLaws fe) (v : Val) (h : v.Wf) : JsonText fe v (jsonDumps fe v) :=
  jsonParse_iff.mp (C11_json_roundtrip fe hl v h)

/-- The value of the last member with a name. -/
def lastMember (kvs : List (PyStr × Val)) (k : PyStr) : Option Val := ((kvs.filter (fun kv => kv.1 = k)).getLast?).map Prod.snd

theorem foldl_set_get (k : PyStr) : ∀ (kvs : List (PyStr × Val)) (d : Dict PyStr Val),
    Dict.get (kvs.foldl (fun d kv => Dict.set d kv.1 kv.2) d) k = (lastMember kvs k).or (Dict.get d k)
  | [], d => by simp [lastMember]
  | (k', v) :: kvs, d => by
    rw [List.foldl_cons, foldl_set_get k kvs, Dict.get_set]
    unfold lastMember
    by_cases h : k' = k
    · subst h
      simp only [List.filter_cons, decide_true, if_true]
      cases hf : kvs.filter (fun kv => decide (kv.1 = k')) with
      | nil => simp
      | cons a l =>
        rw [List.getLast?_cons_cons, List.getLast?_eq_some_getLast (List.cons_ne_nil a l)]
        rfl
    · simp only [List.filter_cons, h, decide_false, Bool.false_eq_true, if_false]

theorem foldl_set_ok : ∀ (kvs : List (PyStr × Val)) (d : Dict PyStr Val), Dict.Ok d →
    Dict.Ok (kvs.foldl (fun d kv => Dict.set d kv.1 kv.2) d)
  | [], _, h => h
  | (k, v) :: kvs, _, h => foldl_set_ok kvs _ (Dict.ok_set h k v)

theorem foldl_set_mem {p : PyStr × Val} : ∀ (kvs : List (PyStr × Val)) (d : Dict PyStr Val),
    p ∈ kvs.foldl (fun d kv => Dict.set d kv.1 kv.2) d → p ∈ d ∨ p ∈ kvs
  | [], _, h => Or.inl h
  | (k, v) :: kvs, d, h => by
    rcases foldl_set_mem kvs _ h with h | h
    · rcases Dict.mem_set h with h | h
      · exact Or.inl h
      · exact Or.inr (by rw [h]; exact List.mem_cons_self)
    · exact Or.inr (List.mem_cons_of_mem _ h)

/-- C86: a dictionary that was read has every name once, and with the value of the last member of that name in the text. -/
theorem C86_members (fe : FloatEnv) (s : PyStr) (d : Dict PyStr Val) (h : jsonParse fe s = .ok (.dict d)) :
    Dict.Ok d ∧ (d = [] ∨ ∃ w p kvs w', s = w ++ (123 :: (p ++ [125]) ++ w') ∧ White w ∧ JsonMembers fe kvs p ∧ White w' ∧
      ∀ k, Dict.get d k = lastMember kvs k) := by
  obtain ⟨w, q, w', rfl, hw, hq, hw'⟩ := jsonParse_iff.mp h
  cases hq with
  | emptyDict _ => exact ⟨by simp [Dict.Ok, Dict.keys], Or.inl rfl⟩
  | @dict p kvs hp =>
    refine ⟨foldl_set_ok _ _ (by simp [Dict.Ok, Dict.keys]), Or.inr ⟨w, p, kvs, w', rfl, hw, hp, hw', fun k => ?_⟩⟩
    rw [foldl_set_get]
    simp

mutual
theorem value_wf {fe : FloatEnv} (hp : ∀ t, (fe.parse t).isNaN = false) : ∀ {v : Val} {p : PyStr}, JsonValue fe v p → v.Wf
  | _, _, .null => trivial
  | _, _, .true_ => trivial
  | _, _, .false_ => trivial
  | _, _, .nan => fun _ => rfl
  | _, _, .inf => fun h => by revert h; decide
  | _, _, .negInf => fun h => by revert h; decide
  | _, _, .int _ _ => trivial
  | _, _, .float _ _ _ _ _ => fun h => by rw [hp] at h; cases h
  | _, _, .str _ => trivial
  | _, _, .emptyList _ => trivial
  | _, _, .list h => elems_wf hp h
  | _, _, .emptyDict _ => ⟨by simp, trivial⟩
  | _, _, .dict h =>
    have hm := members_wf hp h
    ⟨foldl_set_ok _ _ (by simp [Dict.Ok, Dict.keys]), wfD_iff.mpr (fun kv hkv => by
      rcases foldl_set_mem _ _ hkv with h' | h'
      · cases h'
      · exact wfD_iff.mp hm kv h')⟩
theorem elems_wf {fe : FloatEnv} (hp : ∀ t, (fe.parse t).isNaN = false) : ∀ {l : List Val} {p : PyStr}, JsonElems fe l p → Val.WfL l
  | _, _, .one _ h _ => ⟨value_wf hp h, trivial⟩
  | _, _, .more _ h _ h' => ⟨value_wf hp h, elems_wf hp h'⟩
theorem members_wf {fe : FloatEnv} (hp : ∀ t, (fe.parse t).isNaN = false) : ∀ {l : List (PyStr × Val)} {p : PyStr},
    JsonMembers fe l p → Val.WfD l
  | _, _, .one _ _ _ _ h _ => ⟨value_wf hp h, trivial⟩
  | _, _, .more _ _ _ _ h _ h' => ⟨value_wf hp h, members_wf hp h'⟩
end

/-- C86: if no number is read as NaN, what is read is a well-formed value, so that writing and reading it again does not change it
(C11). -/
theorem C86_stable (fe : FloatEnv) (hl : FloatLaws fe) (hp : ∀ t, (fe.parse t).isNaN = false) (s : PyStr) (v : Val)
    (h : jsonParse fe s = .ok v) : v.Wf ∧ jsonParse fe (jsonDumps fe v) = .ok v := by
  obtain ⟨w, p, w', -, -, hq, -⟩ := jsonParse_iff.mp h
  exact ⟨value_wf hp hq, C11_json_roundtrip fe hl v (value_wf hp hq)⟩

/-- A text with whitespace, a repeated name, an escape and a surrogate pair; and texts that are no JSON. -/
example (fe : FloatEnv) : jsonParse fe (py! " { \"a\" : [1, -20 , true],\t\"b\": \"\\n\\u00e9\\uD83D\\uDE00\", \"a\": {} } ") =
    .ok (.dict [(py! "a", .dict []), (py! "b", .str [10, 233, 0x1F600])]) := by rfl
example (fe : FloatEnv) : jsonParse fe (py! "{\"a\": 01}") = .error .jsonDecode := by rfl
example (fe : FloatEnv) : jsonParse fe (py! "{\"a\": 1,}") = .error .jsonDecode := by rfl
example (fe : FloatEnv) : jsonParse fe (py! "[\"\\x\"]") = .error .jsonDecode := by rfl
example (fe : FloatEnv) : jsonParse fe (py! "NaN") = .ok (.float f64NaN) := by rfl
example (fe : FloatEnv) : jsonParse fe (py! "\"\\ud800x\"") = .ok (.str [0xD800, 120]) := by rfl
example (fe : FloatEnv) : JsonText fe (.list [.int (-20), .none]) (py! "[-20, null]\n") :=
  ⟨[], py! "[-20, null]", [10], rfl, by simp [White],
    .list (.more (w := []) (p := py! "-20") (w' := []) (q := py! " null") (by simp [White])
      (.int true (ip := py! "20") ⟨⟨by simp, by simp⟩, by simp⟩) (by simp [White])
      (.one (w := [32]) (p := py! "null") (w' := []) (by simp [White]) .null (by simp [White]))), by simp [White]⟩

/-- The hypotheses of `C86_stable` can be met. -/
def tameFloat : FloatEnv := { toyFloat with parse := fun s => if (toyFloat.parse s).isNaN then f64Inf else toyFloat.parse s }

example : FloatLaws tameFloat ∧ ∀ t, (tameFloat.parse t).isNaN = false := by
  refine ⟨⟨toyFloat_laws.shape, fun f hf => ?_⟩, fun t => ?_⟩
  · have h := toyFloat_laws.parse f hf
    have hn : f.isNaN = false := by
      simp only [F64.isFinite, F64.isNaN] at *
      simp at hf ⊢
      exact fun h => absurd h hf
    show (if (toyFloat.parse (toyFloat.repr f)).isNaN then f64Inf else toyFloat.parse (toyFloat.repr f)) = f
    rw [h, hn]
    rfl
  · show F64.isNaN (if (toyFloat.parse t).isNaN then f64Inf else toyFloat.parse t) = false
    split
    · decide
    · rename_i h
      simpa using h

end Psion.Props
