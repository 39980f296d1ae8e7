import Verif.Real.FloatLemmas
import Verif.Props.Json

/-!
# C129: numbers with fractions

`Real.floats` are the conversions of CPython between floats and decimal numbers. C129 states what they do in the terms of IEEE 754, and what
follows for JSON texts; every theorem with the hypothesis `FloatLaws` holds for them.
-/

namespace Psion.Props

open Psion Psion.Spec Psion.Real

/-! ## Reading -/

theorem literal_parts {text : PyStr} {neg : Bool} {num den : Nat} (h : Literal text neg num den)
    (hc : ∃ c ∈ text, c = 46 ∨ c = 101 ∨ c = 69) :
    ∃ ip fp ep, IntText ip ∧ FracText fp ∧ ExpText ep ∧ fp ++ ep ≠ [] ∧ text = minus neg ++ ip ++ fp ++ ep := by
  obtain ⟨ip, fp, ep, ds, x, hip, hf, he, rfl, -, -⟩ := h
  refine ⟨ip, fp, ep, hip, ?_, ?_, ?_, rfl⟩
  · rcases hf with ⟨rfl, -⟩ | ⟨h, rfl⟩
    · exact Or.inl rfl
    · exact Or.inr ⟨ds, h, rfl⟩
  · rcases he with ⟨rfl, -⟩ | ⟨e, sign, es, h1, h2, rfl, ⟨h3, -⟩ | ⟨h3, -⟩⟩
    · exact Or.inl rfl
    · exact Or.inr ⟨e, sign, es, h1, h3.elim Or.inl (fun h => Or.inr (Or.inl h)), h2, rfl⟩
    · exact Or.inr ⟨e, sign, es, h1, Or.inr (Or.inr h3), h2, rfl⟩
  · intro hn
    obtain ⟨rfl, rfl⟩ := List.append_eq_nil_iff.mp hn
    obtain ⟨c, hc, hv⟩ := hc
    rw [List.append_nil, List.append_nil] at hc
    rcases List.mem_append.mp hc with hc | hc
    · unfold minus at hc
      split at hc
      · have := List.mem_singleton.mp hc
        omega
      · cases hc
    · have := hip.1.2 c hc
      omega

/-- C129, reading: a number with a fraction or an exponent is read as the float that is the nearest to it, the even one of two, with the sign
in front of it. -/
theorem C129_read (text : PyStr) (neg : Bool) (num den : Nat) (h : Literal text neg num den)
    (hc : ∃ c ∈ text, c = 46 ∨ c = 101 ∨ c = 69) (v : Val) :
    jsonParse floats text = .ok v ↔ ∃ f, v = .float f ∧ Nearest num den (magnitude f) ∧ f.sign = if neg then 1 else 0 := by
  obtain ⟨ip, fp, ep, h1, h2, h3, h4, ht⟩ := literal_parts h hc
  have hj : jsonParse floats text = .ok (.float (parseFloat text)) := by
    refine jsonParse_iff.mpr ⟨[], text, [], by simp, by simp [White], ?_, by simp [White]⟩
    rw [ht]
    exact .float neg h1 h2 h3 h4
  rw [hj]
  constructor
  · intro hv
    cases hv
    exact ⟨_, rfl, (parse_spec h _).mp rfl⟩
  · rintro ⟨f, rfl, hf⟩
    rw [(parse_spec h f).mpr hf]

/-- Every number of the grammar of JSON is meant. -/
theorem C129_literal (neg : Bool) (ip fp ep : PyStr) (h1 : IntText ip) (h2 : FracText fp) (h3 : ExpText ep) :
    ∃ num den, 0 < den ∧ Literal (minus neg ++ ip ++ fp ++ ep) neg num den := by
  obtain ⟨ds, hds⟩ : ∃ ds, Fraction fp ds := by
    rcases h2 with rfl | ⟨ds, h, rfl⟩
    · exact ⟨[], Or.inl ⟨rfl, rfl⟩⟩
    · exact ⟨ds, Or.inr ⟨h, rfl⟩⟩
  obtain ⟨x, hx⟩ : ∃ x, Exponent ep x := by
    rcases h3 with rfl | ⟨e, sign, es, h, hs | hs | hs, he, rfl⟩
    · exact ⟨0, Or.inl ⟨rfl, rfl⟩⟩
    · exact ⟨_, Or.inr ⟨e, sign, es, h, he, rfl, Or.inl ⟨Or.inl hs, rfl⟩⟩⟩
    · exact ⟨_, Or.inr ⟨e, sign, es, h, he, rfl, Or.inl ⟨Or.inr hs, rfl⟩⟩⟩
    · exact ⟨_, Or.inr ⟨e, sign, es, h, he, rfl, Or.inr ⟨hs, rfl⟩⟩⟩
  exact ⟨_, _, Nat.pow_pos (by decide), ip, fp, ep, ds, x, h1, hds, hx, rfl, rfl, rfl⟩

/-- There is always exactly one nearest float. -/
theorem C129_nearest (num den : Nat) (hd : 0 < den) : ∃ c, Nearest num den c ∧ ∀ c', Nearest num den c' → c' = c :=
  ⟨_, round_nearest num den hd, fun _ h => nearest_one hd h (round_nearest num den hd)⟩

theorem nearest_infinity {num den : Nat} (hd : 0 < den) :
    Nearest num den infinity ↔ den * (units (infinity - 1) + units infinity) ≤ 2 * (num * 2 ^ 1074) := by
  have hlt : units (infinity - 1) < units infinity := units_lt (by decide)
  have hm := Nat.mul_lt_mul_of_pos_left hlt hd
  rw [Nat.mul_add]
  constructor
  · intro h
    have := h.2 (infinity - 1) (by decide) (by decide)
    generalize den * units (infinity - 1) = a at *
    generalize den * units infinity = b at *
    generalize num * 2 ^ 1074 = n at *
    unfold apart at this
    omega
  · intro h
    refine ⟨Nat.le_refl _, fun c' hc' hne => ?_⟩
    have h1 : units c' ≤ units (infinity - 1) := units_le (by omega)
    have h2 := Nat.mul_le_mul_left den h1
    have h3 : infinity % 2 = 0 := by decide
    generalize den * units (infinity - 1) = a at *
    generalize den * units infinity = b at *
    generalize den * units c' = c at *
    generalize num * 2 ^ 1074 = n at *
    unfold apart
    omega

/-- C129, overflow: the numbers from the middle between the largest float and `2 ^ 1024` on are read as infinity, which `json_dumps` writes as
a word that is no JSON. -/
theorem C129_overflow (text : PyStr) (num den : Nat) (h : Literal text false num den) (hc : ∃ c ∈ text, c = 46 ∨ c = 101 ∨ c = 69) :
    jsonParse floats text = .ok (.float f64Inf) ↔ den * (2 ^ 1024 - 2 ^ 970) ≤ num := by
  have hden : 0 < den := by
    obtain ⟨ip, fp, ep, ds, x, -, -, -, -, -, rfl⟩ := h
    exact Nat.pow_pos (by decide)
  have hm : magnitude f64Inf = infinity := by decide
  have hs : f64Inf.sign = 0 := by decide
  have hu : units (infinity - 1) + units infinity = (2 ^ 1024 - 2 ^ 970) * (2 * 2 ^ 1074) := by decide +kernel
  have key : Nearest num den infinity ↔ den * (2 ^ 1024 - 2 ^ 970) ≤ num := by
    rw [nearest_infinity hden, hu, ← Nat.mul_assoc, Nat.mul_left_comm 2 num]
    have h2 : 0 < 2 * 2 ^ 1074 := by decide +kernel
    exact ⟨fun h => Nat.le_of_mul_le_mul_right h h2, fun h => Nat.mul_le_mul_right _ h⟩
  rw [C129_read text false num den h hc, ← key]
  constructor
  · rintro ⟨f, hf, h1, -⟩
    cases hf
    rwa [hm] at h1
  · intro h
    exact ⟨f64Inf, rfl, by rwa [hm], by rw [hs]; rfl⟩

/-! ## Writing -/

/-- C129, writing: a finite float is written with the fewest digits of which it is the nearest float, and with the nearest ones of these, the
even ones of two. -/
theorem C129_write (f : F64) (hf : f.isFinite = true) (h0 : magnitude f ≠ 0) :
    ∃ ds x text, Digits ds ∧ ds.head? ≠ some 48 ∧ Shortest (magnitude f) (decimal ds) x ∧ ReprText ds (ds.length + x) text ∧
      jsonDumps floats (.float f) = minus (f.sign = 1) ++ text := by
  have hpos : 0 < magnitude f := by omega
  obtain ⟨k, -, -, -, hd0, -, -, -⟩ := shortest_spec hpos (finite_lt hf)
  have hs := shortest_shortest hpos (finite_lt hf)
  have hr : jsonDumps floats (.float f) = reprFloat f := by
    show floatStr floats f = _
    unfold floatStr
    have hn : f.isNaN = false := by
      unfold F64.isFinite at hf
      unfold F64.isNaN
      simp only [bne_iff_ne, ne_eq] at hf
      simp [hf]
    rw [if_neg (by rw [hn]; decide), if_pos hf]
    rfl
  rw [hr]
  unfold reprFloat
  rw [if_neg h0]
  generalize shortest (magnitude f) = s at *
  obtain ⟨d, p⟩ := s
  dsimp only at *
  refine ⟨natStr d, (p : Int) - 400, formatRepr (natStr d) ((natStr d).length + (p : Int) - 400), natStr_Digits d, natStr_head_ne hd0, ?_, ?_, ?_⟩
  · rw [← natOfDigits_eq, natOfDigits_natStr]
    exact hs
  · rw [show ((natStr d).length : Int) + ((p : Int) - 400) = (natStr d).length + (p : Int) - 400 by omega]
    exact (format_parts (natStr d) (natStr_Digits d) (natStr_head_ne hd0) p).1
  · unfold minus
    rcases sign_cases f with h | h <;> rw [h] <;> rfl

/-- C129, zero: both zeros are written, with their sign. -/
theorem C129_zero (f : F64) (h : magnitude f = 0) : jsonDumps floats (.float f) = if f.sign = 1 then py! "-0.0" else py! "0.0" := by
  have h1 := val_eq f
  rcases sign_cases f with hs | hs
  · have : f = ⟨0, by decide⟩ := Fin.ext (by rw [h1, hs, h])
    subst this
    decide +kernel
  · have : f = ⟨2 ^ 63, by decide⟩ := Fin.ext (by rw [h1, hs, h])
    subst this
    decide +kernel

/-! ## JSON -/

theorem parseFloat_number (t : PyStr) : (parseFloat t).isNaN = false := by
  have key : ∃ s r, (parseFloat t).val = s * 2 ^ 63 + r ∧ r ≤ infinity := by
    unfold parseFloat
    dsimp only
    have h := round_lt (readDecimal (if t.head? = some 45 then t.drop 1 else t)).1 (readDecimal (if t.head? = some 45 then t.drop 1 else t)).2
    have hm : ∀ num den, roundFloat num den ≤ infinity := fun num den => Nat.min_le_left _ _
    rw [h]
    split
    · exact ⟨1, _, by rw [Nat.one_mul], hm _ _⟩
    · exact ⟨0, _, by rw [Nat.zero_mul], hm _ _⟩
  obtain ⟨s, r, h1, h2⟩ := key
  have h3 := (parseFloat t).isLt
  have h4 : infinity = 2047 * 2 ^ 52 := rfl
  unfold F64.isNaN F64.expo F64.mant
  rw [h1] at h3 ⊢
  by_cases h : (s * 2 ^ 63 + r) / 2 ^ 52 % 2048 = 2047
  · rw [show (s * 2 ^ 63 + r) % 2 ^ 52 = 0 by omega, bne_self_eq_false, Bool.and_false]
  · rw [beq_false_of_ne h, Bool.false_and]

/-- C129, there and back: what `json_dumps` writes is read as the same value, and what `json_loads` reads stays the same when it is written
and read again. -/
theorem C129_roundtrip (v : Val) (h : v.Wf) : jsonParse floats (jsonDumps floats v) = .ok v := C11_json_roundtrip floats floats_laws v h

theorem C129_stable (s : PyStr) (v : Val) (h : jsonParse floats s = .ok v) : jsonParse floats (jsonDumps floats v) = .ok v :=
  (C86_stable floats floats_laws parseFloat_number s v h).2

/-- A fraction that is no float, ties in both directions, the smallest and the largest float and half of the smallest one, an overflow, and
digits after the point that do not count. -/
example : floats.parse (py! "0.1") = ⟨0x3FB999999999999A, by decide⟩ := by decide +kernel
example : floats.parse (py! "9007199254740993.0") = ⟨0x4340000000000000, by decide⟩ := by decide +kernel
example : floats.parse (py! "9007199254740995.0") = ⟨0x4340000000000002, by decide⟩ := by decide +kernel
example : floats.parse (py! "-5E-324") = ⟨0x8000000000000001, by decide⟩ := by decide +kernel
example : floats.parse (py! "2.4703282292062327e-324") = ⟨0, by decide⟩ := by decide +kernel
example : floats.parse (py! "1.7976931348623157e+308") = ⟨0x7FEFFFFFFFFFFFFF, by decide⟩ := by decide +kernel
example : floats.parse (py! "1.7976931348623159e308") = f64Inf := by decide +kernel
example : floats.parse (py! "-1e400") = f64NegInf := by decide +kernel
example : floats.repr ⟨0x3FB999999999999A, by decide⟩ = py! "0.1" := by decide +kernel
example : floats.repr ⟨0x3FD3333333333334, by decide⟩ = py! "0.30000000000000004" := by decide +kernel
example : floats.repr ⟨0x8000000000000001, by decide⟩ = py! "-5e-324" := by decide +kernel
example : floats.repr ⟨0x7FEFFFFFFFFFFFFF, by decide⟩ = py! "1.7976931348623157e+308" := by decide +kernel
example : floats.repr ⟨0x4341C37937E08000, by decide⟩ = py! "1e+16" := by decide +kernel
example : floats.repr ⟨0x430C6BF526340000, by decide⟩ = py! "1000000000000000.0" := by decide +kernel
example : floats.repr ⟨0x3F1A36E2EB1C432D, by decide⟩ = py! "0.0001" := by decide +kernel
example : floats.repr ⟨0x3EE4F8B588E368F1, by decide⟩ = py! "1e-05" := by decide +kernel
example : floats.repr ⟨0x42A0000000000020, by decide⟩ = py! "8796093022208.062" := by decide +kernel
example : floats.repr ⟨0x409299EB851EB852, by decide⟩ = py! "1190.48" := by decide +kernel
/-- `1e400` has the form that C129 speaks of, and is above the bound. -/
example : Literal (py! "1e400") false (decimal (py! "1") * 10 ^ 400) (10 ^ 0) ∧ 10 ^ 0 * (2 ^ 1024 - 2 ^ 970) ≤ decimal (py! "1") * 10 ^ 400 :=
  ⟨⟨py! "1", [], py! "e400", [], 400, ⟨⟨by decide, by decide⟩, by decide⟩, Or.inl ⟨rfl, rfl⟩,
    Or.inr ⟨101, [], py! "400", Or.inl rfl, ⟨by decide, by decide⟩, rfl, Or.inl ⟨Or.inl rfl, by decide⟩⟩, rfl, rfl, rfl⟩, by decide +kernel⟩
example : jsonDumps floats (.float f64Inf) = py! "Infinity" := by decide +kernel

end Psion.Props
