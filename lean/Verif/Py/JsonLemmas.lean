import Verif.Py.Json
import Verif.Py.DictLemmas
import Verif.Py.Utf8Lemmas

/-! Helper lemmas about JSON printing and parsing. -/

namespace Psion

/-! ### texts -/

theorem jhex_hexLow {n : Nat} (h : n < 16) : jhex (hexLow n) = some n := by
  unfold jhex hexLow
  split
  · rw [if_pos (by omega)]; simp
  · rw [if_neg (by omega), if_neg (by omega), if_pos (by omega)]; simp

theorem scanString_escape (c n : Nat) (rest : PyStr) :
    scanString (n + 1) (jsonEscape c ++ rest) =
      (scanString n rest).map (fun p => (c :: p.1, p.2)) := by
  unfold jsonEscape
  split
  · subst_vars; simp [scanString, simpleEscape]
  split
  · subst_vars; simp [scanString, simpleEscape]
  split
  · subst_vars; simp [scanString, simpleEscape]
  split
  · subst_vars; simp [scanString, simpleEscape]
  split
  · subst_vars; simp [scanString, simpleEscape]
  split
  · subst_vars; simp [scanString, simpleEscape]
  split
  · subst_vars; simp [scanString, simpleEscape]
  split
  · rename_i hc
    have h0 : jhex 48 = some 0 := by decide
    have h1 : jhex (hexLow (c / 16)) = some (c / 16) := jhex_hexLow (by omega)
    have h2 : jhex (hexLow (c % 16)) = some (c % 16) := jhex_hexLow (by omega)
    simp only [List.cons_append, List.nil_append, scanString, hex4, h0, h1, h2]
    rw [if_neg (by decide), if_pos trivial, if_pos trivial, if_neg (by omega)]
    congr 1
    funext p
    congr 2
    omega
  · rename_i h1 h2 _ _ _ _ _ h3
    simp [scanString, h1, h2, h3]

theorem scanString_print (s : PyStr) (n : Nat) (rest : PyStr) (h : s.length < n) :
    scanString n (s.flatMap jsonEscape ++ 34 :: rest) = some (s, rest) := by
  induction s generalizing n with
  | nil =>
    obtain ⟨n, rfl⟩ : ∃ m, n = m + 1 := ⟨n - 1, by omega⟩
    simp [scanString]
  | cons c s ih =>
    obtain ⟨n, rfl⟩ : ∃ m, n = m + 1 := ⟨n - 1, by omega⟩
    simp only [List.length_cons] at h
    rw [List.flatMap_cons, List.append_assoc, scanString_escape, ih n (by omega)]
    rfl

theorem jsonEscape_length (c : Nat) : 1 ≤ (jsonEscape c).length := by
  unfold jsonEscape; repeat' split
  all_goals simp

theorem jsonStr_length (s : PyStr) : s.length + 2 ≤ (jsonStr s).length := by
  unfold jsonStr
  simp only [List.length_cons, List.length_append, List.length_nil]
  suffices s.length ≤ (s.flatMap jsonEscape).length by omega
  induction s with
  | nil => simp
  | cons c s ih =>
    rw [List.flatMap_cons, List.length_append, List.length_cons]
    have := jsonEscape_length c; omega

theorem jsonStr_append (s rest : PyStr) :
    jsonStr s ++ rest = 34 :: (s.flatMap jsonEscape ++ 34 :: rest) := by
  simp [jsonStr]

/-! ### numbers -/

theorem natOfDigits_snoc (ds : PyStr) (d : Nat) :
    natOfDigits (ds ++ [d]) = natOfDigits ds * 10 + (d - 48) := by
  simp [natOfDigits]

theorem digitsAux_spec (fuel n : Nat) (h : n ≤ fuel) :
    natOfDigits (digitsAux fuel n) = n ∧ (∀ d ∈ digitsAux fuel n, isDigit d = true) ∧
      (∃ d t, digitsAux fuel n = d :: t ∧ (n ≠ 0 → d ≠ 48) ∧ (n = 0 → t = [] ∧ d = 48)) := by
  induction fuel generalizing n with
  | zero =>
    have : n = 0 := by omega
    subst this
    refine ⟨rfl, by simp [digitsAux, isDigit], 48, [], rfl, by simp, by simp⟩
  | succ fuel ih =>
    simp only [digitsAux]
    split
    · refine ⟨by simp [natOfDigits], by simp [isDigit]; omega, 48 + n, [], rfl, by omega, fun h0 => ⟨rfl, by omega⟩⟩
    · obtain ⟨h1, h2, d, t, h3, h4, h5⟩ := ih (n / 10) (by omega)
      refine ⟨?_, ?_, d, t ++ [48 + n % 10], by rw [h3]; rfl, fun _ => h4 (by omega), by omega⟩
      · rw [natOfDigits_snoc, h1]; omega
      · intro x hx
        rcases List.mem_append.mp hx with hx | hx
        · exact h2 x hx
        · simp at hx; subst hx; simp [isDigit]; omega

theorem natOfDigits_natStr (n : Nat) : natOfDigits (natStr n) = n :=
  (digitsAux_spec n n (Nat.le_refl _)).1

theorem natStr_digits (n : Nat) : ∀ d ∈ natStr n, isDigit d = true :=
  (digitsAux_spec n n (Nat.le_refl _)).2.1

theorem natStr_shape (n : Nat) :
    ∃ d t, natStr n = d :: t ∧ (n ≠ 0 → d ≠ 48) ∧ (n = 0 → t = [] ∧ d = 48) :=
  (digitsAux_spec n n (Nat.le_refl _)).2.2

/-- What may follow a value in the output of `json.dumps`. -/
def Delim (rest : PyStr) : Prop := ∀ c, rest.head? = some c → c = 44 ∨ c = 93 ∨ c = 125

theorem takeWhile_digits {t rest : PyStr} (h : ∀ d ∈ t, isDigit d = true)
    (hr : ∀ c, rest.head? = some c → isDigit c = false) :
    (t ++ rest).takeWhile isDigit = t ∧ (t ++ rest).dropWhile isDigit = rest := by
  induction t with
  | nil =>
    cases rest with
    | nil => simp
    | cons c rest => have := hr c rfl; simp [this]
  | cons d t ih =>
    have hd := h d List.mem_cons_self
    have ih := ih (fun x hx => h x (List.mem_cons_of_mem _ hx))
    simp [hd, ih.1, ih.2]

theorem Delim.notDigit {rest : PyStr} (h : Delim rest) :
    ∀ c, rest.head? = some c → isDigit c = false := by
  intro c hc
  rcases h c hc with rfl | rfl | rfl <;> decide

/-- A digit sequence acceptable as an integer part. -/
def IntPart (ip : PyStr) : Prop :=
  (∀ d ∈ ip, isDigit d = true) ∧ ∃ d t, ip = d :: t ∧ (d = 48 → t = [])

theorem scanIntPart_spec {ip rest : PyStr} (h : IntPart ip)
    (hr : ∀ c, rest.head? = some c → isDigit c = false) :
    scanIntPart (ip ++ rest) = some (ip, rest) := by
  obtain ⟨h1, d, t, rfl, h2⟩ := h
  have hd := h1 d List.mem_cons_self
  have ht : ∀ x ∈ t, isDigit x = true := fun x hx => h1 x (List.mem_cons_of_mem _ hx)
  simp only [List.cons_append, scanIntPart]
  split
  · subst_vars; rw [h2 rfl]; rfl
  · rw [(takeWhile_digits ht hr).1, (takeWhile_digits ht hr).2]

theorem natStr_intPart (n : Nat) : IntPart (natStr n) := by
  refine ⟨natStr_digits n, ?_⟩
  obtain ⟨d, t, h1, h2, h3⟩ := natStr_shape n
  refine ⟨d, t, h1, fun hd => ?_⟩
  by_cases hn : n = 0
  · exact (h3 hn).1
  · exact absurd hd (h2 hn)

theorem scanFrac_delim {rest : PyStr} (h : ∀ c, rest.head? = some c → c ≠ 46) :
    scanFrac rest = ([], rest) := by
  unfold scanFrac
  split
  · exact absurd rfl (h 46 rfl)
  · rfl

theorem scanExp_delim {rest : PyStr} (h : ∀ c, rest.head? = some c → c ≠ 101 ∧ c ≠ 69) :
    scanExp rest = ([], rest) := by
  unfold scanExp
  split
  · rename_i e t
    obtain ⟨h1, h2⟩ := h e rfl
    rw [if_neg (by simp [h1, h2])]
  · rfl

theorem Delim.noFrac {rest : PyStr} (h : Delim rest) : ∀ c, rest.head? = some c → c ≠ 46 := by
  intro c hc; rcases h c hc with rfl | rfl | rfl <;> decide

theorem Delim.noExp {rest : PyStr} (h : Delim rest) :
    ∀ c, rest.head? = some c → c ≠ 101 ∧ c ≠ 69 := by
  intro c hc; rcases h c hc with rfl | rfl | rfl <;> decide

theorem scanNumber_nat (fe : FloatEnv) (neg : Bool) (n : Nat) {rest : PyStr} (h : Delim rest) :
    scanNumber fe neg (natStr n ++ rest) = some (.int (if neg then -(n : Int) else n), rest) := by
  unfold scanNumber
  rw [scanIntPart_spec (natStr_intPart n) h.notDigit]
  simp only [scanFrac_delim h.noFrac, scanExp_delim h.noExp, natOfDigits_natStr, and_self, if_true]

/-! ### atoms -/

theorem stripLit_ne {a b : Nat} {l s : PyStr} (h : a ≠ b) : stripLit (a :: l) (b :: s) = none := by
  unfold stripLit
  rw [if_neg]
  simp only [List.length_cons, List.take_succ_cons, List.cons.injEq, not_and]
  exact fun hh => absurd hh.symm h

theorem stripLit_ne2 {a b c : Nat} {l s : PyStr} (h : a ≠ b) :
    stripLit (c :: a :: l) (c :: b :: s) = none := by
  unfold stripLit
  rw [if_neg]
  simp only [List.length_cons, List.take_succ_cons, List.cons.injEq, true_and, not_and]
  exact fun hh => absurd hh.symm h

theorem stripLit_append (l s : PyStr) : stripLit l (l ++ s) = some s := by
  simp [stripLit]

/-- A non-negative number is scanned as a number. -/
theorem scanAtom_digit (fe : FloatEnv) {d : Nat} (s : PyStr) (h : isDigit d = true) :
    scanAtom fe (d :: s) = scanNumber fe false (d :: s) := by
  have hd : 48 ≤ d ∧ d ≤ 57 := by simpa [isDigit] using h
  unfold scanAtom
  rw [stripLit_ne (by omega), stripLit_ne (by omega), stripLit_ne (by omega),
    stripLit_ne (by omega), stripLit_ne (by omega), stripLit_ne (by omega)]
  simp only
  split
  · rename_i heq; cases heq; omega
  · rfl

/-- A negative number is scanned as a number. -/
theorem scanAtom_minus (fe : FloatEnv) {d : Nat} (s : PyStr) (h : isDigit d = true) :
    scanAtom fe (45 :: d :: s) = scanNumber fe true (d :: s) := by
  have hd : 48 ≤ d ∧ d ≤ 57 := by simpa [isDigit] using h
  unfold scanAtom
  rw [stripLit_ne (by omega), stripLit_ne (by omega), stripLit_ne (by omega),
    stripLit_ne (by omega), stripLit_ne (by omega), stripLit_ne2 (by omega)]
  simp only

/-! ### floats -/

/-- What the external conversions must satisfy: the `repr` of a finite float is a JSON number with
a fraction or an exponent, and reading it back gives the same float. -/
structure FloatLaws (fe : FloatEnv) : Prop where
  shape : ∀ f : F64, f.isFinite = true → ∃ (neg : Bool) (ip fp ep : PyStr),
    fe.repr f = (if neg then [45] else []) ++ ip ++ fp ++ ep ∧ IntPart ip ∧
    (fp = [] ∨ ∃ d t, fp = 46 :: d :: t ∧ isDigit d = true ∧ ∀ x ∈ t, isDigit x = true) ∧
    (ep = [] ∨ ∃ e g d t, ep = e :: g :: d :: t ∧ (e = 101 ∨ e = 69) ∧ (g = 43 ∨ g = 45) ∧
      isDigit d = true ∧ ∀ x ∈ t, isDigit x = true) ∧ ¬ (fp = [] ∧ ep = [])
  parse : ∀ f : F64, f.isFinite = true → fe.parse (fe.repr f) = f

theorem scanFrac_spec {d : Nat} {t rest : PyStr} (hd : isDigit d = true)
    (ht : ∀ x ∈ t, isDigit x = true) (hr : ∀ c, rest.head? = some c → isDigit c = false) :
    scanFrac (46 :: d :: t ++ rest) = (46 :: d :: t, rest) := by
  simp only [List.cons_append, scanFrac]
  rw [if_pos hd, (takeWhile_digits ht hr).1, (takeWhile_digits ht hr).2]

theorem scanExp_spec {e g d : Nat} {t rest : PyStr} (he : e = 101 ∨ e = 69) (hg : g = 43 ∨ g = 45)
    (hd : isDigit d = true)
    (ht : ∀ x ∈ t, isDigit x = true) (hr : ∀ c, rest.head? = some c → isDigit c = false) :
    scanExp (e :: g :: d :: t ++ rest) = (e :: g :: d :: t, rest) := by
  simp only [List.cons_append, scanExp]
  have h := takeWhile_digits (t := d :: t) (rest := rest)
    (fun x hx => by rcases List.mem_cons.mp hx with rfl | hx; exact hd; exact ht x hx) hr
  simp only [List.cons_append] at h
  rw [if_pos he, if_pos hg, h.1, h.2, if_neg (by simp)]

theorem scanNumber_float (fe : FloatEnv) (neg : Bool) {ip fp ep rest : PyStr} (hip : IntPart ip)
    (hfp : fp = [] ∨ ∃ d t, fp = 46 :: d :: t ∧ isDigit d = true ∧ ∀ x ∈ t, isDigit x = true)
    (hep : ep = [] ∨ ∃ e g d t, ep = e :: g :: d :: t ∧ (e = 101 ∨ e = 69) ∧ (g = 43 ∨ g = 45) ∧
      isDigit d = true ∧ ∀ x ∈ t, isDigit x = true)
    (hne : ¬ (fp = [] ∧ ep = [])) (h : Delim rest) :
    scanNumber fe neg (ip ++ (fp ++ (ep ++ rest))) =
      some (.float (fe.parse ((if neg then [45] else []) ++ ip ++ fp ++ ep)), rest) := by
  have hep1 : ∀ c, (ep ++ rest).head? = some c → isDigit c = false ∧ c ≠ 46 := by
    intro c hc
    rcases hep with rfl | ⟨e, g, d, t, rfl, he, -⟩
    · exact ⟨h.notDigit c hc, h.noFrac c hc⟩
    · simp at hc; subst hc
      rcases he with rfl | rfl <;> decide
  have hfp1 : ∀ c, (fp ++ (ep ++ rest)).head? = some c → isDigit c = false := by
    intro c hc
    rcases hfp with rfl | ⟨d, t, rfl, -⟩
    · exact (hep1 c hc).1
    · simp at hc; subst hc; decide
  have hF : scanFrac (fp ++ (ep ++ rest)) = (fp, ep ++ rest) := by
    rcases hfp with rfl | ⟨d, t, rfl, hd, ht⟩
    · exact scanFrac_delim (fun c hc => (hep1 c hc).2)
    · exact scanFrac_spec hd ht (fun c hc => (hep1 c hc).1)
  have hE : scanExp (ep ++ rest) = (ep, rest) := by
    rcases hep with rfl | ⟨e, g, d, t, rfl, he, hg, hd, ht⟩
    · exact scanExp_delim h.noExp
    · exact scanExp_spec he hg hd ht h.notDigit
  unfold scanNumber
  rw [scanIntPart_spec hip hfp1]
  simp only [hF, hE]
  rw [if_neg hne]

theorem F64.inf_cases {f : F64} (h1 : f.isNaN = false) (h2 : f.isFinite = false) :
    (f.sign = 1 → f = f64NegInf) ∧ (f.sign ≠ 1 → f = f64Inf) := by
  unfold F64.isNaN at h1
  unfold F64.isFinite at h2
  have he : f.expo = 2047 := by simpa using h2
  have hm : f.mant = 0 := by simpa [he] using h1
  have hlt := f.isLt
  unfold F64.sign F64.expo F64.mant at *
  constructor
  · intro hs; apply Fin.ext; simp only [f64NegInf]; omega
  · intro hs; apply Fin.ext; simp only [f64Inf]; omega

theorem scanAtom_float (fe : FloatEnv) (hl : FloatLaws fe) (f : F64)
    (hf : f.isNaN = true → f = f64NaN) {rest : PyStr} (h : Delim rest) :
    scanAtom fe (floatStr fe f ++ rest) = some (.float f, rest) := by
  unfold floatStr
  split
  · rename_i hn
    rw [hf hn]; rfl
  rename_i hn
  split
  · rename_i hfin
    obtain ⟨neg, ip, fp, ep, hrepr, hip, hfp, hep, hne⟩ := hl.shape f hfin
    have hp := hl.parse f hfin
    obtain ⟨hd, d, t, hdt, -⟩ := id hip
    have hdd : isDigit d = true := hd d (by rw [hdt]; exact List.mem_cons_self)
    rw [hrepr] at hp ⊢
    have key := scanNumber_float fe neg hip hfp hep hne h
    rw [hp] at key
    cases neg with
    | true =>
      simp only [if_true, List.append_assoc, List.nil_append, hdt, List.cons_append]
      rw [scanAtom_minus fe _ hdd]
      simpa [hdt] using key
    | false =>
      simp only [Bool.false_eq_true, if_false, List.nil_append, List.append_assoc, hdt,
        List.cons_append]
      rw [scanAtom_digit fe _ hdd]
      simpa [hdt] using key
  · rename_i hnf
    have := F64.inf_cases (f := f) (by simpa using hn) (by simpa using hnf)
    split
    · rename_i hs; rw [this.1 hs]; rfl
    · rename_i hs; rw [this.2 hs]; rfl

/-! ### values -/

mutual
/-- Values whose dictionaries have no repeated key and whose floats are not a non-canonical NaN:
exactly the values that Python can hold and tell apart. -/
def Val.Wf : Val → Prop
  | .float f => f.isNaN = true → f = f64NaN
  | .list l => Val.WfL l
  | .dict d => (d.map Prod.fst).Nodup ∧ Val.WfD d
  | _ => True
def Val.WfL : List Val → Prop
  | [] => True
  | v :: l => Val.Wf v ∧ Val.WfL l
def Val.WfD : List (PyStr × Val) → Prop
  | [] => True
  | (_, v) :: d => Val.Wf v ∧ Val.WfD d
end

theorem wfD_iff {d : Dict PyStr Val} : Val.WfD d ↔ ∀ kv ∈ d, kv.2.Wf := by
  induction d with
  | nil => simp [Val.WfD]
  | cons p d ih =>
    obtain ⟨k, v⟩ := p
    simp [Val.WfD, ih]

theorem skipWs_of_head {c : Nat} {s : PyStr} (h : isJsonWs c = false) : skipWs (c :: s) = c :: s := by
  simp [skipWs, h]

theorem skipWs_space (s : PyStr) : skipWs (32 :: s) = skipWs s := rfl

/-- What `scanElems` does after an element. -/
def tailElems (fe : FloatEnv) (n : Nat) (acc : List Val) (s : PyStr) : Option (List Val × PyStr) :=
  match skipWs s with
  | 93 :: r => some (acc, r)
  | 44 :: r => scanElems fe n acc (skipWs r)
  | _ => none

theorem scanElems_step {fe : FloatEnv} {n : Nat} {acc : List Val} {s s1 : PyStr} {v : Val}
    (h : scanOnce fe n s = some (v, s1)) :
    scanElems fe (n + 1) acc s = tailElems fe n (acc ++ [v]) s1 := by
  rw [scanElems, h]; rfl

/-- What `scanMembers` does after a member. -/
def tailMembers (fe : FloatEnv) (n : Nat) (acc : Dict PyStr Val) (s : PyStr) :
    Option (Dict PyStr Val × PyStr) :=
  match skipWs s with
  | 125 :: r => some (acc, r)
  | 44 :: r => scanMembers fe n acc (skipWs r)
  | _ => none

theorem scanMembers_step {fe : FloatEnv} {n : Nat} {acc : Dict PyStr Val} {s s1 s2 s3 k : PyStr}
    {v : Val} (h1 : scanString (n + 1) s = some (k, s1)) (h2 : skipWs s1 = 58 :: s2)
    (h3 : scanOnce fe n (skipWs s2) = some (v, s3)) :
    scanMembers fe (n + 1) acc (34 :: s) = tailMembers fe n (Dict.set acc k v) s3 := by
  simp only [scanMembers, h1, h2, h3]; rfl

theorem natStr_head (n : Nat) : ∃ d t, natStr n = d :: t ∧ isDigit d = true := by
  obtain ⟨d, t, h, -⟩ := natStr_shape n
  exact ⟨d, t, h, natStr_digits n d (by rw [h]; exact List.mem_cons_self)⟩

theorem floatStr_head (fe : FloatEnv) (hl : FloatLaws fe) (f : F64) :
    ∃ c t, floatStr fe f = c :: t ∧ (c = 78 ∨ c = 73 ∨ c = 45 ∨ isDigit c = true) := by
  unfold floatStr
  split
  · exact ⟨_, _, rfl, Or.inl rfl⟩
  split
  · rename_i hfin
    obtain ⟨neg, ip, fp, ep, hrepr, ⟨hd, d, t, rfl, -⟩, -⟩ := hl.shape f hfin
    rw [hrepr]
    cases neg with
    | true => exact ⟨45, _, rfl, by simp⟩
    | false => exact ⟨d, _, rfl, Or.inr (Or.inr (Or.inr (hd d List.mem_cons_self)))⟩
  split
  · exact ⟨_, _, rfl, by simp⟩
  · exact ⟨_, _, rfl, by simp⟩

/-- First character of a printed value. -/
theorem print_head (fe : FloatEnv) (hl : FloatLaws fe) (v : Val) :
    ∃ c t, jsonPrint fe v = c :: t ∧ isJsonWs c = false ∧ c ≠ 93 ∧ c ≠ 0xFEFF := by
  have hdig : ∀ d, isDigit d = true → isJsonWs d = false ∧ d ≠ 93 ∧ d ≠ 0xFEFF := by
    intro d hd
    have : 48 ≤ d ∧ d ≤ 57 := by simpa [isDigit] using hd
    refine ⟨?_, by omega, by omega⟩
    simp only [isJsonWs, Bool.or_eq_false_iff, beq_eq_false_iff_ne]; omega
  cases v with
  | none => exact ⟨_, _, rfl, by decide⟩
  | bool b => cases b <;> exact ⟨_, _, rfl, by decide⟩
  | int i =>
    obtain ⟨d, t, h, hd⟩ := natStr_head i.natAbs
    simp only [jsonPrint, intStr]
    split
    · exact ⟨_, _, rfl, by decide⟩
    · exact ⟨d, t, h, hdig d hd⟩
  | float f =>
    obtain ⟨c, t, h, hc⟩ := floatStr_head fe hl f
    refine ⟨c, t, h, ?_⟩
    rcases hc with rfl | rfl | rfl | hc
    · decide
    · decide
    · decide
    · exact hdig c hc
  | str s => exact ⟨34, _, rfl, by decide⟩
  | list l =>
    cases l with
    | nil => exact ⟨_, _, rfl, by decide⟩
    | cons v l => exact ⟨_, _, rfl, by decide⟩
  | dict d =>
    cases d with
    | nil => exact ⟨_, _, rfl, by decide⟩
    | cons p d => exact ⟨_, _, rfl, by decide⟩

theorem printL_delim (fe : FloatEnv) (l : List Val) (rest : PyStr) : Delim (jsonPrintL fe l ++ rest) := by
  intro c hc
  cases l <;> simp [jsonPrintL] at hc <;> simp [← hc]

theorem printD_delim (fe : FloatEnv) (d : List (PyStr × Val)) (rest : PyStr) :
    Delim (jsonPrintD fe d ++ rest) := by
  intro c hc
  cases d with
  | nil => simp [jsonPrintD] at hc; simp [← hc]
  | cons p d => simp [jsonPrintD] at hc; simp [← hc]

theorem atom_not_struct (fe : FloatEnv) (n c : Nat) (s : PyStr) (h1 : c ≠ 34) (h2 : c ≠ 123)
    (h3 : c ≠ 91) : scanOnce fe (n + 1) (c :: s) = scanAtom fe (c :: s) := by
  simp [scanOnce, h1, h2, h3]

mutual
/-- Scanning a printed value returns the value. -/
theorem scan_print (fe : FloatEnv) (hl : FloatLaws fe) : ∀ (v : Val) (n : Nat) (rest : PyStr),
    v.Wf → Delim rest → (jsonPrint fe v).length < n →
    scanOnce fe n (jsonPrint fe v ++ rest) = some (v, rest)
  | v, 0, _, _, _, h => absurd h (by omega)
  | .none, n + 1, rest, _, _, _ => by
    rw [show jsonPrint fe .none ++ rest = 110 :: 117 :: 108 :: 108 :: rest from rfl,
      atom_not_struct fe n _ _ (by decide) (by decide) (by decide)]; rfl
  | .bool true, n + 1, rest, _, _, _ => by
    rw [show jsonPrint fe (.bool true) ++ rest = 116 :: 114 :: 117 :: 101 :: rest from rfl,
      atom_not_struct fe n _ _ (by decide) (by decide) (by decide)]; rfl
  | .bool false, n + 1, rest, _, _, _ => by
    rw [show jsonPrint fe (.bool false) ++ rest = 102 :: 97 :: 108 :: 115 :: 101 :: rest from rfl,
      atom_not_struct fe n _ _ (by decide) (by decide) (by decide)]; rfl
  | .int i, n + 1, rest, _, hr, _ => by
    obtain ⟨d, t, hdt, hd⟩ := natStr_head i.natAbs
    have hd' : 48 ≤ d ∧ d ≤ 57 := by simpa [isDigit] using hd
    simp only [jsonPrint, intStr]
    split
    · have key := scanNumber_nat fe true i.natAbs hr
      rw [hdt] at key ⊢
      simp only [List.cons_append] at key ⊢
      rw [atom_not_struct fe n _ _ (by decide) (by decide) (by decide), scanAtom_minus fe _ hd, key]
      simp only [if_true]
      congr 3; omega
    · have key := scanNumber_nat fe false i.natAbs hr
      rw [hdt] at key ⊢
      simp only [List.cons_append] at key ⊢
      rw [atom_not_struct fe n _ _ (by omega) (by omega) (by omega), scanAtom_digit fe _ hd, key]
      simp only [Bool.false_eq_true, if_false]
      congr 3; omega
  | .float f, n + 1, rest, hw, hr, _ => by
    have key := scanAtom_float fe hl f (by simpa [Val.Wf] using hw) hr
    obtain ⟨c, t, hct, hc⟩ := floatStr_head fe hl f
    simp only [jsonPrint]
    rw [hct] at key ⊢
    simp only [List.cons_append] at key ⊢
    have hcs : c ≠ 34 ∧ c ≠ 123 ∧ c ≠ 91 := by
      rcases hc with rfl | rfl | rfl | hc
      · decide
      · decide
      · decide
      · have : 48 ≤ c ∧ c ≤ 57 := by simpa [isDigit] using hc
        omega
    rw [atom_not_struct fe n _ _ hcs.1 hcs.2.1 hcs.2.2, key]
  | .str s, n + 1, rest, _, _, h => by
    have hlen := jsonStr_length s
    simp only [jsonPrint] at h ⊢
    rw [jsonStr_append, scanOnce, if_pos rfl, scanString_print s (n + 1) rest (by omega)]
    rfl
  | .list [], n + 1, rest, _, _, _ => by
    simp [jsonPrint, scanOnce, skipWs, isJsonWs]
  | .list (v :: l), n + 1, rest, hw, hr, h => by
    simp only [Val.Wf, Val.WfL] at hw
    simp only [jsonPrint, List.length_cons, List.length_append] at h
    obtain ⟨c, t, hct, hc1, hc2, -⟩ := print_head fe hl v
    have hpos : 0 < (jsonPrintL fe l).length := by cases l <;> simp [jsonPrintL]
    obtain ⟨n, rfl⟩ : ∃ m, n = m + 1 := ⟨n - 1, by omega⟩
    have ih := scan_print fe hl v n (jsonPrintL fe l ++ rest) hw.1 (printL_delim fe l rest)
      (by omega)
    have ihl := scan_printL fe hl l n [v] rest hw.2 hr (by omega)
    simp only [jsonPrint, List.cons_append, List.append_assoc]
    rw [scanOnce, if_neg (by decide), if_neg (by decide), if_pos rfl]
    have hsk : skipWs (jsonPrint fe v ++ (jsonPrintL fe l ++ rest)) =
        jsonPrint fe v ++ (jsonPrintL fe l ++ rest) := by
      rw [hct]; exact skipWs_of_head hc1
    rw [hsk]
    split
    · rename_i r heq
      rw [hct] at heq
      simp only [List.cons_append, List.cons.injEq] at heq
      exact absurd heq.1 hc2
    · rw [scanElems_step ih, List.nil_append, ihl]; rfl
  | .dict [], n + 1, rest, _, _, _ => by
    simp [jsonPrint, scanOnce, skipWs, isJsonWs]
  | .dict ((k, v) :: d), n + 1, rest, hw, hr, h => by
    simp only [Val.Wf, Val.WfD, List.map_cons, List.nodup_cons] at hw
    simp only [jsonPrint, List.length_cons, List.length_append] at h
    have hklen := jsonStr_length k
    obtain ⟨c, t, hct, hc1, hc2, -⟩ := print_head fe hl v
    have hpos : 0 < (jsonPrintD fe d).length := by
      cases d with
      | nil => simp [jsonPrintD]
      | cons p d => simp [jsonPrintD]
    obtain ⟨n, rfl⟩ : ∃ m, n = m + 1 := ⟨n - 1, by omega⟩
    have ih := scan_print fe hl v n (jsonPrintD fe d ++ rest) hw.2.1 (printD_delim fe d rest)
      (by omega)
    have ihd := scan_printD fe hl d n [(k, v)] rest hw.2.2 ⟨hw.1.2, by simpa using hw.1.1⟩ hr (by omega)
    simp only [jsonPrint, List.cons_append, List.append_assoc, jsonStr_append]
    rw [scanOnce, if_neg (by decide), if_pos rfl, skipWs_of_head (by decide)]
    have hsk : skipWs (32 :: (jsonPrint fe v ++ (jsonPrintD fe d ++ rest))) =
        jsonPrint fe v ++ (jsonPrintD fe d ++ rest) := by
      rw [hct, skipWs_space]; exact skipWs_of_head hc1
    split
    · rename_i heq; cases heq
    · rw [scanMembers_step (scanString_print k (n + 1) _ (by omega)) (skipWs_of_head (by decide))
        (by rw [hsk]; exact ih)]
      simp only [Dict.set]
      rw [ihd]; rfl
/-- Scanning what follows the first element of a list. -/
theorem scan_printL (fe : FloatEnv) (hl : FloatLaws fe) : ∀ (l : List Val) (n : Nat)
    (acc : List Val) (rest : PyStr), Val.WfL l → Delim rest → (jsonPrintL fe l).length ≤ n →
    tailElems fe n acc (jsonPrintL fe l ++ rest) = some (acc ++ l, rest)
  | [], n, acc, rest, _, _, _ => by
    simp [jsonPrintL, tailElems, skipWs, isJsonWs]
  | v :: l, n, acc, rest, hw, hr, h => by
    simp only [Val.WfL] at hw
    simp only [jsonPrintL, List.length_cons, List.length_append] at h
    obtain ⟨c, t, hct, hc1, hc2, -⟩ := print_head fe hl v
    have hpos : 0 < (jsonPrintL fe l).length := by cases l <;> simp [jsonPrintL]
    obtain ⟨n, rfl⟩ : ∃ m, n = m + 1 := ⟨n - 1, by omega⟩
    have ih := scan_print fe hl v n (jsonPrintL fe l ++ rest) hw.1 (printL_delim fe l rest)
      (by omega)
    have ihl := scan_printL fe hl l n (acc ++ [v]) rest hw.2 hr (by omega)
    simp only [jsonPrintL, List.cons_append, List.append_assoc]
    rw [tailElems, skipWs_of_head (by decide)]
    simp only
    have hsk : skipWs (32 :: (jsonPrint fe v ++ (jsonPrintL fe l ++ rest))) =
        jsonPrint fe v ++ (jsonPrintL fe l ++ rest) := by
      rw [hct, skipWs_space]; exact skipWs_of_head hc1
    rw [hsk, scanElems_step ih, ihl]
    simp
/-- Scanning what follows the first member of an object. -/
theorem scan_printD (fe : FloatEnv) (hl : FloatLaws fe) : ∀ (d : List (PyStr × Val)) (n : Nat)
    (acc : List (PyStr × Val)) (rest : PyStr), Val.WfD d →
    ((d.map Prod.fst).Nodup ∧ ∀ k ∈ acc.map Prod.fst, k ∉ d.map Prod.fst) →
    Delim rest → (jsonPrintD fe d).length ≤ n →
    tailMembers fe n acc (jsonPrintD fe d ++ rest) = some (acc ++ d, rest)
  | [], n, acc, rest, _, _, _, _ => by
    simp [jsonPrintD, tailMembers, skipWs, isJsonWs]
  | (k, v) :: d, n, acc, rest, hw, hk, hr, h => by
    simp only [Val.WfD] at hw
    simp only [List.map_cons, List.nodup_cons, List.mem_cons, not_or] at hk
    simp only [jsonPrintD, List.length_cons, List.length_append] at h
    have hklen := jsonStr_length k
    obtain ⟨c, t, hct, hc1, hc2, -⟩ := print_head fe hl v
    have hpos : 0 < (jsonPrintD fe d).length := by
      cases d with
      | nil => simp [jsonPrintD]
      | cons p d => simp [jsonPrintD]
    obtain ⟨n, rfl⟩ : ∃ m, n = m + 1 := ⟨n - 1, by omega⟩
    have ih := scan_print fe hl v n (jsonPrintD fe d ++ rest) hw.1 (printD_delim fe d rest)
      (by omega)
    have hset : Dict.set acc k v = acc ++ [(k, v)] :=
      Dict.set_of_not_mem (fun hm => (hk.2 k hm).1 rfl)
    have ihd := scan_printD fe hl d n (acc ++ [(k, v)]) rest hw.2
      ⟨hk.1.2, by
        intro x hx
        simp only [List.map_append, List.mem_append, List.map_cons, List.map_nil,
          List.mem_singleton] at hx
        rcases hx with hx | rfl
        · exact (hk.2 x hx).2
        · exact hk.1.1⟩ hr (by omega)
    simp only [jsonPrintD, List.cons_append, List.append_assoc, jsonStr_append]
    rw [tailMembers, skipWs_of_head (by decide)]
    simp only
    have hsp : ∀ s : PyStr, skipWs (32 :: 34 :: s) = 34 :: s := by
      intro s; simp [skipWs, isJsonWs]
    rw [hsp]
    have hsk : skipWs (32 :: (jsonPrint fe v ++ (jsonPrintD fe d ++ rest))) =
        jsonPrint fe v ++ (jsonPrintD fe d ++ rest) := by
      rw [hct, skipWs_space]; exact skipWs_of_head hc1
    rw [scanMembers_step (scanString_print k (n + 1) _ (by omega)) (skipWs_of_head (by decide))
        (by rw [hsk]; exact ih), hset, ihd]
    simp
end

theorem jsonParse_print (fe : FloatEnv) (hl : FloatLaws fe) (v : Val) (h : v.Wf) :
    jsonParse fe (jsonPrint fe v) = .ok v := by
  obtain ⟨c, t, hct, hc1, -, hc3⟩ := print_head fe hl v
  have key := scan_print fe hl v ((jsonPrint fe v).length + 1) [] h (by intro c hc; simp at hc)
    (by omega)
  rw [List.append_nil] at key
  unfold jsonParse
  have hbom : (jsonPrint fe v).head? ≠ some 0xFEFF := by
    rw [hct]; simpa using hc3
  have hsk : skipWs (jsonPrint fe v) = jsonPrint fe v := by rw [hct]; exact skipWs_of_head hc1
  rw [if_neg hbom, hsk, key]
  simp [skipWs]

end Psion
