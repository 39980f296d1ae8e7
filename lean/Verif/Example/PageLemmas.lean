import Verif.Example.Pages
import Verif.Example.WebLogin
import Verif.OAuth.RedirectLemmas
import Verif.Spec.Html

/-!
# Lemmas about the pages of the example application
-/

namespace Psion.Example

open Psion Spec

theorem run_append (r : Reader) (a b : PyStr) :
    r.run (a ++ b) = ((r.run a).1 ++ ((r.run a).2.run b).1, ((r.run a).2.run b).2) := by
  induction a generalizing r with
  | nil => cases r <;> simp [Reader.run]
  | cons c a ih =>
    cases r with
    | text got =>
      simp only [List.cons_append, Reader.run]
      split
      · simp [ih]
      · exact ih _
    | tag pieces got =>
      simp only [List.cons_append, Reader.run]
      split
      · simp [ih]
      · split
        · exact ih _
        · exact ih _
    | value pieces got =>
      simp only [List.cons_append, Reader.run]
      split
      · exact ih _
      · exact ih _

theorem escapeChar_plain (c : Nat) : 60 ∉ escapeChar c ∧ 62 ∉ escapeChar c ∧ 34 ∉ escapeChar c ∧ 39 ∉ escapeChar c := by
  unfold escapeChar
  split
  · decide
  split
  · decide
  split
  · decide
  split
  · decide
  split
  · decide
  · simp only [List.mem_singleton]
    omega

theorem escape_plain (s : PyStr) : 60 ∉ escape s ∧ 62 ∉ escape s ∧ 34 ∉ escape s ∧ 39 ∉ escape s := by
  unfold escape
  simp only [List.mem_flatMap, not_exists, not_and]
  exact ⟨fun c _ => (escapeChar_plain c).1, fun c _ => (escapeChar_plain c).2.1, fun c _ => (escapeChar_plain c).2.2.1,
    fun c _ => (escapeChar_plain c).2.2.2⟩

theorem unref_other {c : Nat} {s : PyStr} (h : c ≠ 38) : unref (c :: s) = c :: unref s := by
  conv => lhs; unfold unref
  split <;> simp_all

theorem unref_escape (s : PyStr) : unref (escape s) = s := by
  induction s with
  | nil => rfl
  | cons c s ih =>
    have hs : escape (c :: s) = escapeChar c ++ escape s := rfl
    rw [hs]
    unfold escapeChar
    split
    · subst c; simp [unref, ih]
    split
    · subst c; simp [unref, ih]
    split
    · subst c; simp [unref, ih]
    split
    · subst c; simp [unref, ih]
    split
    · subst c; simp [unref, ih]
    · rename_i h _ _ _ _
      rw [List.singleton_append, unref_other h, ih]

theorem run_text {got s : PyStr} (h : 60 ∉ s) : (Reader.text got).run s = ([], .text (s.reverse ++ got)) := by
  induction s generalizing got with
  | nil => rfl
  | cons c s ih =>
    simp only [List.mem_cons, not_or] at h
    simp only [Reader.run]
    rw [if_neg (Ne.symm h.1), ih h.2]
    simp

theorem run_value {pieces : List PyStr} {got s : PyStr} (h : 34 ∉ s) :
    (Reader.value pieces got).run s = ([], .value pieces (s.reverse ++ got)) := by
  induction s generalizing got with
  | nil => rfl
  | cons c s ih =>
    simp only [List.mem_cons, not_or] at h
    simp only [Reader.run]
    rw [if_neg (Ne.symm h.1), ih h.2]
    simp

/-- A text is read as it was. -/
theorem run_escape_text (s : PyStr) (rest : PyStr) :
    (Reader.text []).run (escape s ++ 60 :: rest) =
      (.text s :: ((Reader.tag [] []).run rest).1, ((Reader.tag [] []).run rest).2) := by
  rw [run_append, run_text (escape_plain s).1]
  simp [Reader.run, unref_escape]

/-- An attribute value is read as it was. -/
theorem run_escape_value (pieces : List PyStr) (s : PyStr) (rest : PyStr) :
    (Reader.value pieces []).run (escape s ++ 34 :: rest) = (Reader.tag (pieces ++ [s]) []).run rest := by
  rw [run_append, run_value (escape_plain s).2.2.1]
  simp [Reader.run, unref_escape]

theorem run_written_text (s : Option PyStr) (rest : PyStr) :
    (Reader.text []).run (written s ++ 60 :: rest) =
      (.text (s.getD (py! "None")) :: ((Reader.tag [] []).run rest).1, ((Reader.tag [] []).run rest).2) := by
  cases s with
  | none =>
    have : written none = escape (py! "None") := by decide
    rw [this, run_escape_text]
    rfl
  | some s => exact run_escape_text s rest

/-! ## The error page -/

/-- The error page up to the description. -/
def errorHead : PyStr :=
  baseStart ++ (py! "    <title>" ++ escape (py! "Error") ++ py! " - Psion</title>") ++ baseLink ++ [] ++ baseBody ++
    py! "\n<strong>Description: </strong><span>"

/-- The error page from the description to the error code. -/
def errorMid : PyStr := py! "/span>\n<br>\n<strong>Error code: </strong><span>"

/-- The error page after the error code. -/
def errorTail : PyStr := py! "/span>\n" ++ baseEnd

/-- The pieces of `errorHead` before the label. -/
def errorBefore : List Piece := ((Reader.text []).run errorHead).1.take 24

/-- The pieces of `errorTail`. -/
def errorAfter : List Piece := ((Reader.tag [] []).run errorTail).1 ++ ((Reader.tag [] []).run errorTail).2.finish

theorem errorHead_run : (Reader.text []).run errorHead =
    (errorBefore ++ [.text (py! "Description: "), .tag [py! "/strong"], .text [], .tag [py! "span"]], .text []) := by decide +kernel

theorem errorMid_run : (Reader.tag [] []).run errorMid =
    ([.tag [py! "/span"], .text (py! "\n"), .tag [py! "br"], .text (py! "\n"), .tag [py! "strong"], .text (py! "Error code: "),
      .tag [py! "/strong"], .text [], .tag [py! "span"]], .text []) := by decide +kernel

theorem errorPage_read (req : WebRequest) : readHtml (errorPage req) =
    errorBefore ++ .text (py! "Description: ") :: .tag [py! "/strong"] :: .text [] :: .tag [py! "span"] ::
      .text ((Dict.get (queryParams req) (py! "error_description")).getD (py! "None")) :: .tag [py! "/span"] :: .text (py! "\n") ::
      .tag [py! "br"] :: .text (py! "\n") :: .tag [py! "strong"] :: .text (py! "Error code: ") ::
      .tag [py! "/strong"] :: .text [] :: .tag [py! "span"] ::
      .text ((Dict.get (queryParams req) (py! "error")).getD (py! "None")) :: errorAfter := by
  generalize hd : Dict.get (queryParams req) (py! "error_description") = d
  generalize he : Dict.get (queryParams req) (py! "error") = e
  have hp : errorPage req = errorHead ++ (written d ++ 60 :: (errorMid ++ (written e ++ 60 :: errorTail))) := by
    unfold errorPage basePage errorMain errorHead errorMid errorTail
    rw [hd, he]
    simp only [List.append_assoc, List.cons_append, List.nil_append]
  unfold readHtml
  rw [hp, run_append (.text []) errorHead, errorHead_run, run_written_text, run_append (.tag [] []) errorMid, errorMid_run,
    run_written_text]
  simp [errorAfter]

theorem beside_append {label : PyStr} {a l : List Piece} (h : ∀ p ∈ a, p ≠ .text label) : beside label (a ++ l) = beside label l := by
  induction a with
  | nil => rfl
  | cons p a ih =>
    rw [List.cons_append, beside, if_neg, ih (fun q hq => h q (List.mem_cons_of_mem _ hq))]
    intro heq
    exact h p List.mem_cons_self (List.cons.inj heq).1

theorem pairs_blank {d : Dict PyStr PyStr} {ps : List PyStr} (h : urlencodePairs d = .ok ps) : ps.filterMap parsePairBlank = d := by
  induction d generalizing ps with
  | nil => cases h; rfl
  | cons p d ih =>
    obtain ⟨k, v⟩ := p
    simp only [urlencodePairs] at h
    split at h
    · cases h
    rename_i k' hk
    split at h
    · cases h
    rename_i v' hv
    split at h
    · cases h
    rename_i ps' hps
    cases h
    rw [List.filterMap_cons, parsePairBlank_quoted hk hv, ih hps]

/-- The framework reads an encoded query string as the dictionary it was made from. -/
theorem queryParams_encoded {d : Dict PyStr PyStr} {ps : List PyStr} {req : WebRequest} (h : urlencodePairs d = .ok ps)
    (hd : Dict.Ok d) (hq : req.query = joinWith [38] ps) : queryParams req = d := by
  unfold queryParams
  rw [hq]
  cases ps with
  | nil =>
    have := (urlencodePairs_spec h).2.2.1
    cases d with
    | nil => decide
    | cons p d => cases this
  | cons p ps =>
    rw [splitOn_join _ (urlencodePairs_spec h).2.1 (List.cons_ne_nil _ _), pairs_blank h, Dict.ofPairs_ok hd]

theorem error_location {url : PyStr} {x : OErr} {r : Response} (h : errorRedirect url x = .ok r) (h1 : 63 ∉ url) (h2 : 35 ∉ url) :
    ∃ base q, quotePlus locSafe url = .ok base ∧ location r = some (base ++ py! "?" ++ q) ∧
      ∀ er : WebRequest, er.query = urlQuery (base ++ py! "?" ++ q) → queryParams er = someEntries x.params := by
  unfold errorRedirect at h
  split at h
  · cases h
  rename_i u hu
  obtain ⟨ps, hps, rfl⟩ := urlencode_ok_iff hu
  have hx : someEntries x.dump = someEntries x.params := by rw [dump_eq, someEntries_dropNone]
  unfold redirectResponse at h
  split at h
  · cases h
  rename_i loc hloc
  cases h
  obtain ⟨a, b, ha, hb, rfl⟩ := quotePlus_split hloc
  rw [query_location hps] at hb
  cases hb
  refine ⟨a, joinWith [38] ps, ha, ?_, ?_⟩
  · unfold location
    rw [get_setItem_location]
    simp
  · intro er her
    rw [urlQuery_location hps ha rfl h1 h2] at her
    rw [queryParams_encoded hps (ok_someEntries (ok_dump x)) her, hx]

/-! ## The login page -/

/-- The login page up to the address of the style sheet. -/
def loginHead : PyStr :=
  baseStart ++ (py! "    <title>" ++ escape (py! "Login") ++ py! " - Psion</title>") ++ baseLink ++
    py! "\n<link rel=\"stylesheet\" type=\"text/css\" href=\""

/-- The login page from there to the address of the form. -/
def loginMid : PyStr := py! ">\n" ++ baseBody ++ loginStart ++ py! "        <form action=\""

theorem loginHead_run : ∃ l, (Reader.text []).run loginHead =
    (l, .value [py! "link rel=", py! "stylesheet", py! " type=", py! "text/css", py! " href="] []) ∧ formAction l = none :=
  ⟨((Reader.text []).run loginHead).1, by decide +kernel⟩

theorem loginMid_run (ps : List PyStr) : ∃ l, (Reader.tag ps []).run loginMid = (.tag (ps ++ [[]]) :: l, .value [py! "form action="] []) ∧
    formAction l = none := by
  have h : (Reader.tag ps []).run loginMid =
      (.tag (ps ++ [[]]) :: ((Reader.text []).run loginMid.tail).1, ((Reader.text []).run loginMid.tail).2) := by
    unfold loginMid
    simp [Reader.run]
  have h2 : ((Reader.text []).run loginMid.tail).2 = .value [py! "form action="] [] ∧
    formAction ((Reader.text []).run loginMid.tail).1 = none := by decide +kernel
  exact ⟨_, by rw [h, h2.1], h2.2⟩

theorem formAction_other {t : List PyStr} (m : List Piece) (ht : t.head? ≠ some (py! "form action=")) :
    formAction (.tag t :: m) = formAction m := by
  match t, ht with
  | [], _ => rfl
  | [_], _ => rfl
  | a :: b :: c, ht =>
    simp only [formAction]
    rw [if_neg (fun h => ht (by rw [h]; rfl))]

/-- Only the tags matter. -/
theorem formAction_eq (l : List Piece) : formAction l = formAction ((tags l).map .tag) := by
  induction l with
  | nil => rfl
  | cons p l ih =>
    match p with
    | .text s => exact ih
    | .tag [] => exact ih
    | .tag [_] => exact ih
    | .tag (a :: b :: c) =>
      change formAction (.tag (a :: b :: c) :: l) = formAction (.tag (a :: b :: c) :: (tags l).map .tag)
      simp only [formAction]
      rw [ih]

theorem formAction_append {a l : List Piece} (h : formAction a = none) : formAction (a ++ l) = formAction l := by
  induction a with
  | nil => rfl
  | cons p a ih =>
    match p, h with
    | .text s, h => exact ih h
    | .tag [], h => exact ih h
    | .tag [_], h => exact ih h
    | .tag (t :: b :: c), h =>
      simp only [formAction] at h
      split at h
      · cases h
      · rename_i hn
        rw [List.cons_append]
        simp only [formAction]
        rw [if_neg hn]
        exact ih h

end Psion.Example
