import Verif.OAuth.AuthLemmas
import Verif.Py.DictLemmas

/-!
# Hooks, words and dictionaries: lemmas
-/

namespace Psion

open Spec

variable {α β : Type} {A : List Ev → Ev → Prop} {S : List Ev → Op → Prop} {E : List Ev → OExc → Prop}

/-! ## Executions -/

theorem wp_answers {A A' : List Ev → Ev → Prop} {Q : List Ev → α → Prop} (hA : ∀ h ev, A' h ev → A h ev)
    (p : Prog α) : ∀ h, Wp A S Q h p → Wp A' S Q h p := by
  induction p with
  | done a => intro h hw; exact hw
  | op o k ih => intro h hw; exact ⟨hw.1, fun r hr => ih r _ (hw.2 r (hA _ _ hr))⟩

/-- A coroutine satisfies the precondition that says everything about its executions. -/
theorem wpp_self {p : P α} {h : List Ev} (hS : ∀ pre ev post, Partial p (pre ++ ev :: post) → S (h ++ pre) ev.op) :
    WpP A S (fun h' a => ∃ tr, h' = h ++ tr ∧ Exec p tr (.ok a))
      (fun h' e => ∃ tr, h' = h ++ tr ∧ Exec p tr (.error e)) h p := by
  refine wp_answers (A := fun _ _ => True) (fun _ _ _ => trivial) p h ?_
  refine wp_of_traces p h ?_ ?_ (fun h o => Or.inr ⟨.error (.py .typeErr), trivial⟩)
  · rintro tr htr - pre ev post rfl
    exact hS pre ev post htr
  · intro tr a htr _
    cases a with
    | ok a => exact ⟨tr, rfl, htr⟩
    | error e => exact ⟨tr, rfl, htr⟩

/-- No operation of the trace is about stored codes or tokens. -/
def Quiet (tr : List Ev) : Prop := ∀ ev ∈ tr, touchesStore ev.op = false

theorem quiet_nil : Quiet [] := fun _ h => absurd h List.not_mem_nil

theorem quiet_append {a b : List Ev} (ha : Quiet a) (hb : Quiet b) : Quiet (a ++ b) := fun ev h =>
  (List.mem_append.mp h).elim (ha ev) (hb ev)

/-- An exception raised by one of the hooks, during a part of the operations `h`. The hook was given a dictionary that agrees with `acc0`
on the reserved members. -/
def HookRaises (reserved : List PyStr) (l : List (Dict PyStr Val → P (Option (Dict PyStr Val)))) (acc0 : Dict PyStr Val)
    (h : List Ev) (e : OExc) : Prop :=
  ∃ f ∈ l, ∃ acc tr, (∀ k ∈ reserved, Dict.get acc k = Dict.get acc0 k) ∧ tr <:+: h ∧ Exec (f acc) tr (.error e)

theorem hookRaises_mono {reserved : List PyStr} {l : List (Dict PyStr Val → P (Option (Dict PyStr Val)))}
    {acc0 : Dict PyStr Val} {h h' : List Ev} {e : OExc} (H : HookRaises reserved l acc0 h e) (hs : h <:+: h') :
    HookRaises reserved l acc0 h' e := by
  obtain ⟨f, hf, acc, tr, h1, h2, h3⟩ := H
  exact ⟨f, hf, acc, tr, h1, h2.trans hs, h3⟩

theorem get_updateHook {reserved : List PyStr} {acc : Dict PyStr Val} {r : Option (Dict PyStr Val)}
    (h : ∀ d, r = some d → ∀ k ∈ reserved, Dict.get d k = none) :
    ∀ k ∈ reserved, Dict.get (updateHook acc r) k = Dict.get acc k := by
  intro k hk
  cases r with
  | none => rfl
  | some d =>
    have := h d rfl k hk
    rw [Dict.get_eq_none_iff] at this
    clear h
    unfold updateHook
    dsimp only
    induction d generalizing acc with
    | nil => rfl
    | cons p d ih =>
      simp only [Dict.keys, List.map_cons, List.mem_cons, not_or] at this
      rw [Dict.update_cons, ih this.2, Dict.get_set_ne]
      exact Ne.symm this.1

/-- Rule for the hooks of a checkpoint. -/
theorem wpp_runHooks {reserved : List PyStr} {l : List (Dict PyStr Val → P (Option (Dict PyStr Val)))}
    (hb : ∀ f ∈ l, ∀ acc, BenignHook reserved (f acc)) (hS : ∀ h o, touchesStore o = false → S h o) :
    ∀ {acc : Dict PyStr Val} {h : List Ev} {Q : List Ev → Dict PyStr Val → Prop} {E : List Ev → OExc → Prop},
    (∀ tr acc', Quiet tr → (∀ k ∈ reserved, Dict.get acc' k = Dict.get acc k) → Q (h ++ tr) acc') →
    (∀ tr e, Quiet tr → HookRaises reserved l acc tr e → E (h ++ tr) e) →
    WpP A S Q E h (runHooks acc l) := by
  induction l with
  | nil =>
    intro acc h Q E hQ _
    have := hQ [] acc quiet_nil (fun _ _ => rfl)
    rw [List.append_nil] at this
    exact this
  | cons f l ih =>
    intro acc h Q E hQ hE
    have hf := hb f List.mem_cons_self acc
    unfold runHooks
    rw [wpp_bind]
    have hq : ∀ tr, Partial (f acc) tr → Quiet tr := fun tr htr ev hev => hf.ops tr htr ev hev
    refine wpp_mono (wpp_self ?_) (fun _ _ h => h) ?_ ?_
    · intro pre ev post hp
      exact hS _ _ (hf.ops _ hp ev (by simp))
    · rintro h' r ⟨tr, rfl, hx⟩
      refine ih (fun g hg => hb g (List.mem_cons_of_mem _ hg)) ?_ ?_
      · intro tr' acc' hq' hk
        rw [List.append_assoc]
        refine hQ (tr ++ tr') acc' (quiet_append (hq _ (exec_partial hx)) hq') ?_
        intro k hk'
        rw [hk k hk', get_updateHook (fun d hd => ?_) k hk']
        subst hd
        exact hf.keys tr d hx
      · rintro tr' e hq' ⟨g, hg, acc', tr2, h1, h2, hr⟩
        rw [List.append_assoc]
        refine hE (tr ++ tr') e (quiet_append (hq _ (exec_partial hx)) hq')
          ⟨g, List.mem_cons_of_mem _ hg, acc', tr2, ?_, h2.trans (List.suffix_append _ _).isInfix, hr⟩
        intro k hk'
        rw [h1 k hk', get_updateHook (fun d hd => ?_) k hk']
        subst hd
        exact hf.keys tr d hx
    · rintro h' e ⟨tr, rfl, hx⟩
      exact hE tr e (hq _ (exec_partial hx)) ⟨f, List.mem_cons_self, acc, tr, fun _ _ => rfl, List.infix_rfl, hx⟩

/-! ## Words -/

theorem splitWsAux_word (v : PyStr) (hv : ∀ c ∈ v, isPySpace c = false) : ∀ w s,
    splitWsAux w (v ++ s) = splitWsAux (w ++ v) s := by
  induction v with
  | nil => intro w s; simp
  | cons c v ih =>
    intro w s
    rw [List.cons_append, splitWsAux, if_neg (by simp [hv c List.mem_cons_self]),
      ih (fun d hd => hv d (List.mem_cons_of_mem _ hd))]
    simp

theorem words_splitWsAux (s : PyStr) : ∀ w, (∀ c ∈ w, isPySpace c = false) →
    Words (w ++ s) (splitWsAux w s) := by
  induction s with
  | nil =>
    intro w hw
    unfold splitWsAux
    split
    · rename_i h; subst h; exact .nil
    · rename_i h; simpa using Words.last w h hw
  | cons c s ih =>
    intro w hw
    unfold splitWsAux
    split
    · rename_i hc
      have hs : Words s (splitWsAux [] s) := by simpa using ih [] (by simp)
      split
      · rename_i h; subst h
        exact .space c s _ hc hs
      · rename_i h
        exact .word w c s _ h hw hc hs
    · rename_i hc
      have := ih (w ++ [c]) (by
        intro d hd
        rcases List.mem_append.mp hd with hd | hd
        · exact hw d hd
        · rw [List.mem_singleton.mp hd]; simpa using hc)
      simpa using this

/-- `str.split()` yields exactly the words of a text. -/
theorem words_iff {s : PyStr} {ws : List PyStr} : Words s ws ↔ splitWs s = ws := by
  constructor
  · intro h
    unfold splitWs
    induction h with
    | nil => rfl
    | space c s ws hc _ ih => rw [splitWsAux, if_pos hc, if_pos rfl, ih]
    | last w hw hs =>
      have := splitWsAux_word w hs [] []
      simp only [List.append_nil, List.nil_append] at this
      rw [this, splitWsAux, if_neg hw]
    | word w c s ws hw hs hc _ ih =>
      rw [splitWsAux_word w hs [] (c :: s), List.nil_append, splitWsAux, if_pos hc, if_neg hw, ih]
  · rintro rfl
    exact words_splitWsAux s [] (by simp)

/-! ## Dictionaries and values -/

theorem Dict.get_del {κ α : Type} [DecidableEq κ] (d : Dict κ α) {k k' : κ} (h : k' ≠ k) :
    Dict.get (Dict.del d k) k' = Dict.get d k' := by
  induction d with
  | nil => rfl
  | cons p d ih =>
    obtain ⟨a, v⟩ := p
    unfold Dict.del at ih ⊢
    rw [List.filter_cons]
    split
    · rw [Dict.get_cons, Dict.get_cons, ih]
    · rename_i hne
      have : a = k := by simpa using hne
      subst this
      rw [ih, Dict.get_cons, if_neg (Ne.symm h)]

theorem blank_eq_false {d : Dict PyStr PyStr} {k : PyStr} :
    blank d k = false ↔ ∃ v, Dict.get d k = some v ∧ v ≠ [] := by
  unfold blank
  match Dict.get d k with
  | none => simp
  | some [] => simp
  | some (c :: s) => simp

theorem blank_eq_true {d : Dict PyStr PyStr} {k : PyStr} :
    blank d k = true ↔ Dict.get d k = none ∨ Dict.get d k = some [] := by
  unfold blank
  match Dict.get d k with
  | none => simp
  | some [] => simp
  | some (c :: s) => simp

theorem pyEq_text {a b : PyStr} : (Val.str a).pyEq (.str b) = true ↔ a = b := by
  simp [Val.pyEq]

theorem inList_str {s : PyStr} {l : List PyStr} : (Val.str s).inList (l.map .str) = true ↔ s ∈ l := by
  unfold Val.inList
  rw [List.any_eq_true]
  constructor
  · rintro ⟨v, hv, h⟩
    obtain ⟨t, ht, rfl⟩ := List.mem_map.mp hv
    rw [pyEq_text] at h
    exact h ▸ ht
  · intro h
    exact ⟨.str s, List.mem_map.mpr ⟨s, h, rfl⟩, pyEq_text.mpr rfl⟩

theorem item_ok {d : Dict PyStr Val} {k : PyStr} {v : Val} (h : Dict.get d k = some v) : item d k = .ok v := by
  unfold item Dict.getItem
  rw [h]; rfl

theorem pyEqL_strs {a b : List PyStr} : Val.pyEqL (a.map .str) (b.map .str) = true ↔ a = b := by
  induction a generalizing b with
  | nil => cases b <;> simp [Val.pyEqL]
  | cons x a ih =>
    cases b with
    | nil => simp [Val.pyEqL]
    | cons y b => simp [Val.pyEqL, pyEq_text, ih]

theorem pyEq_strList {a b : List PyStr} : (strList a).pyEq (strList b) = true ↔ a = b := by
  unfold strList
  rw [Val.pyEq]
  exact pyEqL_strs

end Psion
