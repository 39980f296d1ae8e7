import Verif.OAuth.Prog

/-!
# Reasoning about coroutines

`Wp A S Q h p`: after the operations `h`, whenever the answers satisfy `A`, every operation that `p` performs satisfies `S`
(together with the operations before it), and `p` can only end with a value that satisfies `Q`.
-/

namespace Psion

variable {α β : Type}

/-- Weakest precondition of a coroutine. -/
def Wp (A : List Ev → Ev → Prop) (S : List Ev → Op → Prop) (Q : List Ev → α → Prop) :
    List Ev → Prog α → Prop
  | h, .done a => Q h a
  | h, .op o k => S h o ∧ ∀ r : ORes o.Ans, A h ⟨o, r⟩ → Wp A S Q (h ++ [⟨o, r⟩]) (k r)

variable {A : List Ev → Ev → Prop} {S S' : List Ev → Op → Prop}

theorem wp_mono {Q Q' : List Ev → α → Prop} (hS : ∀ h o, S h o → S' h o) (hQ : ∀ h a, Q h a → Q' h a)
    (p : Prog α) : ∀ h, Wp A S Q h p → Wp A S' Q' h p := by
  induction p with
  | done a => intro h hw; exact hQ h a hw
  | op o k ih => intro h hw; exact ⟨hS h o hw.1, fun r hr => ih r _ (hw.2 r hr)⟩

theorem wp_bind {Q : List Ev → β → Prop} (f : α → Prog β) (p : Prog α) :
    ∀ h, Wp A S Q h (Prog.bind p f) ↔ Wp A S (fun h a => Wp A S Q h (f a)) h p := by
  induction p with
  | done a => intro h; exact Iff.rfl
  | op o k ih =>
    intro h
    simp only [Prog.bind, Wp]
    exact and_congr Iff.rfl (forall_congr' fun r => imp_congr_right fun _ => ih r _)

/-- All answers of a trace satisfy `A`. -/
def Answers (A : List Ev → Ev → Prop) (h tr : List Ev) : Prop :=
  ∀ pre ev post, tr = pre ++ ev :: post → A (h ++ pre) ev

theorem answers_cons {h tr : List Ev} {ev : Ev} (H : Answers A h (ev :: tr)) :
    A h ev ∧ Answers A (h ++ [ev]) tr := by
  refine ⟨?_, ?_⟩
  · have := H [] ev tr rfl
    simpa using this
  · intro pre e post heq
    have := H (ev :: pre) e post (by simp [heq])
    simpa using this

theorem wp_exec {Q : List Ev → α → Prop} {p : Prog α} {tr : List Ev} {a : α} (he : Exec p tr a) :
    ∀ h, Wp A S Q h p → Answers A h tr → Q (h ++ tr) a := by
  induction he with
  | done a => intro h hw _; simpa [Wp] using hw
  | op o k r tr a _ ih =>
    intro h hw ha
    have h2 := ih (h ++ [⟨o, r⟩]) (hw.2 r (answers_cons ha).1) (answers_cons ha).2
    simpa using h2

theorem wp_partial {Q : List Ev → α → Prop} {p : Prog α} {tr : List Ev} (he : Partial p tr) :
    ∀ h, Wp A S Q h p → Answers A h tr → ∀ pre ev post, tr = pre ++ ev :: post → S (h ++ pre) ev.op := by
  induction he with
  | here p => intro h _ _ pre ev post heq; simp at heq
  | op o k r tr _ ih =>
    intro h hw ha pre ev post heq
    cases pre with
    | nil =>
      simp only [List.nil_append, List.cons.injEq] at heq
      rw [← heq.1]
      simpa using hw.1
    | cons e pre =>
      simp only [List.cons_append, List.cons.injEq] at heq
      have h2 := ih (h ++ [⟨o, r⟩]) (hw.2 r (answers_cons ha).1) (answers_cons ha).2 pre ev post heq.2
      rw [← heq.1]
      simpa using h2

theorem answers_true {h tr : List Ev} : Answers (fun _ _ => True) h tr := fun _ _ _ _ => trivial

theorem exec_partial {p : Prog α} {tr : List Ev} {a : α} (h : Exec p tr a) : Partial p tr := by
  induction h with
  | done a => exact .here _
  | op o k r tr a _ ih => exact .op o k r tr ih

theorem partial_prefix {p : Prog α} {tr tr' : List Ev} (h : Partial p (tr ++ tr')) : Partial p tr := by
  induction tr generalizing p with
  | nil => exact .here _
  | cons e tr ih =>
    cases h with
    | op o k r _ hk => exact .op o k r tr (ih hk)

/-- Every answer of every operation is possible, so a partial trace can be completed. -/
theorem wp_of_traces (p : Prog α) : ∀ h,
    (∀ tr, Partial p tr → Answers A h tr → ∀ pre ev post, tr = pre ++ ev :: post → S (h ++ pre) ev.op) →
    (∀ tr a, Exec p tr a → Answers A h tr → Q (h ++ tr) a) →
    (∀ h o, S h o ∨ ∃ r, A h ⟨o, r⟩) → Wp A S Q h p := by
  induction p with
  | done a =>
    intro h _ h2 _
    have := h2 [] a (.done a) (by intro pre ev post heq; simp at heq)
    simpa [Wp] using this
  | op o k ih =>
    intro h h1 h2 hne
    have hcons : ∀ (r : ORes o.Ans) (tr : List Ev), A h ⟨o, r⟩ → Answers A (h ++ [⟨o, r⟩]) tr →
        Answers A h (⟨o, r⟩ :: tr) := by
      intro r tr hr htr pre ev post heq
      cases pre with
      | nil =>
        simp only [List.nil_append, List.cons.injEq] at heq
        rw [← heq.1]; simpa using hr
      | cons e pre =>
        simp only [List.cons_append, List.cons.injEq] at heq
        have := htr pre ev post heq.2
        rw [← heq.1]; simpa using this
    refine ⟨?_, ?_⟩
    · rcases hne h o with hs | ⟨r, hr⟩
      · exact hs
      · have := h1 [⟨o, r⟩] (.op o k r [] (.here _)) (hcons r [] hr (by intro pre ev post heq; simp at heq))
          [] ⟨o, r⟩ [] rfl
        simpa using this
    · intro r hr
      refine ih r _ ?_ ?_ hne
      · intro tr htr hans pre ev post heq
        have := h1 (⟨o, r⟩ :: tr) (.op o k r tr htr) (hcons r tr hr hans) (⟨o, r⟩ :: pre) ev post (by simp [heq])
        simpa using this
      · intro tr a htr hans
        have := h2 (⟨o, r⟩ :: tr) a (.op o k r tr a htr) (hcons r tr hr hans)
        simpa using this

/-! ## Coroutines that may raise -/

/-- The postcondition that says `Q` of a returned value and `E` of a raised exception. -/
def post (Q : List Ev → α → Prop) (E : List Ev → OExc → Prop) (h : List Ev) : ORes α → Prop
  | .ok a => Q h a
  | .error e => E h e

/-- `Wp` of a coroutine that may raise: `Q` for the value returned, `E` for the exception raised. -/
def WpP (A : List Ev → Ev → Prop) (S : List Ev → Op → Prop) (Q : List Ev → α → Prop)
    (E : List Ev → OExc → Prop) (h : List Ev) (p : P α) : Prop := Wp A S (post Q E) h p

variable {E E' : List Ev → OExc → Prop}

theorem wpp_mono {Q Q' : List Ev → α → Prop} {h : List Ev} {p : P α}
    (hw : WpP A S Q E h p) (hS : ∀ h o, S h o → S' h o) (hQ : ∀ h a, Q h a → Q' h a)
    (hE : ∀ h e, E h e → E' h e) : WpP A S' Q' E' h p := by
  refine wp_mono hS ?_ p h hw
  intro h r hr
  cases r with
  | ok a => exact hQ h a hr
  | error e => exact hE h e hr

theorem wpp_ret {Q : List Ev → α → Prop} {h : List Ev} {a : α} : WpP A S Q E h (P.ret a) ↔ Q h a := Iff.rfl

theorem wpp_raise {Q : List Ev → α → Prop} {h : List Ev} {e : OExc} :
    WpP A S Q E h (P.raise e : P α) ↔ E h e := Iff.rfl

theorem wpp_lift {Q : List Ev → α → Prop} {h : List Ev} {r : ORes α} :
    WpP A S Q E h (P.lift r) ↔ post Q E h r := Iff.rfl

theorem wpp_call {o : Op} {Q : List Ev → o.Ans → Prop} {h : List Ev} :
    WpP A S Q E h (P.call o) ↔
      S h o ∧ (∀ a, A h ⟨o, .ok a⟩ → Q (h ++ [⟨o, .ok a⟩]) a) ∧
        (∀ e, A h ⟨o, .error e⟩ → E (h ++ [⟨o, .error e⟩]) e) := by
  refine and_congr Iff.rfl ⟨fun H => ⟨fun a => H (.ok a), fun e => H (.error e)⟩, fun H r => ?_⟩
  cases r with
  | ok a => exact H.1 a
  | error e => exact H.2 e

theorem wpp_bind {Q : List Ev → β → Prop} {h : List Ev} {p : P α} {f : α → P β} :
    WpP A S Q E h (P.bind p f) ↔ WpP A S (fun h a => WpP A S Q E h (f a)) E h p := by
  unfold WpP P.bind
  rw [wp_bind]
  constructor
  · refine wp_mono (fun _ _ h => h) ?_ p h
    intro h r hr
    cases r <;> exact hr
  · refine wp_mono (fun _ _ h => h) ?_ p h
    intro h r hr
    cases r <;> exact hr

theorem wpp_pbind {γ : Type} {Q : List Ev → β → Prop} {h : List Ev} {p : P γ} {f : ORes γ → P β} :
    WpP A S Q E h (Prog.bind p f) ↔
      WpP A S (fun h a => WpP A S Q E h (f (.ok a))) (fun h e => WpP A S Q E h (f (.error e))) h p := by
  unfold WpP
  rw [wp_bind]
  constructor
  · refine wp_mono (fun _ _ h => h) ?_ p h
    intro h r hr
    cases r <;> exact hr
  · refine wp_mono (fun _ _ h => h) ?_ p h
    intro h r hr
    cases r <;> exact hr

/-- What happens to an exception in `catchOAuth`. -/
def caught (E : List Ev → OExc → Prop) (F : List Ev → OErr → Prop) (h : List Ev) : OExc → Prop
  | .oauth e => F h e
  | .py e => E h (.py e)

theorem wpp_catch {Q : List Ev → α → Prop} {h : List Ev} {p : P α} {f : OErr → P α} :
    WpP A S Q E h (P.catchOAuth p f) ↔ WpP A S Q (caught E (fun h e => WpP A S Q E h (f e))) h p := by
  unfold WpP P.catchOAuth
  rw [wp_bind]
  constructor
  · refine wp_mono (fun _ _ h => h) ?_ p h
    intro h r hr
    rcases r with e | a
    · cases e <;> exact hr
    · exact hr
  · refine wp_mono (fun _ _ h => h) ?_ p h
    intro h r hr
    rcases r with e | a
    · cases e <;> exact hr
    · exact hr

theorem wpp_finally {Q : List Ev → α → Prop} {h : List Ev} {p : P α} {q : P Unit} :
    WpP A S Q E h (P.finally_ p q) ↔
      WpP A S (fun h a => WpP A S (fun h _ => Q h a) E h q) (fun h e => WpP A S (fun h _ => E h e) E h q) h p := by
  unfold WpP P.finally_
  rw [wp_bind]
  constructor
  · refine wp_mono (fun _ _ h => h) ?_ p h
    intro h r hr
    rw [wp_bind] at hr
    rcases r with e | a
    · refine wp_mono (fun _ _ h => h) ?_ q h hr
      intro h r hr
      cases r <;> exact hr
    · refine wp_mono (fun _ _ h => h) ?_ q h hr
      intro h r hr
      cases r <;> exact hr
  · refine wp_mono (fun _ _ h => h) ?_ p h
    intro h r hr
    rw [wp_bind]
    rcases r with e | a
    · refine wp_mono (fun _ _ h => h) ?_ q h hr
      intro h r hr
      cases r <;> exact hr
    · refine wp_mono (fun _ _ h => h) ?_ q h hr
      intro h r hr
      cases r <;> exact hr

theorem wpp_ite {Q : List Ev → α → Prop} {h : List Ev} {c : Prop} [Decidable c] {p q : P α} :
    WpP A S Q E h (if c then p else q) ↔ (c → WpP A S Q E h p) ∧ (¬c → WpP A S Q E h q) := by
  by_cases hc : c <;> simp [hc]

theorem post_liftRes {Q : List Ev → α → Prop} {h : List Ev} {r : Res α} :
    post Q E h (liftRes r) ↔ (∀ a, r = .ok a → Q h a) ∧ (∀ e, r = .error e → E h (.py e)) := by
  cases r <;> simp [liftRes, post]

theorem post_iff {Q : List Ev → α → Prop} {h : List Ev} {r : ORes α} :
    post Q E h r ↔ (∀ a, r = .ok a → Q h a) ∧ (∀ e, r = .error e → E h e) := by
  cases r <;> simp [post]

/-! ## From preconditions to executions -/

theorem wpp_exec_ok {Q : List Ev → α → Prop} {p : P α} {tr : List Ev} {a : α} (he : Exec p tr (.ok a))
    (hw : WpP A S Q E [] p) (ha : Answers A [] tr) : Q tr a := by
  have := wp_exec he [] hw ha
  simpa [post] using this

theorem wpp_exec_error {Q : List Ev → α → Prop} {p : P α} {tr : List Ev} {e : OExc} (he : Exec p tr (.error e))
    (hw : WpP A S Q E [] p) (ha : Answers A [] tr) : E tr e := by
  have := wp_exec he [] hw ha
  simpa [post] using this

theorem wpp_partial {Q : List Ev → α → Prop} {p : P α} {tr pre post : List Ev} {ev : Ev} (he : Partial p tr)
    (hw : WpP A S Q E [] p) (ha : Answers A [] tr) (htr : tr = pre ++ ev :: post) : S pre ev.op := by
  have := wp_partial he [] hw ha pre ev post htr
  simpa using this

/-- If nothing that satisfies the test comes after something that satisfies it, then at most one element does. -/
theorem filter_once {β : Type} {t : β → Bool} {l : List β}
    (h : ∀ pre x post, l = pre ++ x :: post → t x = true → ∀ y ∈ pre, t y = false) : (l.filter t).length ≤ 1 := by
  induction l with
  | nil => simp
  | cons a l ih =>
    cases ha : t a with
    | false =>
      rw [List.filter_cons_of_neg (by simp [ha])]
      refine ih ?_
      rintro pre x post rfl hx y hy
      exact h (a :: pre) x post rfl hx y (List.mem_cons_of_mem _ hy)
    | true =>
      rw [List.filter_cons_of_pos ha]
      have : l.filter t = [] := by
        rw [List.filter_eq_nil_iff]
        intro x hx ht
        obtain ⟨pre, post, rfl⟩ := List.append_of_mem hx
        have := h (a :: pre) x post rfl ht a List.mem_cons_self
        rw [ha] at this
        cases this
      rw [this]
      simp

end Psion
