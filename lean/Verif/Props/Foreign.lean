import Verif.Example.ForeignLemmas
import Verif.Props.Isolation

/-!
# Property C132: what a client learns of other clients
-/

namespace Psion.Props

open Psion Spec Example

variable {env : OEnv} {table : Hooks} {emailOk : PyStr → Bool} {reqs : Nat → WebRequest} {me : PyStr}

theorem client_me {w w' : WStore} {h : List WStep} {i : Nat} {q : Request} {user : Option User} {methods : Option (List PyStr)}
    {c : Client} (honly : OnlyClient me reqs) (hr : (reqs i).route = .token ∨ (reqs i).route = .revoke) (hrun : WRun env w h w')
    (hq : createRequest (reqs i) user = .ok q) (ha : Authenticated q methods (ofRequest i (libSteps h)) c) : c.clientId = me := by
  obtain ⟨_, c', m, -, -, -, hp, -⟩ := client_sent hrun hq ha
  exact honly.client i user q m _ _ hr hq hp

/-- Refresh tokens are only created and revoked for the client that sends the requests. -/
theorem own_ops (hb : Benign table) (honly : OnlyClient me reqs) {w w' : WStore} {pre post : List WStep} {i : Nat} {ev : WEv}
    (hist : WHistory env table emailOk reqs (pre ++ (i, ev) :: post)) (hrun : WRun env w pre w') : OwnOp me ev.op := by
  obtain ⟨o, ans⟩ := ev
  have happ := hist i
  rw [ofWeb_split] at happ
  have happ := app_op happ
  cases o with
  | lib o =>
    obtain ⟨calls, hist', hcalls⟩ := whistory_calls hist
    have hsplit : libSteps (pre ++ (i, ⟨.lib o, ans⟩) :: post) = libSteps pre ++ (i, ⟨o, ans⟩) :: libSteps post := by
      rw [libSteps_append]; rfl
    rw [hsplit] at hist'
    have hlc := hcalls i (by
      rw [hsplit, ofRequest_split]
      exact List.append_ne_nil_of_right_ne_nil _ (List.cons_ne_nil _ _))
    have hdid := history_did hist'
    cases o with
    | createRefresh c u scopes =>
      obtain ⟨p, q, hcall, g, -, -, -, hau, -⟩ := create_justified hb hist' (Or.inr rfl)
      rw [hcall] at hlc
      obtain ⟨-, hroute, -, user, hq⟩ := hlc
      exact client_me honly (Or.inl hroute) hrun hq hau
    | revoke c t hint =>
      cases hcall : calls i with
      | revoke p q =>
        rw [hcall] at hlc hdid
        obtain ⟨-, hroute, -, user, hq⟩ := hlc
        rcases C53_operations env p q _ _ _ hdid with ⟨id, ho⟩ | ⟨c', t', hint', ho, hau, -⟩
        · cases ho
        · cases ho
          exact client_me honly (Or.inr hroute) hrun hq hau
      | token p q =>
        rw [hcall] at hdid
        exact (C38_other_operations env table hb p q _ _ _ hdid).elim
      | authorize p q =>
        rw [hcall] at hdid
        exact (authorize_op hb hdid).elim
      | consent p q =>
        rw [hcall] at hlc
        exact hlc.elim
    | _ => trivial
  | deleteRefresh uid => exact honly.noLogout i happ.1
  | _ => trivial

theorem alike_question {e e' : WEv} (h : AlikeWEv me e e') : SameQuestion e e' := by
  cases h with
  | same => exact .same _
  | lib o r r' h =>
    cases h with
    | same => exact .same _
    | code v a b => exact .code v _ _
    | refresh t a b => exact .refresh t _ _

theorem alike_questions {h h' : List WStep} (hh : AlikeHistory me h h') : SameQuestions h h' := by
  induction hh with
  | nil => exact .nil
  | cons hab _ ih => exact .cons ⟨hab.1, alike_question hab.2⟩ ih

/-- C132, as far as it holds: if, of the clients, only `me` sends requests, and no user logs out, then no answer of the example
application to any request depends on what is stored with the codes and refresh tokens of other clients (for whom, with which
scopes, which redirect URI, which challenge, until when): in another database, where they say something else, the same requests can
take the same course and get the same answers, and afterwards the two databases still differ only in this. Missing is that the
answers do not depend on which codes and refresh tokens other clients have (`C132_refuted`). -/
theorem C132_partial (hb : Benign table) (honly : OnlyClient me reqs) (w w' w2 : WStore) (h : List WStep)
    (hist : WHistory env table emailOk reqs h) (hrun : WRun env w h w') (hs : AlikeStores me w w2) :
    ∃ h2 w2', AlikeHistory me h h2 ∧ WHistory env table emailOk reqs h2 ∧ WRun env w2 h2 w2' ∧ AlikeStores me w' w2' ∧
      ∀ i out, WExec (app env table emailOk (reqs i)) (ofWeb i h) out → WExec (app env table emailOk (reqs i)) (ofWeb i h2) out := by
  obtain ⟨h2, w2', g1, g2, g3⟩ := alike_run hrun hs (by
    intro s hm
    obtain ⟨pre, post, rfl⟩ := List.append_of_mem hm
    obtain ⟨m, m', hpre, -, -⟩ := wrun_at hrun
    exact own_ops hb honly hist hpre)
  have hfound : ∀ i, ∀ e ∈ ofWeb i h, OfLib FoundById e := by
    rintro i e he o r rfl id c hc
    cases hc
    exact client_at hrun (mem_ofWeb.mp he)
  have hlike : ∀ i, WLike FoundById me (app env table emailOk (reqs i)) (app env table emailOk (reqs i)) := fun i =>
    wlike_app hb fun user q m id s hr hq hp => honly.client i user q m id s (Or.inl hr) hq hp
  refine ⟨h2, w2', g1, ?_, g2, g3, ?_⟩
  · intro i
    exact wlike_partial (hlike i) (hist i) (alike_ofWeb g1 i) (hfound i)
  · intro i out hx
    exact wlike_exec (hlike i) hx (alike_ofWeb g1 i) (hfound i)

/-- C132: the same, in the words of the statement that is refuted below. -/
theorem C132_answers_partial (hb : Benign table) (honly : OnlyClient me reqs) (w w' w2 : WStore) (h : List WStep)
    (hist : WHistory env table emailOk reqs h) (hrun : WRun env w h w') (hs : AlikeStores me w w2) :
    AnsweredAlike env table emailOk reqs h w2 := by
  obtain ⟨h2, w2', g1, g2, g3, -, g4⟩ := C132_partial hb honly w w' w2 h hist hrun hs
  exact ⟨h2, w2', alike_questions g1, g2, g3, g4⟩

/-! ## The counterexample -/

/-- A complete request of the other client with the code of the first one. -/
def foreignReq : WebRequest :=
  { isoReq with body := by! "grant_type=authorization_code&code=abc&redirect_uri=https%3A%2F%2Fd%2Fcb&code_verifier=v" }

/-- The database without the code. -/
def foreignStore : WStore := { isoStore with db := { isoStore.db with codes := [] } }

/-- A history of this request: it finds its client, looks for the code, and removes it. -/
def foreignHistory (found : Option AuthCode) : List WStep :=
  [(0, ⟨.lib (.findClient (py! "c2")), .ok (some isoClient.client)⟩), (0, ⟨.lib (.getCode (.str (py! "abc"))), .ok found⟩),
    (0, ⟨.lib (.deleteCode (.str (py! "abc"))), .ok ()⟩)]

/-- Does the program take this course and end with such an outcome? -/
def takesCourse {α : Type} (found : Option AuthCode) (good : α → Bool) : WProg α → Bool
  | .op (.lib (.findClient x)) k => decide (x = py! "c2") &&
    match k (.ok (some isoClient.client)) with
    | .op (.lib (.getCode (.str y))) k2 => decide (y = py! "abc") &&
      match k2 (.ok found) with
      | .op (.lib (.deleteCode (.str z))) k3 => decide (z = py! "abc") &&
        match k3 (.ok ()) with
        | .done a => good a
        | _ => false
      | _ => false
    | _ => false
  | _ => false

theorem takesCourse_exec {α : Type} {found : Option AuthCode} {good : α → Bool} {p : WProg α} (h : takesCourse found good p = true) :
    ∃ a, good a = true ∧ WExec p (ofWeb 0 (foreignHistory found)) a := by
  unfold takesCourse at h
  split at h
  · rw [Bool.and_eq_true, decide_eq_true_eq] at h
    obtain ⟨rfl, h⟩ := h
    split at h
    · rename_i h1
      rw [Bool.and_eq_true, decide_eq_true_eq] at h
      obtain ⟨rfl, h⟩ := h
      split at h
      · rename_i h2
        rw [Bool.and_eq_true, decide_eq_true_eq] at h
        obtain ⟨rfl, h⟩ := h
        split at h
        · rename_i a h3
          refine ⟨a, h, .op _ _ _ _ _ ?_⟩
          rw [h1]
          refine .op _ _ _ _ _ ?_
          rw [h2]
          refine .op _ _ _ _ _ ?_
          rw [h3]
          exact .done _
        · cases h
      · cases h
    · cases h
  · cases h

/-- Is the outcome this error? -/
def isError (body : Bytes) : ORes Served → Bool
  | .ok ⟨.response status _ b, _⟩ => decide (status = 400 ∧ b = body)
  | _ => false

theorem foreign_found : ∃ out, isError (by! "{\"error\": \"invalid_grant\", \"error_description\": \"Mismatching Client ID.\"}") out = true ∧
    WExec (app toyEnv (exHooks toyEnv) (fun _ => true) foreignReq) (ofWeb 0 (foreignHistory (some isoCode.2))) out :=
  takesCourse_exec (by decide +kernel)

theorem foreign_unknown : ∃ out,
    isError (by! "{\"error\": \"invalid_request\", \"error_description\": \"Invalid Authorization Grant.\"}") out = true ∧
    WExec (app toyEnv (exHooks toyEnv) (fun _ => true) foreignReq) (ofWeb 0 (foreignHistory none)) out :=
  takesCourse_exec (by decide +kernel)

theorem foreign_history {found : Option AuthCode} {out : ORes Served}
    (h : WExec (app toyEnv (exHooks toyEnv) (fun _ => true) foreignReq) (ofWeb 0 (foreignHistory found)) out) :
    WHistory toyEnv (exHooks toyEnv) (fun _ => true) (fun _ => foreignReq) (foreignHistory found) := by
  intro i
  by_cases hi : i = 0
  · subst hi
    exact wexec_partial h
  · have : ofWeb i (foreignHistory found) = [] := by
      simp [ofWeb, foreignHistory, Ne.symm hi]
    rw [this]
    exact .here _

theorem foreign_run {w : WStore} (hw : w.db.clients = isoStore.db.clients) :
    WRun toyEnv w (foreignHistory (Dict.get w.db.codes (py! "abc"))) { w with db := Example.deleteCode w.db (.str (py! "abc")) } := by
  refine .step _ w _ _ _ _ ⟨exDraw 0, Or.inl ?_⟩ (.step _ w _ _ _ _ ⟨exDraw 0, Or.inl rfl⟩
    (.step _ _ _ _ _ _ ⟨exDraw 0, Or.inl rfl⟩ (.nil _)))
  have : w.db.findClient (py! "c2") = isoStore.db.findClient (py! "c2") := by
    unfold Store.findClient
    rw [hw]
  simp only [wOp, exOp]
  rw [this]
  rfl

theorem foreign_only : OnlyClient (py! "c2") (fun _ => foreignReq) := by
  refine ⟨?_, fun _ => by decide⟩
  intro i user q m id secret _ hq hp
  have hq := request_init hq
  subst hq
  have hform : Dict.get (Request.form ⟨[], [], [], some foreignReq.body, none⟩) (py! "client_id") = none := by decide +kernel
  cases hp with
  | basic _ secret h =>
    have h := credentials_iff.mpr h
    have : getBasicAuthorization (Dict.ofPairs ((headerDict foreignReq.headers).map (fun kv => (asciiLower kv.1, kv.2)))) =
      .ok (some (py! "c2", py! "t4")) := by decide +kernel
    dsimp only at h
    rw [this] at h
    cases h
    rfl
  | post _ _ h => exact absurd (hform.symm.trans h) nofun
  | none_ _ h => exact absurd (hform.symm.trans h) nofun

/-- Only saving makes codes. -/
theorem still_none {w w' : WStore} {ev : WEv} (he : WEffect env w ev w') (h0 : w.db.codes = [])
    (hs : ∀ code data c u, ev.op ≠ .lib (.saveCode code data c u)) : w'.db.codes = [] := by
  rcases weffect_store he with rfl | ⟨d, rfl⟩
  · exact h0
  obtain ⟨o, ans⟩ := ev
  cases o with
  | lib o =>
    cases o with
    | saveCode code data c u => exact absurd rfl (hs code data c u)
    | deleteCode v =>
      show (Example.deleteCode w.db v).codes = []
      unfold Example.deleteCode
      split
      · dsimp only; rw [h0]; rfl
      · exact h0
    | createRefresh c u scopes =>
      show (createRefresh w.db d c u scopes).1.codes = []
      rcases createRefresh_cases w.db d c u scopes with ⟨h1, -⟩ | ⟨u', token, rfl, -, -, -, h1⟩
      · rw [h1]; exact h0
      · rw [h1]; exact h0
    | getUserinfo user scopes =>
      simp only [wOp, exOp]
      split <;> exact h0
    | _ => exact h0
  | saveSession sid uid =>
    simp only [wOp]
    split <;> exact h0
  | _ => exact h0

/-- Without codes, none is found. -/
theorem no_codes {w w' : WStore} {h : List WStep} (hrun : WRun env w h w') (h0 : w.db.codes = [])
    (hs : ∀ s ∈ h, ∀ code data c u, s.2.op ≠ .lib (.saveCode code data c u)) {i : Nat} {v : Val} {b : Option AuthCode}
    (hm : (i, (⟨.lib (.getCode v), .ok b⟩ : WEv)) ∈ h) : b = none := by
  induction hrun with
  | nil => cases hm
  | step w w' w'' j ev h he _ ih =>
    rcases List.mem_cons.mp hm with h1 | h1
    · cases h1
      obtain ⟨d, he⟩ := he
      have he := Except.ok.inj (congrArg Prod.snd (he.resolve_right (by rintro ⟨⟨n, hn⟩, -⟩; cases hn)))
      rw [← he]
      unfold Store.findCode
      split
      · rw [h0]; rfl
      · rfl
    · exact ih (still_none he h0 (hs _ List.mem_cons_self)) (fun s hm => hs s (List.mem_cons_of_mem _ hm)) h1
  | outside w w' w'' h hout _ ih =>
    refine ih ?_ hs hm
    have := hout.db.codes
    rw [h0] at this
    exact List.sublist_nil.mp this

theorem wexec_unique {α : Type} {p : WProg α} {tr : List WEv} {a b : α} (ha : WExec p tr a) (hb : WExec p tr b) : a = b := by
  induction ha with
  | done a => exact (wexec_done hb).2.symm
  | op o k r t a _ ih =>
    cases hb with
    | op _ _ _ _ _ hb => exact ih hb

/-- C132 is false for the existence of codes and refresh tokens: a client that presents a code learns from the error whether it is
a code of another client (`invalid_grant`, "Mismatching Client ID.") or no code at all (`invalid_request`, "Invalid Authorization
Grant."). -/
theorem C132_refuted : ¬ ∀ (env : OEnv) (table : Hooks) (emailOk : PyStr → Bool) (reqs : Nat → WebRequest) (me : PyStr)
    (_ : Benign table) (_ : OnlyClient me reqs) (w w' w2 : WStore) (h : List WStep) (_ : WHistory env table emailOk reqs h)
    (_ : WRun env w h w') (_ : SameOwn me w w2), AnsweredAlike env table emailOk reqs h w2 := by
  intro H
  obtain ⟨out, hout, hx⟩ := foreign_found
  obtain ⟨out2, hout2, hx2⟩ := foreign_unknown
  obtain ⟨h2, w2', g1, -, g3, g4⟩ := H toyEnv (exHooks toyEnv) (fun _ => true) (fun _ => foreignReq) (py! "c2") (exHooks_benign _)
    foreign_only isoStore _ foreignStore _ (foreign_history hx) (foreign_run rfl) ⟨rfl, rfl, rfl, by decide +kernel, rfl⟩
  have g4 := g4 0 out hx
  have hshape : ∃ found, h2 = foreignHistory found := by
    obtain _ | ⟨⟨i1, q1⟩, _ | ⟨⟨i2, q2⟩, _ | ⟨⟨i3, q3⟩, _ | _⟩⟩⟩ := g1
    rename_i s1 s2 s3 _
    obtain ⟨_, e1⟩ := s1
    obtain ⟨_, e2⟩ := s2
    obtain ⟨_, e3⟩ := s3
    dsimp only at i1 i2 i3 q1 q2 q3
    subst i1 i2 i3
    cases q1
    cases q3
    cases q2 with
    | same => exact ⟨_, rfl⟩
    | code _ _ b => exact ⟨b, rfl⟩
  obtain ⟨found, rfl⟩ := hshape
  have : found = none := by
    refine no_codes (i := 0) (v := .str (py! "abc")) g3 rfl ?_ (by simp [foreignHistory])
    intro s hm code data c u
    simp only [foreignHistory, List.mem_cons, List.not_mem_nil, or_false] at hm
    rcases hm with rfl | rfl | rfl <;> nofun
  subst this
  have := wexec_unique g4 hx2
  subst this
  unfold isError at hout hout2
  split at hout
  · dsimp only at hout2
    have h1 := (of_decide_eq_true hout).2
    have h2 := (of_decide_eq_true hout2).2
    exact absurd (h1.symm.trans h2) (by decide)
  · cases hout

/-- The hypotheses of `C132_partial` hold for this request, and the answer is the error above: it is the same if the code of the other
client says something else. -/
example : AnsweredAlike toyEnv (exHooks toyEnv) (fun _ => true) (fun _ => foreignReq) (foreignHistory (some isoCode.2))
    { isoStore with db := { isoStore.db with
        codes := [(py! "abc", ⟨py! "c1", py! "u7", py! "https://x", [], [], py! "S256", some (py! "n"), 0⟩)] } } := by
  obtain ⟨out, -, hx⟩ := foreign_found
  exact C132_answers_partial (exHooks_benign _) foreign_only isoStore _ _ _ (foreign_history hx) (foreign_run rfl)
    ⟨rfl, rfl, rfl, .cons ⟨rfl, Or.inr ⟨by decide, by decide⟩⟩ .nil, .nil⟩

end Psion.Props
