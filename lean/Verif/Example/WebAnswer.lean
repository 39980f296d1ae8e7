import Verif.Example.WebLemmas

/-!
# The web layer of the example application: lemmas about the endpoints of the library
-/

namespace Psion.Example

open Psion Spec

variable {α β : Type}

theorem wexec_bind {f : α → WProg β} {p : WProg α} : ∀ {tr : List WEv} {b : β}, WExec (WProg.bind p f) tr b →
    ∃ t1 t2 a, tr = t1 ++ t2 ∧ WExec p t1 a ∧ WExec (f a) t2 b := by
  induction p with
  | done a => intro tr b h; exact ⟨[], tr, a, rfl, .done a, h⟩
  | op o k ih =>
    intro tr b h
    cases h with
    | op _ _ r t _ h =>
      obtain ⟨t1, t2, a, rfl, h1, h2⟩ := ih r h
      exact ⟨_, t2, a, rfl, .op o k r t1 a h1, h2⟩

theorem lib_events {p : P α} : ∀ {tr : List WEv} {a : ORes α}, WExec (WP.lib p) tr a → ∀ ev ∈ tr, ∃ o, ev.op = .lib o := by
  induction p with
  | done a =>
    intro tr b h ev hev
    obtain ⟨rfl, -⟩ := wexec_done h
    cases hev
  | op o k ih =>
    intro tr b h ev hev
    cases h with
    | op _ _ r t _ h =>
      rcases List.mem_cons.mp hev with rfl | hev
      · exact ⟨o, rfl⟩
      · exact ih r h ev hev

/-- A view that calls an endpoint of the library. -/
theorem wexec_endpoint {r : Request} {p : Request → P α} {g : α → Option Response} {tr : List WEv} {out : ORes Served}
    (h : WExec (WP.bind (WP.lift (.ok r)) fun r => WP.bind (WP.lib (p r)) fun x => served (createResponse (g x))) tr out) :
    (∀ ev ∈ tr, ∃ o, ev.op = .lib o) ∧
      ((∃ e, Exec (p r) (libOf tr) (.error e) ∧ out = .error e) ∨
        ∃ x, Exec (p r) (libOf tr) (.ok x) ∧ out = liftRes ((createResponse (g x)).map (fun reply => ⟨reply, none⟩))) := by
  obtain ⟨t1, t2, a, rfl, h1, h2⟩ := wexec_bind (p := WP.lib (p r)) h
  cases a with
  | error e =>
    obtain ⟨rfl, rfl⟩ := wexec_done h2
    rw [List.append_nil]
    exact ⟨lib_events h1, Or.inl ⟨e, wexec_lib h1, rfl⟩⟩
  | ok x =>
    obtain ⟨rfl, rfl⟩ := wexec_done h2
    rw [List.append_nil]
    exact ⟨lib_events h1, Or.inr ⟨x, wexec_lib h1, rfl⟩⟩

theorem asciiLower_latin1 {k : PyStr} : (∀ c ∈ asciiLower k, c < 256) ↔ ∀ c ∈ k, c < 256 := by
  unfold asciiLower
  constructor
  · intro h c hc
    have := h _ (List.mem_map_of_mem hc)
    split at this <;> omega
  · intro h c hc
    obtain ⟨d, hd, rfl⟩ := List.mem_map.mp hc
    have := h d hd
    split <;> omega

theorem latin1_some {v t : PyStr} : latin1 (some v) = .ok t ↔ t = v ∧ ∀ c ∈ v, c < 256 := by
  unfold latin1
  dsimp only
  split
  · rename_i h
    constructor
    · rintro ⟨⟩; exact ⟨rfl, fun c hc => of_decide_eq_true (List.all_eq_true.mp h c hc)⟩
    · rintro ⟨rfl, -⟩; rfl
  · rename_i h
    constructor
    · intro h; cases h
    · rintro ⟨-, h'⟩
      exact absurd (List.all_eq_true.mpr fun c hc => decide_eq_true (h' c hc)) h

/-- The headers are sent as they are, if they can be sent. -/
theorem rawHeaders_ok {l : NDict PyStr PyStr} : ∀ {hs : List (PyStr × PyStr)}, rawHeaders l = .ok hs →
    hs.map (fun kv => (kv.1, some kv.2)) = l.map (fun kv => (asciiLower kv.1, kv.2)) := by
  induction l with
  | nil => intro hs h; cases h; rfl
  | cons x l ih =>
    obtain ⟨k, v⟩ := x
    intro hs h
    unfold rawHeaders at h
    split at h
    · cases h
    · rename_i k' hk
      split at h
      · cases h
      · rename_i v' hv
        split at h
        · cases h
        · rename_i hs' hl
          cases h
          obtain ⟨rfl, -⟩ := latin1_some.mp hk
          cases v with
          | none => cases hv
          | some v =>
            obtain ⟨rfl, -⟩ := latin1_some.mp hv
            simp only [List.map_cons, ih hl]

theorem rawHeaders_error {l : NDict PyStr PyStr} {e : Exc} (h : rawHeaders l = .error e) :
    ¬ ∀ k v, (k, v) ∈ l → (∀ c ∈ k, c < 256) ∧ ∃ t, v = some t ∧ ∀ c ∈ t, c < 256 := by
  induction l with
  | nil => cases h
  | cons x l ih =>
    obtain ⟨k, v⟩ := x
    intro H
    obtain ⟨h1, t, rfl, h2⟩ := H k v List.mem_cons_self
    unfold rawHeaders at h
    rw [latin1_some.mpr ⟨rfl, asciiLower_latin1.mpr h1⟩, latin1_some.mpr ⟨rfl, h2⟩] at h
    dsimp only at h
    split at h
    · rename_i e' he
      exact ih (by rw [he]; cases h; rfl) (fun k v hm => H k v (List.mem_cons_of_mem _ hm))
    · cases h

theorem createResponse_ok {r : Response} {reply : Reply} (h : createResponse (some r) = .ok reply) : PassedOn r reply := by
  unfold createResponse at h
  dsimp only at h
  split at h
  · cases h
  · rename_i hs hl
    have heq := rawHeaders_ok hl
    split at h
    · cases h
      exact ⟨hs, _, rfl, heq, Or.inr rfl, fun _ => by simp⟩
    · rename_i hc
      cases h
      refine ⟨hs, [], by rw [List.append_nil], heq, Or.inl rfl, fun hb => ?_⟩
      rw [List.append_nil]
      exact Decidable.of_not_not fun hn => hc ⟨hb, hn⟩

theorem createResponse_error {r : Response} {e : Exc} (h : createResponse (some r) = .error e) : ¬ SendableHeaders r := by
  unfold createResponse at h
  dsimp only at h
  split at h
  · rename_i he
    exact rawHeaders_error he
  · cases h

end Psion.Example
