import Verif.Spec.Understood
import Verif.Props.Toy

/-!
# C145: what is not understood is ignored
-/

namespace Psion.Props
open Psion Psion.Spec

theorem SameUnder.dget {names : List PyStr} {d d' : Dict PyStr Val} (h : SameUnder names d d') {k : PyStr} (hk : k ∈ names) :
    Psion.dget d k = Psion.dget d' k := by
  simp only [Psion.dget, h k hk]

theorem sameRefusal_map {α β : Type} {x : Res α} {f g : α → β} : SameRefusal (x.map f) (x.map g) := by
  intro e
  cases x <;> simp [Except.map]

theorem sameRefusal_bind {α β : Type} {x : Res α} {f g : α → Res β} (h : ∀ a, SameRefusal (f a) (g a)) :
    SameRefusal (x >>= f) (x >>= g) := by
  intro e
  cases x with
  | error e' => exact Iff.rfl
  | ok a => exact h a e

theorem sameRefusal_ok {α : Type} (a b : α) : SameRefusal (Except.ok a : Res α) (Except.ok b) := by
  intro e
  simp

theorem validateClaims_alike {c c' : Dict PyStr Val} : ∀ {o : Dict PyStr Val}, SameUnder (o.map Prod.fst) c c' →
    validateClaims c o = validateClaims c' o
  | [], _ => rfl
  | (k, v) :: o, h => by
    have hk : dget c k = dget c' k := SameUnder.dget h (by simp)
    have hs : optionStep c k v = optionStep c' k v := by
      unfold optionStep
      rw [hk]
    unfold validateClaims
    rw [hs, validateClaims_alike (c := c) (c' := c') (o := o) (fun x hx => h x (List.mem_cons_of_mem _ hx))]

theorem validateDefaultClaims_alike {now : Int} {c c' : Dict PyStr Val} (h : SameUnder registeredClaims c c') :
    validateDefaultClaims now c = validateDefaultClaims now c' := by
  unfold validateDefaultClaims
  have e : ∀ k ∈ registeredClaims, dget c k = dget c' k := fun k hk => SameUnder.dget h hk
  rw [e (py! "aud") (by decide), e (py! "exp") (by decide), e (py! "iat") (by decide), e (py! "iss") (by decide),
    e (py! "jti") (by decide), e (py! "nbf") (by decide), e (py! "sub") (by decide)]

/-- C145: two claim sets with the same registered claims (and the same claims under the names the options ask for) are
accepted together or refused together, with the same error, whatever other claims they have. -/
theorem C145_claims (now : Int) (c c' : Dict PyStr Val) (o : Dict PyStr Val) (hc : c ≠ []) (hc' : c' ≠ [])
    (h : SameUnder (registeredClaims ++ o.map Prod.fst) c c') :
    SameRefusal (claimsInit now (.dict c) (.dict o)) (claimsInit now (.dict c') (.dict o)) ∧
    SameRefusal (claimsInit now (.dict c) .none) (claimsInit now (.dict c') .none) := by
  have h1 : SameUnder registeredClaims c c' := fun k hk => h k (List.mem_append_left _ hk)
  have h2 : SameUnder (o.map Prod.fst) c c' := fun k hk => h k (List.mem_append_right _ hk)
  constructor
  · simp only [claimsInit, if_neg hc, if_neg hc', validateDefaultClaims_alike (now := now) h1, validateClaims_alike h2]
    exact sameRefusal_bind fun _ => sameRefusal_bind fun _ => sameRefusal_ok _ _
  · simp only [claimsInit, if_neg hc, if_neg hc', validateDefaultClaims_alike (now := now) h1]
    exact sameRefusal_bind fun _ => sameRefusal_ok _ _

/-- A claim nobody asked for changes nothing, neither for a claim set that is accepted nor for an expired one. -/
example : SameRefusal (claimsInit 100 (.dict [(py! "exp", .int 200)]) .none)
    (claimsInit 100 (.dict [(py! "http://example.org/shoe_size", .int 43), (py! "exp", .int 200)]) .none) ∧
    claimsInit 100 (.dict [(py! "http://example.org/shoe_size", .int 43), (py! "exp", .int 99)]) .none =
      .error (.jose .expiredToken) :=
  ⟨(C145_claims 100 _ _ [] (by simp) (by simp) (by
    intro k hk
    simp only [registeredClaims, List.map_nil, List.append_nil, List.mem_cons, List.not_mem_nil, or_false] at hk
    rcases hk with rfl | rfl | rfl | rfl | rfl | rfl | rfl <;> rfl)).2, rfl⟩

theorem validateCrit_alike {h h' : Dict PyStr Val} (hh : SameUnder (headerNames ++ declaredCritical h) h h') :
    validateCrit h = validateCrit h' := by
  have hc : Dict.get h (py! "crit") = Dict.get h' (py! "crit") := hh _ (List.mem_append_left _ (by decide))
  unfold validateCrit
  rw [← hc]
  cases hg : Dict.get h (py! "crit") with
  | none => rfl
  | some v =>
    cases v with
    | list l =>
      have e : l.any (fun v => match v with
          | .str s => !(dget h s).truthy
          | _ => false) = l.any (fun v => match v with
          | .str s => !(dget h' s).truthy
          | _ => false) := by
        rw [Bool.eq_iff_iff, List.any_eq_true, List.any_eq_true]
        have key : ∀ v ∈ l, (match v with
            | .str s => !(dget h s).truthy
            | _ => false) = (match v with
            | .str s => !(dget h' s).truthy
            | _ => false) := by
          intro v hv
          cases v with
          | str s =>
            have : s ∈ declaredCritical h := by
              simp only [declaredCritical, hg, List.mem_filterMap]
              exact ⟨_, hv, rfl⟩
            simp only [SameUnder.dget hh (List.mem_append_right _ this)]
          | _ => rfl
        constructor
        · rintro ⟨v, hv, h1⟩
          exact ⟨v, hv, by rw [← key v hv]; exact h1⟩
        · rintro ⟨v, hv, h1⟩
          exact ⟨v, hv, by rw [key v hv]; exact h1⟩
      exact congrArg (fun b : Bool => (if l = [] then .error (.jose .invalidJWSHeader)
        else if l.any (fun v => !v.truthy || !v.isStr) then .error (.jose .invalidJWSHeader)
        else if b then .error (.jose .invalidJWSHeader) else .ok () : Res Unit)) e
    | _ => rfl

/-- C145: two headers with the same members `alg`, `crit`, `cty`, `kid`, `typ` (and the same members `crit` names) are
refused with the same error, or accepted with the same algorithm, whatever other members they have. -/
theorem C145_header (h h' : Dict PyStr Val) (hn : h ≠ []) (hn' : h' ≠ [])
    (hh : SameUnder (headerNames ++ declaredCritical h) h h') :
    (JwsHeader.init (.dict h)).map (·.alg) = (JwsHeader.init (.dict h')).map (·.alg) := by
  have e : ∀ k ∈ headerNames, Dict.get h k = Dict.get h' k := fun k hk => hh k (List.mem_append_left _ hk)
  have ha : validateAlg h = validateAlg h' := by
    unfold validateAlg
    rw [e (py! "alg") (by decide)]
  have ht : ∀ k ∈ headerNames, validateText h k = validateText h' k := by
    intro k hk
    unfold validateText
    rw [e k hk]
  simp only [JwsHeader.init, if_neg hn, if_neg hn', ha, validateCrit_alike hh, ht (py! "cty") (by decide),
    ht (py! "kid") (by decide), ht (py! "typ") (by decide)]
  cases validateAlg h' with
  | error _ => rfl
  | ok a =>
    cases validateCrit h' with
    | error _ => rfl
    | ok _ =>
      cases validateText h' (py! "cty") with
      | error _ => rfl
      | ok _ =>
        cases validateText h' (py! "kid") with
        | error _ => rfl
        | ok _ => cases validateText h' (py! "typ") <;> rfl

/-- A header member nobody asked for is ignored; named in `crit`, its absence is an error. -/
example : (JwsHeader.init (.dict [(py! "x", .int 1), (py! "alg", .str (py! "HS256"))])).map (·.alg) =
      (JwsHeader.init (.dict [(py! "alg", .str (py! "HS256"))])).map (·.alg) ∧
    (JwsHeader.init (.dict [(py! "alg", .str (py! "HS256"))])).map (·.alg) = .ok (.hs .sha256) :=
  ⟨C145_header _ _ (by simp) (by simp) (by
    intro k hk
    have : k ∈ headerNames := by
      rcases List.mem_append.mp hk with h | h
      · exact h
      · cases h
    simp only [headerNames, List.mem_cons, List.not_mem_nil, or_false] at this
    rcases this with rfl | rfl | rfl | rfl | rfl <;> rfl), rfl⟩

theorem materialInit_alike {cr : Crypto} {s : PyStr} {k : Kty} (hk : Kty.ofName s = some k) {d d' : Dict PyStr Val}
    (hs : Dict.get d (py! "self") = none) (hs' : Dict.get d' (py! "self") = none) (h : SameUnder (numberNames s) d d') :
    materialInit cr k d = materialInit cr k d' := by
  have hm : ∀ x : Dict PyStr Val, Dict.get x (py! "self") = none → Dict.mem x (py! "self") = false := by
    intro x hx
    cases hmm : Dict.mem x (py! "self") with
    | false => rfl
    | true => simp_all [Dict.mem]
  have ea : ∀ n ∈ numberNames s, arg d n = arg d' n := by
    intro n hn
    unfold arg
    rw [h n hn]
  have ed : ∀ n ∈ numberNames s, dget d n = dget d' n := fun n hn => SameUnder.dget h hn
  have hks : s = k.name := by
    unfold Kty.ofName at hk
    split at hk
    · cases hk
      assumption
    · split at hk
      · cases hk
        assumption
      · split at hk
        · cases hk
          assumption
        · cases hk
  subst hks
  cases k with
  | oct =>
    simp only [materialInit, octInit, hm d hs, hm d' hs', ea (py! "k") (by decide)]
  | ec =>
    simp only [materialInit, ecInit, hm d hs, hm d' hs', ea (py! "crv") (by decide), ea (py! "x") (by decide),
      ea (py! "y") (by decide), ed (py! "d") (by decide)]
  | rsa =>
    have hp : ∀ n e, rsaPrivate cr n e d = rsaPrivate cr n e d' := by
      intro n e
      unfold rsaPrivate
      rw [ed (py! "d") (by decide), ed (py! "p") (by decide), ed (py! "q") (by decide), ed (py! "dp") (by decide),
        ed (py! "dq") (by decide), ed (py! "qi") (by decide)]
    simp only [materialInit, rsaInit, hm d hs, hm d' hs', ea (py! "n") (by decide), ea (py! "e") (by decide),
      ed (py! "d") (by decide), hp]

/-- C145 for keys (partial): two dictionaries without a member `self`, with the same `kty` and the same numbers, are
refused with the same error or give the same key, whatever other members they have. Missing: a member `self`,
see `C145_refuted`. -/
theorem C145_key_partial (cr : Crypto) (d d' : Dict PyStr Val) (hn : d ≠ []) (hn' : d' ≠ [])
    (hs : Dict.get d (py! "self") = none) (hs' : Dict.get d' (py! "self") = none)
    (hk : Dict.get d (py! "kty") = Dict.get d' (py! "kty"))
    (h : ∀ s, Dict.get d (py! "kty") = some (.str s) → SameUnder (numberNames s) d d') :
    (Jwk.init cr (.dict d)).map (·.mat) = (Jwk.init cr (.dict d')).map (·.mat) := by
  have e : dget d (py! "kty") = dget d' (py! "kty") := by
    simp only [dget, hk]
  simp only [Jwk.init, if_neg hn, if_neg hn', ← e]
  cases hv : dget d (py! "kty") with
  | str s =>
    have hg : Dict.get d (py! "kty") = some (.str s) := by
      unfold dget at hv
      cases hg : Dict.get d (py! "kty") with
      | none =>
        rw [hg] at hv
        cases hv
      | some v =>
        rw [hg] at hv
        exact congrArg some hv
    cases hk' : Kty.ofName s with
    | none => simp only [hk']
    | some k =>
      simp only [hk', materialInit_alike (cr := cr) hk' hs hs' (h s hg)]
      cases materialInit cr k d' <;> rfl
  | _ => rfl

/-- Two keys with the same numbers and the same members `kty`, `crv`, `alg`, `kid`, `use` and `key_ops` sign and verify
the same, whatever other members they have. -/
theorem C145_use (cr : Crypto) (key key' : Jwk) (hm : key.mat = key'.mat) (h : SameUnder usageNames key.data key'.data) :
    (∀ j seed, Jws.serialize cr j key seed = Jws.serialize cr j key' seed) ∧
    ∀ tok a v, Jws.deserialize cr tok key a v = Jws.deserialize cr tok key' a v := by
  have ed : ∀ n ∈ usageNames, dget key.data n = dget key'.data n := fun n hn => SameUnder.dget h hn
  have h1 : ∀ hd, validateKey key hd = validateKey key' hd := by
    intro hd
    simp only [validateKey, ed (py! "alg") (by decide), ed (py! "kid") (by decide), ed (py! "use") (by decide),
      ed (py! "key_ops") (by decide)]
  have h2 : ∀ a, JwsAlg.validateKey a key = JwsAlg.validateKey a key' := by
    intro a
    simp only [JwsAlg.validateKey, ed (py! "alg") (by decide), ed (py! "kty") (by decide), ed (py! "crv") (by decide)]
  constructor
  · intro j seed
    simp only [Jws.serialize, JwsAlg.sign, h1, h2, hm]
  · intro tok a v
    simp only [Jws.deserialize, JwsAlg.verify, h1, h2, hm]

/-- An additional member `x5t` does not change the key. -/
example : (Jwk.init toyCrypto (.dict [(py! "x5t", .int 1), (py! "kty", .str (py! "oct")), (py! "k", .str (py! "AQID"))])).map
      (·.mat) = (Jwk.init toyCrypto (.dict [(py! "kty", .str (py! "oct")), (py! "k", .str (py! "AQID"))])).map (·.mat) ∧
    (Jwk.init toyCrypto (.dict [(py! "kty", .str (py! "oct")), (py! "k", .str (py! "AQID"))])).map (·.mat) =
      .ok (.oct [1, 2, 3]) :=
  ⟨C145_key_partial _ _ _ (by simp) (by simp) (by decide +kernel) (by decide +kernel) rfl (by
    intro s hs
    cases hs
    intro k hk
    simp only [show numberNames (py! "oct") = [py! "k"] from by decide +kernel, List.mem_singleton] at hk
    subst hk
    rfl), by decide +kernel⟩

/-- C145 is violated: any key with a member called `self` is refused, with a `TypeError`. -/
theorem C145_self_refuted (cr : Crypto) (d : Dict PyStr Val) (v : Val) (k : Kty)
    (hk : Dict.get d (py! "kty") = some (.str k.name)) (hs : Dict.get d (py! "self") = some v) :
    Jwk.init cr (.dict d) = .error .typeErr := by
  have hd : d ≠ [] := by
    rintro rfl
    cases hs
  have hm : Dict.mem d (py! "self") = true := by
    simp [Dict.mem, hs]
  have hn : Kty.ofName k.name = some k := by cases k <;> decide +kernel
  simp only [Jwk.init, if_neg hd, dget, hk, Option.getD_some, hn]
  cases k <;> simp [materialInit, octInit, ecInit, rsaInit, hm]

/-- C145 is violated: a key set with any member besides `keys` is refused, although such members are to be ignored. -/
theorem C145_keyset_refuted (cr : Crypto) (d : Dict PyStr Val) (k : PyStr) (hk : k ≠ py! "keys")
    (hm : k ∈ d.map Prod.fst) : keySetLoad cr (.dict d) = .error (.jose .invalidKeySet) := by
  match d with
  | [] => cases hm
  | [(k', v)] =>
    simp only [List.map_cons, List.map_nil, List.mem_singleton] at hm
    subst hm
    simp [keySetLoad, hk]
  | _ :: _ :: _ => rfl

/-- C145 is violated: one key whose type is not understood makes a key set be refused, although it is to be left
out. -/
theorem C145_unknown_refuted (cr : Crypto) (l : List Val) (d : Dict PyStr Val) (s : PyStr) (hd : .dict d ∈ l)
    (hk : Dict.get d (py! "kty") = some (.str s)) (hu : ∀ k : Kty, s ≠ k.name) :
    ∃ e, keySetLoad cr (.dict [(py! "keys", .list l)]) = .error e := by
  have hn : Kty.ofName s = none := by
    have h1 := hu .oct
    have h2 := hu .rsa
    have h3 := hu .ec
    simp only [Kty.name] at h1 h2 h3
    simp [Kty.ofName, h1, h2, h3]
  have hi : Jwk.init cr (.dict d) = .error (.jose .unsupportedAlgorithm) := by
    have hd : d ≠ [] := by
      rintro rfl
      cases hk
    simp only [Jwk.init, if_neg hd, dget, hk, Option.getD_some, hn]
  have hl : ∃ e, loadAll cr l = .error e := by
    clear hk
    induction l with
    | nil => cases hd
    | cons v l ih =>
      unfold loadAll
      rcases List.mem_cons.mp hd with rfl | hd
      · exact ⟨_, by rw [hi]⟩
      · obtain ⟨e, he⟩ := ih hd
        cases Jwk.init cr v with
        | error e' => exact ⟨e', rfl⟩
        | ok k => exact ⟨e, by simp only [he]⟩
  obtain ⟨e, he⟩ := hl
  exact ⟨e, by simp [keySetLoad, he]⟩

/-- The dictionaries the three refutations speak about: the key and the set are fine without the additional member or
key. -/
example : Jwk.init toyCrypto (.dict [(py! "kty", .str (py! "oct")), (py! "k", .str (py! "AQID")), (py! "self", .int 1)]) =
      .error .typeErr ∧
    (keySetLoad toyCrypto (.dict [(py! "keys", .list [.dict [(py! "kty", .str (py! "oct")), (py! "k", .str (py! "AQID")),
      (py! "kid", .str (py! "a"))]])])).map (·.map (·.mat)) = .ok [.oct [1, 2, 3]] ∧
    keySetLoad toyCrypto (.dict [(py! "keys", .list [.dict [(py! "kty", .str (py! "oct")), (py! "k", .str (py! "AQID")),
      (py! "kid", .str (py! "a"))]]), (py! "next_update", .int 1)]) = .error (.jose .invalidKeySet) ∧
    ∃ e, keySetLoad toyCrypto (.dict [(py! "keys", .list [.dict [(py! "kty", .str (py! "oct")),
      (py! "k", .str (py! "AQID")), (py! "kid", .str (py! "a"))], .dict [(py! "kty", .str (py! "OKP")),
      (py! "kid", .str (py! "b"))]])]) = .error e :=
  ⟨C145_self_refuted _ _ _ .oct rfl rfl, by decide +kernel,
    C145_keyset_refuted _ _ (py! "next_update") (by decide +kernel) (by simp),
    C145_unknown_refuted _ _ _ (py! "OKP") (List.mem_cons_of_mem _ (List.mem_singleton.mpr rfl)) rfl
      (by intro k; cases k <;> decide +kernel)⟩

/-- C145 is violated the other way round, too: an RSA private key with a member `oth` must not be used by a reader that
does not understand keys with more than two primes (RFC 7518, section 6.3.2.7), yet it is taken for the key without this member. -/
theorem C145_oth_refuted (cr : Crypto) (d : Dict PyStr Val) (v : Val) (hs : Dict.get d (py! "self") = none)
    (hk : Dict.get d (py! "kty") = some (.str (py! "RSA"))) :
    (Jwk.init cr (.dict ((py! "oth", v) :: d))).map (·.mat) = (Jwk.init cr (.dict d)).map (·.mat) := by
  have hd : d ≠ [] := by
    rintro rfl
    cases hk
  have hg : ∀ k, k ≠ py! "oth" → Dict.get ((py! "oth", v) :: d) k = Dict.get d k := by
    intro k hne
    simp [Dict.get, Ne.symm hne]
  refine C145_key_partial cr _ _ (by simp) hd ?_ hs (hg _ (by decide +kernel)) ?_
  · rw [hg _ (by decide +kernel)]
    exact hs
  · intro s h1
    rw [hg _ (by decide +kernel), hk] at h1
    cases h1
    intro k hk'
    refine hg k ?_
    rintro rfl
    exact absurd hk' (by decide +kernel)

end Psion.Props
