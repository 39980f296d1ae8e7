import Verif.Props.Jwk
import Verif.Props.Webtools

/-!
# Property C85: key sets survive publication (`/repo/src/psion/jose/jwk.py:246-288`)
-/

namespace Psion.Props

open Psion Psion.Spec

/-- A key that was loaded from a dictionary that JSON can represent and none of whose numbers is zero (see C13). -/
def Loaded (cr : Crypto) (key : Jwk) : Prop :=
  (∃ d0, (Val.dict d0).Wf ∧ Jwk.init cr (.dict d0) = .ok key) ∧ NoZero key.mat

/-- `vk` is what becomes of `sk`: the key object `mat`, and all members that are not part of it. -/
def Reloaded (sk vk : Jwk) (mat : Material) : Prop :=
  vk.mat = mat ∧ ∀ k, k ∉ keyMembers sk.mat → dget vk.data k = dget sk.data k

theorem numVal_wf (n : Nat) : (numVal n).Wf := by unfold numVal; trivial

theorem material_wf {m : Material} {pub : Bool} {d : Dict PyStr Val} (h : m.dump pub = .ok d) : ∀ kv ∈ d, kv.2.Wf := by
  have key : ∀ kv ∈ d, ∃ s, kv.2 = .str s := by
    cases m with
    | oct s =>
      cases h
      simp
    | ec c x y o =>
      cases pub <;> cases o <;> cases h <;> simp [numVal]
    | rsa n e o =>
      cases pub <;> cases o <;> cases h <;> simp [numVal]
  intro kv hkv
  obtain ⟨s, hs⟩ := key kv hkv
  rw [hs]
  trivial

theorem dump_wf {cr : Crypto} {key : Jwk} {pub : Bool} {d0 d : Dict PyStr Val} (h0 : (Val.dict d0).Wf)
    (hk : Jwk.init cr (.dict d0) = .ok key) (hd : key.dump pub = .ok d) : (Val.dict d).Wf := by
  obtain ⟨md, hm⟩ := dump_mat hd
  have hok := data_ok hk h0.1
  obtain ⟨d', hd', hdata, -, -⟩ := jwkInit_ok.mp hk
  cases hd'
  unfold Jwk.dump at hd
  rw [hm] at hd
  cases hd
  refine ⟨Dict.ok_update (Dict.ok_filter hok _) _, wfD_iff.mpr ?_⟩
  intro kv hkv
  rcases Dict.mem_update hkv with h | h
  · have h := (List.mem_filter.mp h).1
    rw [hdata] at h
    exact wfD_iff.mp h0.2 kv (List.mem_filter.mp h).1
  · exact material_wf hm kv h

/-- All keys of a list are dumped and loaded again. -/
theorem reload_all {cr : Crypto} {pub : Bool} : ∀ {keys : List Jwk}, (∀ k ∈ keys, Loaded cr k) →
    (∀ k ∈ keys, ∃ d, k.dump pub = .ok d) →
    ∃ ds ks', dumpAll pub keys = .ok ds ∧ Val.WfL ds ∧ loadAll cr ds = .ok ks' ∧ ks'.length = keys.length ∧
      (∀ k ∈ ks', ∃ v, Jwk.init cr v = .ok k) ∧
      ∀ i (hi : i < keys.length) (hi' : i < ks'.length),
        Reloaded keys[i] ks'[i] (if pub then publicPart keys[i].mat else keys[i].mat)
  | [], _, _ => ⟨[], [], rfl, trivial, rfl, rfl, by simp, by intro i hi; cases hi⟩
  | k :: keys, hl, hd => by
    obtain ⟨ds, ks', h1, h2, h3, h4, h5, h6⟩ := reload_all (fun x hx => hl x (List.mem_cons_of_mem _ hx))
      (fun x hx => hd x (List.mem_cons_of_mem _ hx))
    obtain ⟨d, hdk⟩ := hd k List.mem_cons_self
    obtain ⟨⟨d0, hwf, hinit⟩, hz⟩ := hl k List.mem_cons_self
    have hload := reload hinit (data_ok hinit hwf.1) (pos_of_noZero hz) hdk
    refine ⟨.dict d :: ds, ⟨fullDict d, if pub then k.mat.toPublic else k.mat⟩ :: ks', by simp [dumpAll, hdk, h1],
      ⟨dump_wf hwf hinit hdk, h2⟩, by simp [loadAll, hload, h3], by simp [h4], ?_, ?_⟩
    · intro x hx
      rcases List.mem_cons.mp hx with rfl | hx
      · exact ⟨_, hload⟩
      · exact h5 x hx
    · intro i hi hi'
      cases i with
      | zero => exact ⟨by simp [toPublic_eq], fun n hn => extra_reloaded hinit hwf.1 hdk hn⟩
      | succ i => exact h6 i (by simpa using hi) (by simpa using hi')

theorem kid_free (m : Material) : py! "kid" ∉ keyMembers m := by cases m <;> simp [keyMembers]

/-- Keys with the same ids in the same order form a set if the others do. -/
theorem keySet_same {ks ks' : List Jwk} (h : keySetInit ks = .ok ks) (hlen : ks'.length = ks.length)
    (hkid : ∀ i (hi : i < ks.length) (hi' : i < ks'.length), kidOf ks'[i] = kidOf ks[i]) : keySetInit ks' = .ok ks' := by
  have hmap : ks'.map kidOf = ks.map kidOf := by
    apply List.ext_getElem
    · simp [hlen]
    · intro i h1 h2
      simp only [List.getElem_map]
      exact hkid i (by simpa using h2) (by simpa using h1)
  have hmem : ∀ k ∈ ks', ∃ k2 ∈ ks, kidOf k2 = kidOf k := by
    intro k hk
    have : kidOf k ∈ ks.map kidOf := hmap ▸ List.mem_map.mpr ⟨k, hk, rfl⟩
    exact List.mem_map.mp this
  obtain ⟨-, h1, h2, h3, h4⟩ := (C15_key_set _ _).mp h
  refine (C15_key_set _ _).mpr ⟨rfl, ?_, ?_, ?_, ?_⟩
  · intro h0
    rw [h0] at hlen
    exact h1 (List.eq_nil_of_length_eq_zero hlen.symm)
  · intro k hk
    obtain ⟨k2, hk2, he⟩ := hmem k hk
    rw [← he]
    exact h2 k2 hk2
  · intro k hk
    obtain ⟨k2, hk2, he⟩ := hmem k hk
    rw [← he]
    exact h3 k2 hk2
  · have : (ks.map kidOf).Pairwise (fun a b => b.pyEq a = false) := List.pairwise_map.mpr h4
    rw [← hmap] at this
    exact List.pairwise_map.mp this

/-- The common part of the two theorems. -/
theorem keySet_reload (cr : Crypto) (hf : FloatLaws cr.fe) (pub : Bool) (keys ks : List Jwk) (hset : keySetInit keys = .ok ks)
    (hl : ∀ k ∈ keys, Loaded cr k) (hd : ∀ k ∈ keys, ∃ d, k.dump pub = .ok d) :
    ∃ v ks', keySetDump pub ks = .ok v ∧ jsonParse cr.fe (jsonDumps cr.fe v) = .ok v ∧ keySetLoad cr v = .ok ks' ∧
      ks'.length = ks.length ∧ (∀ k ∈ ks', ∃ v, Jwk.init cr v = .ok k) ∧
      ∀ i (hi : i < ks.length) (hi' : i < ks'.length),
        Reloaded ks[i] ks'[i] (if pub then publicPart ks[i].mat else ks[i].mat) := by
  obtain ⟨rfl, -⟩ := (C15_key_set _ _).mp hset
  obtain ⟨ds, ks', h1, h2, h3, h4, h5, h6⟩ := reload_all (pub := pub) hl hd
  refine ⟨.dict [(py! "keys", .list ds)], ks', by simp [keySetDump, h1], ?_, ?_, h4, h5, h6⟩
  · exact C11_json_roundtrip _ hf _ ⟨by simp, h2, trivial⟩
  · simp only [keySetLoad, h3, if_true]
    exact keySet_same hset h4 (fun i hi hi' => (h6 i hi hi').2 _ (kid_free _))

theorem keySet_found {ks ks' : List Jwk} (hset : keySetInit ks = .ok ks) (hlen : ks'.length = ks.length)
    (hkid : ∀ i (hi : i < ks.length) (hi' : i < ks'.length), kidOf ks'[i] = kidOf ks[i]) (i : Nat) (hi : i < ks.length)
    (hi' : i < ks'.length) {kid : PyStr} (hk : kidOf ks[i] = .str kid) : keySetGet ks' (.str kid) = some ks'[i] :=
  ((C15_get_key _ _ (keySet_same hset hlen hkid) kid).1 _).mpr ⟨List.getElem_mem hi', (hkid i hi hi').trans hk⟩

/-- C85, private keys: if every key has a private part, the private dump of a key set, sent as a JSON text, is loaded to the same
keys in the same order. -/
theorem C85_reload (cr : Crypto) (hf : FloatLaws cr.fe) (keys ks : List Jwk) (hset : keySetInit keys = .ok ks)
    (hl : ∀ k ∈ keys, Loaded cr k) (hp : ∀ k ∈ keys, HasSecretPart k.mat) :
    ∃ v ks', keySetDump false ks = .ok v ∧ jsonParse cr.fe (jsonDumps cr.fe v) = .ok v ∧ keySetLoad cr v = .ok ks' ∧
      ks'.length = ks.length ∧
      ∀ i (hi : i < ks.length) (hi' : i < ks'.length), Reloaded ks[i] ks'[i] ks[i].mat := by
  obtain ⟨v, ks', h1, h2, h3, h4, -, h5⟩ := keySet_reload cr hf false keys ks hset hl (fun k hk => dump_exists (hp k hk))
  exact ⟨v, ks', h1, h2, h3, h4, fun i hi hi' => by simpa using h5 i hi hi'⟩

/-- C85, publication: the public dump of every key set, sent as a JSON text, is loaded to the public parts of the keys in the same
order, and `get_key` finds a key exactly for the ids of the original set. A token that was signed with a key of the set is
accepted with the key that is found for its id in the published set. -/
theorem C85_published (cr : Crypto) (hf : FloatLaws cr.fe) (keys ks : List Jwk) (hset : keySetInit keys = .ok ks)
    (hl : ∀ k ∈ keys, Loaded cr k) :
    ∃ v ks', keySetDump true ks = .ok v ∧ jsonParse cr.fe (jsonDumps cr.fe v) = .ok v ∧ keySetLoad cr v = .ok ks' ∧
      ks'.length = ks.length ∧
      (∀ i (hi : i < ks.length) (hi' : i < ks'.length), Reloaded ks[i] ks'[i] (publicPart ks[i].mat)) ∧
      (∀ kid, (keySetGet ks' (.str kid)).isSome = (keySetGet ks (.str kid)).isSome) ∧
      ∀ kid sk, keySetGet ks (.str kid) = some sk → GenuinePair cr sk.mat (publicPart sk.mat) →
        ∃ vk, keySetGet ks' (.str kid) = some vk ∧ Reloaded sk vk (publicPart sk.mat) ∧
          ∀ hv h payload seed tok a, JwsHeader.init hv = .ok h → (Val.dict h.data).Wf →
            Jws.serialize cr ⟨h, payload⟩ sk seed = .ok tok → dget h.data (py! "alg") = .str a →
            Jws.deserialize cr tok vk (some a) true = .ok ⟨h, payload⟩ := by
  obtain ⟨v, ks', h1, h2, h3, h4, h5, h6⟩ := keySet_reload cr hf true keys ks hset hl (fun k _ => dump_public_exists k)
  obtain ⟨rfl, -⟩ := (C15_key_set _ _).mp hset
  have hkid : ∀ i (hi : i < ks.length) (hi' : i < ks'.length), kidOf ks'[i] = kidOf ks[i] :=
    fun i hi hi' => (h6 i hi hi').2 _ (kid_free _)
  have hset' := keySet_same hset h4 hkid
  refine ⟨v, ks', h1, h2, h3, h4, fun i hi hi' => by simpa using h6 i hi hi', ?_, ?_⟩
  · intro kid
    cases hg : keySetGet ks (.str kid) with
    | some k =>
      obtain ⟨hm, hk⟩ := ((C15_get_key _ _ hset kid).1 k).mp hg
      obtain ⟨i, hi, rfl⟩ := List.mem_iff_getElem.mp hm
      rw [keySet_found hset h4 hkid i hi (h4 ▸ hi) hk]
      rfl
    | none =>
      have hno := (C15_get_key _ _ hset kid).2.1.mp hg
      have : keySetGet ks' (.str kid) = none := by
        refine (C15_get_key _ _ hset' kid).2.1.mpr ?_
        intro k hk he
        obtain ⟨i, hi, rfl⟩ := List.mem_iff_getElem.mp hk
        exact hno _ (List.getElem_mem (h4 ▸ hi)) ((hkid i (h4 ▸ hi) hi).symm.trans he)
      rw [this]
  · intro kid sk hg hpair
    obtain ⟨hm, hk⟩ := ((C15_get_key _ _ hset kid).1 sk).mp hg
    obtain ⟨i, hi, rfl⟩ := List.mem_iff_getElem.mp hm
    have hi' : i < ks'.length := h4 ▸ hi
    have hre : Reloaded ks[i] ks'[i] (publicPart ks[i].mat) := by simpa using h6 i hi hi'
    refine ⟨ks'[i], keySet_found hset h4 hkid i hi hi' hk, hre, ?_⟩
    intro hv h payload seed tok a hh hwf hs ha
    obtain ⟨⟨d0, -, hinit⟩, -⟩ := hl _ hm
    obtain ⟨w, hw⟩ := h5 _ (List.getElem_mem hi')
    exact C19_jws_roundtrip cr hf hv h hh hwf payload _ _ seed tok hs (by rw [hre.1]; exact hpair)
      (published_same hinit hw hre.1 hre.2) _ (Or.inr ⟨a, rfl, ha⟩)

/-- A private elliptic curve key with an id, and a set of it and an octet key. -/
def ecKidData : Dict PyStr Val := ecKey.data ++ [(py! "kid", .str [67]), (py! "use", .str (py! "sig"))]
def ecKid : Jwk := ⟨ecKidData, ecKey.mat⟩

example : Loaded toyCrypto ecKid ∧ HasSecretPart ecKid.mat ∧ GenuinePair toyCrypto ecKid.mat (publicPart ecKid.mat) := by
  refine ⟨⟨⟨ecKidData, by unfold ecKidData ecKey; exact ⟨by decide, wfD_iff.mpr (by simp [Val.Wf])⟩, rfl⟩, by simp [ecKid, ecKey, NoZero]⟩,
    by simp [ecKid, ecKey, HasSecretPart], ?_⟩
  intro h pad msg seed sig hs
  cases pad with
  | some p => simp [Material.sign, ecKid, ecKey] at hs
  | none =>
    simp only [Material.sign, ecKid, ecKey, toyCrypto, Except.ok.injEq] at hs
    subst hs
    simp [Material.verify, ecKid, ecKey, publicPart, toyCrypto]
example : keySetInit [kidKey 65, ecKid] = .ok [kidKey 65, ecKid] := by rfl
example : Loaded toyCrypto (kidKey 65) ∧ HasSecretPart (kidKey 65).mat :=
  ⟨⟨⟨(kidKey 65).data, ⟨by decide, wfD_iff.mpr (by simp [kidKey, Val.Wf])⟩, rfl⟩, trivial⟩, trivial⟩
example : keySetGet [kidKey 65, ecKid] (.str [67]) = some ecKid := by rfl
example : (match (keySetDump true [kidKey 65, ecKid]).bind (keySetLoad toyCrypto) with
      | .ok ks => ks.map fun k => (Dict.get k.data (py! "d")).isSome
      | .error _ => []) = [false, false] ∧ (Dict.get ecKid.data (py! "d")).isSome := by decide +kernel

end Psion.Props
