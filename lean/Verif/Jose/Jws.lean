import Verif.Jose.Jwk

/-!
# Json Web Signatures

`/repo/src/psion/jose/jwa/jws.py` and `/repo/src/psion/jose/jws.py`.
-/

namespace Psion

/-- The algorithms registered in `JsonWebSignatureHeader.__algorithms__`, `/repo/src/psion/jose/jws.py:57-71`. -/
inductive JwsAlg
  | none
  | hs (h : Hash)
  | rs (h : Hash)
  | es (h : Hash)
  | ps (h : Hash)
  deriving DecidableEq, Repr

/-- `__algorithm__`. -/
def JwsAlg.name : JwsAlg → PyStr
  | .none => py! "none"
  | .hs .sha256 => py! "HS256"
  | .hs .sha384 => py! "HS384"
  | .hs .sha512 => py! "HS512"
  | .rs .sha256 => py! "RS256"
  | .rs .sha384 => py! "RS384"
  | .rs .sha512 => py! "RS512"
  | .es .sha256 => py! "ES256"
  | .es .sha384 => py! "ES384"
  | .es .sha512 => py! "ES512"
  | .ps .sha256 => py! "PS256"
  | .ps .sha384 => py! "PS384"
  | .ps .sha512 => py! "PS512"

/-- All registered algorithms. -/
def JwsAlg.all : List JwsAlg :=
  [.none, .hs .sha256, .hs .sha384, .hs .sha512, .rs .sha256, .rs .sha384, .rs .sha512,
    .es .sha256, .es .sha384, .es .sha512, .ps .sha256, .ps .sha384, .ps .sha512]

/-- `__algorithms__.get(name)`. -/
def JwsAlg.ofName (s : PyStr) : Option JwsAlg := JwsAlg.all.find? (fun a => a.name == s)

/-- `__key_type__` (`None` for `none`). -/
def JwsAlg.keyType : JwsAlg → Val
  | .none => .none
  | .hs _ => .str (py! "oct")
  | .rs _ => .str (py! "RSA")
  | .es _ => .str (py! "EC")
  | .ps _ => .str (py! "RSA")

/-- `__curve__` of the `ES*` algorithms, `/repo/src/psion/jose/jwa/jws.py:208-223`. -/
def curveOf : Hash → PyStr
  | .sha256 => py! "P-256"
  | .sha384 => py! "P-384"
  | .sha512 => py! "P-521"

/-- `JWSAlgorithm.validate_key`, `/repo/src/psion/jose/jwa/jws.py:28-50`, and the override of `_EC`, `180-187`. -/
def JwsAlg.validateKey (a : JwsAlg) (key : Jwk) : Res Unit :=
  let alg := dget key.data (py! "alg")
  if alg.truthy && !alg.pyEq (.str a.name) then .error (.jose .invalidKey)
  else if !(dget key.data (py! "kty")).pyEq a.keyType then .error (.jose .invalidKey)
  else
    match a with
    | .es h =>
      if !(dget key.data (py! "crv")).pyEq (.str (curveOf h)) then .error (.jose .invalidKey)
      else .ok ()
    | _ => .ok ()

/-- Hash and padding passed to the key; `none` never uses the key. -/
def JwsAlg.params : JwsAlg → Option (Hash × Option Padding)
  | .none => Option.none
  | .hs h => some (h, Option.none)
  | .rs h => some (h, some .pkcs1v15)
  | .es h => some (h, Option.none)
  | .ps h => some (h, some .pss)

/-- `sign` of the algorithm classes, `/repo/src/psion/jose/jwa/jws.py:92-94,104-108,142-146,189-193,230-234`. -/
def JwsAlg.sign (cr : Crypto) (a : JwsAlg) (data : Bytes) (key : Jwk) (seed : Nat) : Res Bytes :=
  match a.params with
  | Option.none => .ok []
  | some (h, pad) =>
    match a.validateKey key with
    | .error e => .error e
    | .ok () =>
      match key.mat.sign cr data h pad seed with
      | .error e => .error e
      | .ok s => .ok (b64urlEncode s)

/-- `verify` of the algorithm classes,
`/repo/src/psion/jose/jwa/jws.py:96-98,110-120,148-158,195-205,236-246`: an incorrect padding of the signature text
is reported as `InvalidSignature`. -/
def JwsAlg.verify (cr : Crypto) (a : JwsAlg) (sig data : Bytes) (key : Jwk) : Res Unit :=
  match a.params with
  | Option.none => .ok ()
  | some (h, pad) =>
    match a.validateKey key with
    | .error e => .error e
    | .ok () =>
      match b64urlDecode sig with
      | .error .binascii => .error (.jose .invalidSignature)
      | .error e => .error e
      | .ok raw => key.mat.verify cr raw data h pad

/-- `JsonWebSignatureHeader`: the dictionary and the resolved algorithm. -/
structure JwsHeader where
  data : Dict PyStr Val
  alg : JwsAlg

/-- `validate_alg`, `/repo/src/psion/jose/jws.py:92-107`. -/
def validateAlg (h : Dict PyStr Val) : Res JwsAlg :=
  match Dict.get h (py! "alg") with
  | none => .error (.jose .invalidJWSHeader)
  | some (.list _) => .error .typeErr
  | some (.dict _) => .error .typeErr
  | some (.str s) =>
    match JwsAlg.ofName s with
    | none => .error (.jose .unsupportedAlgorithm)
    | some a => .ok a
  | some _ => .error (.jose .unsupportedAlgorithm)

/-- `validate_crit`, `/repo/src/psion/jose/jws.py:172-195`. -/
def validateCrit (h : Dict PyStr Val) : Res Unit :=
  match Dict.get h (py! "crit") with
  | none => .ok ()
  | some (.list l) =>
    if l = [] then .error (.jose .invalidJWSHeader)
    else if l.any (fun v => !v.truthy || !v.isStr) then .error (.jose .invalidJWSHeader)
    else if l.any (fun v =>
        match v with
        | .str s => !(dget h s).truthy
        | _ => false) then .error (.jose .invalidJWSHeader)
    else .ok ()
  | some _ => .error (.jose .invalidJWSHeader)

/-- `validate_cty`, `validate_kid`, `validate_typ`, `/repo/src/psion/jose/jws.py:115-128,142-170`: a member that is
present must be a non-empty text. -/
def validateText (h : Dict PyStr Val) (name : PyStr) : Res Unit :=
  match Dict.get h name with
  | none => .ok ()
  | some (.str (_ :: _)) => .ok ()
  | some _ => .error (.jose .invalidJWSHeader)

/-- `JsonWebSignatureHeader.__init__`, `/repo/src/psion/jose/jws.py:73-90`. The validators run in the alphabetical order
of `inspect.getmembers`; the ones that do nothing are left out, and so is the second test of
`alg`, which repeats `validate_alg`. -/
def JwsHeader.init (header : Val) : Res JwsHeader :=
  match header with
  | .dict h =>
    if h = [] then .error (.jose .invalidJWSHeader)
    else do
      let a ← validateAlg h
      validateCrit h
      validateText h (py! "cty")
      validateText h (py! "kid")
      validateText h (py! "typ")
      return ⟨fullDict h, a⟩
  | _ => .error (.jose .invalidJWSHeader)

/-- Items produced by iterating over a value; `TypeError` if it is not iterable. -/
def iterVal : Val → Res (List Val)
  | .list l => .ok l
  | .str s => .ok (s.map (fun c => .str [c]))
  | .dict d => .ok (d.map (fun kv => .str kv.1))
  | _ => .error .typeErr

/-- `_validate_key`, `/repo/src/psion/jose/jws.py:327-360`. -/
def validateKey (key : Jwk) (header : JwsHeader) : Res Unit :=
  let kalg := dget key.data (py! "alg")
  let hkid := dget header.data (py! "kid")
  let use := dget key.data (py! "use")
  let ops := dget key.data (py! "key_ops")
  if kalg.truthy && !kalg.pyEq (dget header.data (py! "alg")) then .error (.jose .invalidKey)
  else if hkid.truthy && !(dget key.data (py! "kid")).pyEq hkid then .error (.jose .invalidKey)
  else if use.truthy && !use.pyEq (.str (py! "sig")) then .error (.jose .invalidKey)
  else if ops.truthy then
    match iterVal ops with
    | .error e => .error e
    | .ok l =>
      if l.any (fun op => !op.inList [.str (py! "sign"), .str (py! "verify")]) then
        .error (.jose .invalidKey)
      else .ok ()
  else .ok ()

/-- `JsonWebSignature`, `/repo/src/psion/jose/jws.py:198-229`. The payload is `bytes`. -/
structure Jws where
  header : JwsHeader
  payload : Bytes

/-- The signed text `base64url(header) "." base64url(payload)`, `/repo/src/psion/jose/jws.py:261-263`. -/
def Jws.message (cr : Crypto) (j : Jws) : Res Bytes :=
  match utf8Encode (jsonDumps cr.fe (.dict j.header.data)) with
  | .error e => .error e
  | .ok h => .ok (b64urlEncode h ++ 46 :: b64urlEncode j.payload)

/-- `JsonWebSignature.serialize`, `/repo/src/psion/jose/jws.py:231-266`. -/
def Jws.serialize (cr : Crypto) (j : Jws) (key : Jwk) (seed : Nat) : Res Bytes :=
  match validateKey key j.header with
  | .error e => .error e
  | .ok () =>
    match j.message cr with
    | .error e => .error e
    | .ok m =>
      match j.header.alg.sign cr m key seed with
      | .error e => .error e
      | .ok s => .ok (m ++ 46 :: s)

/-- The algorithm expected by the caller; an empty text counts as none given. -/
def algMatches (algorithm : Option PyStr) (h : JwsHeader) : Bool :=
  match algorithm with
  | some (c :: a) => (dget h.data (py! "alg")).pyEq (.str (c :: a))
  | _ => true

/-- `JsonWebSignature.deserialize`, `/repo/src/psion/jose/jws.py:268-324`, on `bytes`. -/
def Jws.deserialize (cr : Crypto) (token : Bytes) (key : Jwk) (algorithm : Option PyStr)
    (validate : Bool) : Res Jws :=
  match splitOn 46 token with
  | [header, payload, sig] => do
    let raw ← b64urlDecode header
    let v ← jsonLoads cr.fe raw
    let h ← JwsHeader.init v
    if !algMatches algorithm h then throw (.jose .invalidJWSSerialization)
    if validate then
      validateKey key h
      h.alg.verify cr sig (header ++ 46 :: payload) key
    let p ← b64urlDecode payload
    return ⟨h, p⟩
  | _ => .error (.jose .invalidJWSSerialization)

end Psion
