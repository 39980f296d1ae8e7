import Verif.Jose.Jwk

/-!
# Export of keys
-/

namespace Psion

/-- `private_bytes(PEM, TraditionalOpenSSL, NoEncryption())` and `public_bytes(PEM, SubjectPublicKeyInfo)` of the key with these
numbers. -/
structure PemWriter where
  priv : Material → Bytes
  pub : Material → Bytes

/-- `ECKey.export` (`/repo/src/psion/jose/jwa/jwk.py:378-402`), `OCTKey.export` (`560-574`, see `octExport`), `RSAKey.export`
(`849-873`). -/
def Material.export (w : PemWriter) (m : Material) (pub : Bool) : Res Bytes :=
  match m with
  | .oct s => octExport s
  | .ec _ _ _ o =>
    if pub then .ok (w.pub m)
    else if o.isSome then .ok (w.priv m)
    else .error (.jose .invalidKey)
  | .rsa _ _ o =>
    if pub then .ok (w.pub m)
    else if o.isSome then .ok (w.priv m)
    else .error (.jose .invalidKey)

/-- `JsonWebKey.export`, `/repo/src/psion/jose/jwk.py:155-166`. -/
def Jwk.export (w : PemWriter) (key : Jwk) (pub : Bool) : Res Bytes := key.mat.export w pub

end Psion
