import Verif.Spec.Client
import Verif.Spec.Forward
/-!
# Handing the quorum key to a new enclave: the trust between two devices
-/
namespace Qos.Client

/-- An enclave accepts, at the given time, the attestation documents that another device signs. -/
structure Recognises (E : Env) (pki : MockNsm.Pki) (start : MockNsm.State) (time : Nat) : Prop where
  root : 1 ≤ pki.root.length ∧ pki.root.length ≤ 1024
  intermediate : 1 ≤ pki.intermediate.length ∧ pki.intermediate.length ≤ 1024
  chain : E.pki.chain [pki.intermediate] E.rootCa pki.leaf time = .ok ()
  decode : ∀ doc, IssuedDoc pki start doc → E.pki.decode (pki.signDoc doc) = .ok doc
  signature : ∀ doc, IssuedDoc pki start doc → E.pki.signature pki.leaf (pki.signDoc doc) = .ok ()
  size : ∀ doc, IssuedDoc pki start doc → (pki.signDoc doc).length ≤ 1024 * 1024

/-- The text of a key file: the encrypted key and the signature in hexadecimal digits. -/
def keyFile (ct sig : Bytes) : Bytes :=
  utf8 "{\"encrypted_quorum_key\":\"" ++ Hex.encode ct ++ utf8 "\",\"signature\":\"" ++ Hex.encode sig ++ utf8 "\"}"

end Qos.Client
