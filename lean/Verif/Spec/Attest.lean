import Verif.Model.Attest
/-!
# What an acceptable attestation document is

Written from the English properties; no verifier function is used.
-/
namespace Qos.Attest

/-- Optional field, when present satisfies `P`. -/
def OptAll {α : Type} (P : α → Prop) : Option α → Prop
  | none => True
  | some a => P a

/-- Well-formed document (syntax only). -/
structure WellFormed (d : AttestationDoc) : Prop where
  moduleId : d.moduleId ≠ ""
  digest : d.digest = .sha384
  pcrCount : 1 ≤ d.pcrs.length ∧ d.pcrs.length ≤ 32
  pcrEntries : ∀ i v, (i, v) ∈ d.pcrs → i ≤ 32 ∧ (v.length = 32 ∨ v.length = 48 ∨ v.length = 64)
  bundle : d.cabundle ≠ []
  certs : ∀ c ∈ d.cabundle, 1 ≤ c.length ∧ c.length ≤ 1024
  timestamp : d.timestamp ≠ 0
  publicKey : OptAll (fun k => 1 ≤ k.length ∧ k.length ≤ 1024) d.publicKey
  userData : OptAll (fun u => u.length ≤ 512) d.userData
  nonce : OptAll (fun n => n.length ≤ 512) d.nonce

/-- The register a document must show for a key committed with a manifest: one extension, starting from 48
zero bytes, by the hash of the JSON text naming the domain, the manifest hash and the key. -/
def committed (p : Prims) (kind : Kind) (manifestHash key : Bytes) : Bytes :=
  p.sha384 (List.replicate 48 0 ++ p.sha384 (preimage kind manifestHash key))

/-- The document is for this manifest, and carries a key committed under `kind`. -/
structure Matches (p : Prims) (kind : Kind) (d : AttestationDoc) (i : Input) (key : Bytes) : Prop where
  userData : d.userData = some i.manifestHash
  nonce : d.nonce = none
  pcr0 : d.pcr 0 = some i.pcr0
  pcr1 : d.pcr 1 = some i.pcr1
  pcr2 : d.pcr 2 = some i.pcr2
  pcr3 : d.pcr 3 = some i.pcr3
  allPcrs : ∀ n, n < 32 → (d.pcr n).isSome
  publicKey : d.publicKey = some key
  commitment : d.pcr (match kind with | .setup => 16 | .live => 17) = some (committed p kind i.manifestHash key)

end Qos.Attest
