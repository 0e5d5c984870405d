import Verif.Model.Errors
/-!
# Members, approvals and quorum checks

`/repo/src/qos_core/src/protocol/services/boot.rs:310-326, 593-604`,
`boot/manifest.rs:402-467`, `protocol/mod.rs:25-34`.
-/
namespace Qos

/-- `manifest_hash` (boot/manifest.rs:130-136, 402-408): SHA-256 of the schema's hashed bytes. The `expect`
inside `canonical_json_hash`/`qos_hash` never fires for envelopes read from the wire (`hashInput_isSome`); the
default value stands for that unreachable case. -/
def VersionedManifest.hash (p : Prims) (m : VersionedManifest) : Bytes := p.sha256 (m.hashInput.getD [])

/-- `QosHash::qos_hash` (protocol/mod.rs:32-34) of a `QuorumMember`. -/
def QuorumMember.hash (p : Prims) (m : QuorumMember) : Bytes := p.sha256 (Borsh.quorumMember.enc m)

/-- The loop of `ensure_unique_members` (boot.rs:316-324) with the three hash sets. The code inserts in the
order alias, signing key, encryption key and stops at the first duplicate; since it returns at once, checking
the three memberships before inserting is equivalent. -/
def uniqueLoop (p : Prims) (aliases : List String) (signing encryption : List Bytes) :
    List QuorumMember → Except ProtocolError Unit
  | [] => .ok ()
  | m :: ms =>
    match P256.Public.fromBytes p m.pubKey with
    | .error e => .error (.p256Error e)
    | .ok k =>
      if m.aliasName ∈ aliases then .error .duplicateQuorumMember
      else if k.sign ∈ signing then .error .duplicateQuorumMember
      else if k.enc ∈ encryption then .error .duplicateQuorumMember
      else uniqueLoop p (m.aliasName :: aliases) (k.sign :: signing) (k.enc :: encryption) ms

/-- `ensure_unique_members` (boot.rs:310-326). -/
def ensureUniqueMembers (p : Prims) (ms : List QuorumMember) : Except ProtocolError Unit :=
  uniqueLoop p [] [] [] ms

/-- `Approval::verify` (boot.rs:595-603). -/
def Approval.verify (p : Prims) (a : Approval) (msg : Bytes) : Except ProtocolError Unit :=
  match P256.Public.fromBytes p a.member.pubKey with
  | .error e => .error (.p256Error e)
  | .ok k => match k.verify p msg a.signature with
    | .ok () => .ok ()
    | .error _ => .error .couldNotVerifyApproval

/-- The loop of `check_approvals` (boot/manifest.rs:440-460): returns the set of member hashes seen. -/
def approvalLoop (p : Prims) (hash : Bytes) (members : List QuorumMember) (seen : List Bytes) :
    List Approval → Except ProtocolError (List Bytes)
  | [] => .ok seen
  | a :: as =>
    match P256.Public.fromBytes p a.member.pubKey with
    | .error e => .error (.p256Error e)
    | .ok k => match k.verify p hash a.signature with
      | .error _ => .error (.invalidManifestApproval a)
      | .ok () =>
        if a.member ∈ members then
          if a.member.hash p ∈ seen then .error .duplicateApproval
          else approvalLoop p hash members (a.member.hash p :: seen) as
        else .error .notManifestSetMember

/-- `VersionedManifestEnvelope::check_approvals` (boot/manifest.rs:434-467). The V1-only
`ManifestEnvelope::check_approvals` (boot.rs:661-705) is the same function. -/
def Envelope.checkApprovals (p : Prims) (e : Envelope) : Except ProtocolError Unit :=
  match ensureUniqueMembers p e.manifest.manifestSet.members with
  | .error x => .error x
  | .ok () =>
    match approvalLoop p (e.manifest.hash p) e.manifest.manifestSet.members [] e.manifestSetApprovals with
    | .error x => .error x
    | .ok uniq =>
      if uniq.length < e.manifest.manifestSet.threshold.toNat then .error .notEnoughApprovals else .ok ()

end Qos
