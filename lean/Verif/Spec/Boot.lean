import Verif.Model.StateMachine
/-!
# What a boot promises about the files

Vocabulary for the theorems about boot, provisioning and key injection. A `Boot` names what was booted: the
request's envelope and pivot and the two ephemeral keys. The predicates talk only about contents of the four
files and about device events.
-/
namespace Qos
open P256

/-- The four files. -/
def Paths.all (p : Paths) : List String := [p.ephemeral, p.quorum, p.manifest, p.pivot]

/-- The four paths are different, and none is a temporary name of another. -/
structure Paths.Distinct (p : Paths) : Prop where
  nodup : p.all.Nodup
  tmp : ∀ q ∈ p.all, ∀ q' ∈ p.all, withTmpExtension q ≠ q'

/-- What is assumed of the surroundings: lawful primitives, 32-byte seeds, usable encryption randomness,
distinct paths. Nothing about the device, the file system, or secrecy. -/
structure Env.Ok (E : Env) : Prop where
  laws : E.prims.Laws
  seeds : ∀ n, (E.seedAt n).length = 32
  rands : ∀ n, (E.randAt n).Ok E.prims
  paths : E.paths.Distinct

/-- None of the four files exists. -/
def Fresh (p : Paths) (fs : Files) : Prop := ∀ q ∈ p.all, fs q = none

/-- The envelope with further share-set approvals appended. -/
def Envelope.withShares (e : Envelope) (as : List Approval) : Envelope :=
  match e with
  | .v2 e => .v2 { e with shareSetApprovals := e.shareSetApprovals ++ as }
  | .v1 e => .v1 { e with shareSetApprovals := e.shareSetApprovals ++ as }
  | .v0 e => .v0 { e with shareSetApprovals := e.shareSetApprovals ++ as }

/-- What was booted. -/
structure Boot where
  /-- for key forwarding (otherwise for provisioning by shares) -/
  forward : Bool
  envelope : Envelope
  pivot : Bytes
  /-- the key that shares, or a forwarded quorum key, are encrypted to -/
  setup : Pair
  /-- the key for the application -/
  live : Pair

/-- The requests that can cause this boot. -/
def Boot.RequestedBy (b : Boot) (m : Msg) : Prop :=
  if b.forward then m = .bootKeyForwardRequest b.envelope b.pivot
  else m = .bootStandardRequest b.envelope b.pivot ∨ m = .bootStandardJsonEnvelopeRequest b.envelope b.pivot

/-- The boot was asked for, approved, consistent, and its keys are the first two ever generated. -/
structure Boot.Ok (E : Env) (b : Boot) (reqs : List Msg) : Prop where
  requested : ∃ m ∈ reqs, b.RequestedBy m
  approved : b.envelope.checkApprovals E.prims = .ok ()
  noShares : b.envelope.shareSetApprovals = []
  pivotHash : E.prims.sha256 b.pivot = b.envelope.manifest.pivotHash
  wellFormed : b.envelope.Ok
  setup : Pair.fromMasterSeed E.prims (E.seedAt 0) = .ok b.setup
  live : Pair.fromMasterSeed E.prims (E.seedAt 1) = .ok b.live

/-- The manifest hash. -/
def Boot.hash (E : Env) (b : Boot) : Bytes := b.envelope.manifest.hash E.prims

/-- Public bytes of the two keys. -/
def Boot.setupPublic (E : Env) (b : Boot) : Bytes := (b.setup.publicKey E.prims).toBytes
def Boot.livePublic (E : Env) (b : Boot) : Bytes := (b.live.publicKey E.prims).toBytes

/-- SHA-384 extension of the zero register by a commitment. -/
def extended (p : Prims) (c : Bytes) : Bytes := p.sha384 (zeroPcr ++ c)

/-- The exchange with the device that commits and locks the bank: registers 16 and 17 were zero and unlocked,
were extended by the commitments to (manifest hash, setup key) and (manifest hash, live key), then the whole bank
was locked, the device reported all of it as locked and the two registers with the expected values. -/
def Committed (E : Env) (b : Boot) (evs : List Event) : Prop :=
  ∃ (v1 v2 v3 w1 w2 w3 : UInt16) (mod mod' : String) (max : UInt16) (locked locked' : List UInt16) (dig : NsmDigest),
    32 ≤ max ∧ (∀ i : UInt16, i < max → i ∈ locked') ∧ 16 ∉ locked ∧ 17 ∉ locked ∧
    evs =
      [.nsm .describeNSM (.describeNSM v1 v2 v3 mod max locked .sha384),
       .nsm (.describePCR 16) (.describePCR false zeroPcr),
       .nsm (.extendPCR 16 (Attest.commitment E.prims .setup (b.hash E) (b.setupPublic E)))
         (.extendPCR (extended E.prims (Attest.commitment E.prims .setup (b.hash E) (b.setupPublic E)))),
       .nsm (.describePCR 17) (.describePCR false zeroPcr),
       .nsm (.extendPCR 17 (Attest.commitment E.prims .live (b.hash E) (b.livePublic E)))
         (.extendPCR (extended E.prims (Attest.commitment E.prims .live (b.hash E) (b.livePublic E)))),
       .nsm (.lockPCRs max) .lockPCRs,
       .nsm .describeNSM (.describeNSM w1 w2 w3 mod' max locked' dig),
       .nsm (.describePCR 16)
         (.describePCR true (extended E.prims (Attest.commitment E.prims .setup (b.hash E) (b.setupPublic E)))),
       .nsm (.describePCR 17)
         (.describePCR true (extended E.prims (Attest.commitment E.prims .live (b.hash E) (b.livePublic E))))]

/-- A file with these contents is at the path. -/
def Holds (fs : Files) (path : String) (data : Bytes) : Prop := ∃ f, fs path = some f ∧ f.data = data

/-- Shares posted (ciphertext and approval): asked for in this order, each approval a valid signature over the
manifest hash by a listed share-set member. -/
structure Boot.Posted (E : Env) (b : Boot) (reqs : List Msg) (posts : List (Bytes × Approval)) : Prop where
  asked : (posts.map fun x => Msg.provisionRequest x.1 x.2).Sublist reqs
  signed : ∀ x ∈ posts, x.2.verify E.prims (b.hash E) = .ok ()
  listed : ∀ x ∈ posts, x.2.member ∈ b.envelope.manifest.shareSet.members

/-- The posted ciphertexts decrypt under the setup key to these non-empty shares. -/
def Boot.Decrypted (E : Env) (b : Boot) (posts : List (Bytes × Approval)) (shares : List Bytes) : Prop :=
  List.Forall₂ (fun x sh => b.setup.decrypt E.prims x.1 = .ok sh ∧ sh ≠ []) posts shares

/-- Where a quorum key may come from. -/
inductive Boot.Origin (E : Env) (b : Boot) (reqs : List Msg) (posts : List (Bytes × Approval)) (key : Pair) : Prop
  /-- reconstructed from posted shares, at least threshold many (and at least one) -/
  | provisioned (shares : List Bytes) : b.forward = false → b.Decrypted E posts shares →
      b.envelope.manifest.shareSet.threshold.toNat ≤ posts.length → 1 ≤ posts.length →
      Shamir.sharesReconstruct shares = .ok key.seed → Origin E b reqs posts key
  /-- forwarded: signed by the quorum key of the manifest and encrypted to the setup key -/
  | injected (ct sig : Bytes) : b.forward = true → posts = [] → .injectKeyRequest ct sig ∈ reqs →
      (key.publicKey E.prims).verify E.prims ct sig = .ok () →
      b.setup.decrypt E.prims ct = .ok key.seed → Origin E b reqs posts key

/-- Everything that must be in place when the quorum key file exists with this content. -/
structure Boot.Complete (E : Env) (b : Boot) (reqs : List Msg) (fs : Files) (data : Bytes) (key : Pair)
    (posts : List (Bytes × Approval)) : Prop where
  content : data = key.toMasterSeedHex
  seed : key.seed.length = 32 ∧ Pair.fromMasterSeed E.prims key.seed = .ok key
  names : (key.publicKey E.prims).toBytes = b.envelope.manifest.namespaceOf.quorumKey
  ephemeral : Holds fs E.paths.ephemeral b.live.toMasterSeedHex
  pivot : Holds fs E.paths.pivot b.pivot
  manifest : ∃ buf, (b.envelope.withShares (posts.map (·.2))).toStorageVec = some buf ∧
    Holds fs E.paths.manifest buf
  posted : b.Posted E reqs posts
  origin : b.Origin E reqs posts key

/-- What holds of the files at every moment after a boot began to write. -/
structure Boot.Snapshot (E : Env) (b : Boot) (reqs : List Msg) (fs : Files) : Prop where
  ephemeral : ∀ f, fs E.paths.ephemeral = some f →
    f.data = b.setup.toMasterSeedHex ∨ f.data = b.live.toMasterSeedHex
  pivot : ∀ f, fs E.paths.pivot = some f → f.data <+: b.pivot
  manifest : ∀ f, fs E.paths.manifest = some f → ∃ posts buf, b.Posted E reqs posts ∧
    (b.envelope.withShares (posts.map (·.2))).toStorageVec = some buf ∧ f.data <+: buf
  quorum : ∀ f, fs E.paths.quorum = some f → ∃ key posts, b.Complete E reqs fs f.data key posts

/-- Later files keep the quorum key, and the pivot only grows. -/
structure Later (p : Paths) (fs fs' : Files) : Prop where
  quorum : ∀ f, fs p.quorum = some f → Holds fs' p.quorum f.data
  pivot : ∀ f, fs p.pivot = some f → ∃ f', fs' p.pivot = some f' ∧ f.data <+: f'.data

/-- An event after the bank was locked: files as above or an attestation request. -/
def Boot.EventOk (E : Env) (b : Boot) (reqs : List Msg) : Event → Prop
  | .files fs => b.Snapshot E reqs fs
  | .nsm (.attestation _ _ _) _ => True
  | _ => False

/-- `Later` between file events. -/
def EventLater (p : Paths) : Event → Event → Prop
  | .files fs, .files fs' => Later p fs fs'
  | _, _ => True

/-- A trace of a boot: the locked bank first, then only good events, in order, and the present files. -/
structure Boot.Since (E : Env) (b : Boot) (reqs : List Msg) (trace : List Event) (fs : Files) : Prop where
  ok : b.Ok E reqs
  split : ∃ pre post, trace = pre ++ post ∧ Committed E b pre ∧ (∀ ev ∈ post, b.EventOk E reqs ev) ∧
    post.Pairwise (EventLater E.paths) ∧ ∀ ev ∈ post, EventLater E.paths ev (.files fs)
  now : b.Snapshot E reqs fs

/-- Boot requests carry envelopes that the Rust types can hold; every request decoded from the wire does
(`wire_ok`). -/
def Msg.WellFormed : Msg → Prop
  | .bootStandardRequest e _ => e.Ok
  | .bootStandardJsonEnvelopeRequest e _ => e.Ok
  | .bootKeyForwardRequest e _ => e.Ok
  | _ => True

/-- The requests of a history. -/
def requests (h : List (Msg × Msg)) : List Msg := h.map (·.1)

/-- The responses to a sequence of requests, paired with them. -/
def transcript (E : Env) (s : St) : List Msg → List (Msg × Msg)
  | [] => []
  | m :: ms => (m, (StateMachine.handle E m s).1) :: transcript E (StateMachine.handle E m s).2 ms

/-- The shares accepted so far, by the responses given. -/
def posted : List (Msg × Msg) → List (Bytes × Approval)
  | [] => []
  | (.provisionRequest x a, .provisionResponse _) :: h => (x, a) :: posted h
  | _ :: h => posted h

end Qos
