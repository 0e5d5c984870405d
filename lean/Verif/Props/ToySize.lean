import Verif.Props.Scenario
import Verif.Props.WireState
import Verif.Lemmas.JsonSize
/-!
# The JSON texts of the concrete example are short

Computing the texts inside the kernel is slow; these bounds on their lengths suffice.
-/
namespace Qos.Json
open Lifecycle StateMachine Services P256

theorem extent_member (n : UInt8) : extent (JCodec.quorumMember.enc (toyMember n)) ≤ 2000 := by
  have hl := toyMember_length n
  have ha : (toyMember n).aliasName.toList.length = 1 := by
    show (String.ofList [Char.ofNat (97 + n.toNat)]).toList.length = 1
    rw [String.toList_ofList]; rfl
  obtain ⟨m, hm⟩ : ∃ m, m = toyMember n := ⟨_, rfl⟩
  rw [← hm] at hl ha ⊢
  unfold JCodec.quorumMember
  extents
  omega

theorem toyApproval_length (n : UInt8) (h : Bytes) : (toyApproval n h).signature.length = 64 := by
  unfold toyApproval
  obtain ⟨k, hk⟩ := toy_pair (List.replicate 32 n)
  simp only [hk, Pair.sign]
  simp [toyPrims, pad_length]

theorem extent_approval (n : UInt8) (h : Bytes) : extent (JCodec.approval.enc (toyApproval n h)) ≤ 4000 := by
  have hl := extent_member n
  have ha := toyApproval_length n h
  have hm : (toyApproval n h).member = toyMember n := rfl
  obtain ⟨a, haa⟩ : ∃ m, m = toyApproval n h := ⟨_, rfl⟩
  obtain ⟨m, hmm⟩ : ∃ m, m = toyMember n := ⟨_, rfl⟩
  rw [← hmm] at hl hm
  rw [← haa] at hm ha ⊢
  rw [← hm] at hl
  unfold JCodec.approval
  extents
  omega

theorem extent_set (t : UInt32) (ms : List QuorumMember) (ht : extent (JCodec.u32.enc t) ≤ 100)
    (h : ∀ m ∈ ms, ∃ n, m = toyMember n) :
    extent (JCodec.quorumSet.enc ⟨t, ms⟩) ≤ 1000 + 2001 * ms.length := by
  have hm := extentArr_map JCodec.quorumMember.enc 2000 ms (by
    intro m hm
    obtain ⟨n, rfl⟩ := h m hm
    exact extent_member n)
  unfold JCodec.quorumSet
  extents
  omega

theorem extent_nitro (n : NitroConfig) (h0 : n.pcr0.length ≤ 48) (h1 : n.pcr1.length ≤ 48) (h2 : n.pcr2.length ≤ 48)
    (h3 : n.pcr3.length ≤ 48) (h4 : n.awsRootCertificate.length ≤ 48) (h5 : n.qosCommit.toList.length ≤ 48) :
    extent (JCodec.nitroConfig.enc n) ≤ 5000 := by
  unfold JCodec.nitroConfig
  extents
  omega

theorem extent_pivot (p : PivotConfig) (h0 : p.hash.length ≤ 48) (h1 : extent (JCodec.restartPolicy.enc p.restart) ≤ 100)
    (h2 : p.bridgeConfig = []) (h3 : p.args = []) : extent (JCodec.pivotConfig.enc p) ≤ 5000 := by
  unfold JCodec.pivotConfig
  extents
  rw [h2, h3]
  extents
  omega

theorem extent_namespace (n : Namespace) (h0 : n.name.toList.length ≤ 48) (h1 : extent (JCodec.u32.enc n.nonce) ≤ 100)
    (h2 : n.quorumKey.length ≤ 130) : extent (JCodec.namespace.enc n) ≤ 5000 := by
  unfold JCodec.namespace
  extents
  omega

theorem extent_manifest (m : Manifest) (h1 : extent (JCodec.namespace.enc m.namespace) ≤ 5000)
    (h2 : extent (JCodec.pivotConfig.enc m.pivot) ≤ 5000) (h3 : extent (JCodec.quorumSet.enc m.manifestSet) ≤ 10000)
    (h4 : extent (JCodec.quorumSet.enc m.shareSet) ≤ 10000) (h5 : extent (JCodec.nitroConfig.enc m.enclave) ≤ 5000)
    (h6 : extent (JCodec.patchSet.enc m.patchSet) ≤ 5000) : extent (JCodec.manifest.enc m) ≤ 50000 := by
  unfold JCodec.manifest
  extents
  omega

theorem toyHash_short (b : Bytes) : (toyPrims.sha256 b).length = 32 := toyLaws.sha256_length b

theorem extent_toyManifest : extent (JCodec.manifest.enc toyManifest) ≤ 50000 :=
  extent_manifest _
    (extent_namespace _ (by decide) (by decide +kernel) (Nat.le_of_eq (toyMember_length 9)))
    (extent_pivot _ (Nat.le_trans (Nat.le_of_eq (toyHash_short _)) (by decide)) (by decide +kernel) rfl rfl)
    (Nat.le_trans (extent_set 2 [toyMember 1, toyMember 2, toyMember 3] (by decide +kernel) (by simp)) (by decide))
    (Nat.le_trans (extent_set 2 [toyMember 4, toyMember 5] (by decide +kernel) (by simp)) (by decide))
    (extent_nitro _ (by decide +kernel) (by decide +kernel) (by decide +kernel) (by decide +kernel) (by decide +kernel) (by decide +kernel))
    (by decide +kernel)

theorem extent_envelope (e : EnvelopeOf Manifest) (h1 : extent (JCodec.manifest.enc e.manifest) ≤ 50000)
    (h2 : ∀ a ∈ e.manifestSetApprovals, ∃ n h, a = toyApproval n h) (h3 : ∀ a ∈ e.shareSetApprovals, ∃ n h, a = toyApproval n h) :
    extent (JCodec.envelopeV1.enc e) ≤ 60000 + 4001 * (e.manifestSetApprovals.length + e.shareSetApprovals.length) := by
  have k2 := extentArr_map JCodec.approval.enc 4000 e.manifestSetApprovals (by
    intro a ha
    obtain ⟨n, h, rfl⟩ := h2 a ha
    exact extent_approval n h)
  have k3 := extentArr_map JCodec.approval.enc 4000 e.shareSetApprovals (by
    intro a ha
    obtain ⟨n, h, rfl⟩ := h3 a ha
    exact extent_approval n h)
  unfold JCodec.envelopeV1 JCodec.envelopeFields
  extents
  omega

theorem extent_toyEnvelope : extent (JCodec.envelope.enc toyEnvelope) ≤ 100000 := by
  let h := (VersionedManifest.v1 toyManifest).hash toyPrims
  exact Nat.le_trans (extent_envelope ⟨toyManifest, [toyApproval 3 h, toyApproval 1 h], []⟩ extent_toyManifest
    (by
      intro a ha
      rcases List.mem_cons.mp ha with rfl | ha
      · exact ⟨3, h, rfl⟩
      · rw [List.mem_singleton] at ha
        exact ⟨1, h, ha⟩) (fun a ha => nomatch ha)) (show 60000 + 4001 * (2 + 0) ≤ 100000 by decide)

theorem extent_envelopeResponse (e : Envelope) :
    extent (JCodec.msg.enc (.manifestEnvelopeResponse (some e))) ≤ 1000 + extent (JCodec.envelope.enc e) := by
  have : JCodec.msg.enc (.manifestEnvelopeResponse (some e)) = .obj [("manifestEnvelopeResponse", .obj [("manifest_envelope", JCodec.envelope.enc e)])] := rfl
  rw [this]
  extents
  omega

theorem extent_liveResponse (d : Bytes) (e : Envelope) :
    extent (JCodec.msg.enc (.liveAttestationDocResponse (.attestation d) (some e))) ≤ 1000 + 12 * d.length + extent (JCodec.envelope.enc e) := by
  have : JCodec.msg.enc (.liveAttestationDocResponse (.attestation d) (some e)) = .obj [("liveAttestationDocResponse", .obj [("nsm_response", .obj [("attestation", .obj [("document", JCodec.hexVec.enc d)])]), ("manifest_envelope", JCodec.envelope.enc e)])] := rfl
  rw [this]
  extents
  omega

theorem extent_exportRequest (d : Bytes) (e : Envelope) :
    extent (JCodec.msg.enc (.exportKeyRequest e d)) ≤ 1000 + 12 * d.length + extent (JCodec.envelope.enc e) := by
  have : JCodec.msg.enc (.exportKeyRequest e d) = .obj [("exportKeyRequest", .obj [("manifest_envelope", JCodec.envelope.enc e), ("cose_sign1_attestation_doc", JCodec.hexVec.enc d)])] := rfl
  rw [this]
  extents
  have h1 : "exportKeyRequest".toList.length = 16 := by decide
  have h2 : "cose_sign1_attestation_doc".toList.length = 26 := by decide
  omega

end Qos.Json
