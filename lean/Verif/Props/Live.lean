import Verif.Props.Forward
/-!
# C12, C13: the device holds the commitments, and attestation documents show them

Concrete cases: `Props/EnclaveExamples.lean` has one `example` for each theorem of this file.
-/
namespace Qos
open P256 Handles Services StateMachine Lifecycle

variable {E : Env} {fs0 : Files} {h : List (Msg × Msg)} {s : St} {pki : MockNsm.Pki} {start : MockNsm.State}

/-! ## The device after a boot -/

namespace MockNsm

theorem reading_some {p : Prims} {d : State} {i : UInt16} {l : Bool} {v : Bytes}
    (h : reading p pki d i = some (l, v)) : d.locked i = l ∧ d.value i = v := by
  unfold reading process at h
  by_cases hi : d.maxPcrs ≤ i
  · simp [hi] at h
  · simpa [hi] using h

theorem doc_pcr (d : State) (u n k : Option Bytes) (i : Nat) (hi : i < 32) :
    (attestationDoc pki d u n k).pcr i = some (d.value (UInt16.ofNat i)) := by
  simp only [AttestationDoc.pcr, attestationDoc]
  rcases i with _ | _ | _ | _ | _ | _ | _ | _ | _ | _ | _ | _ | _ | _ | _ | _ | _ | _ | _ | _ | _ | _ | _ | _ | _ |
    _ | _ | _ | _ | _ | _ | _ | i
  all_goals first | rfl | (exfalso; omega)

end MockNsm

/-- A register that the device listed as locked stays locked. -/
theorem Faithful.listed (hp : E.prims.Laws) (hd : HonestDevice E pki start) {s : St} (h : Faithful E s) {i : UInt16}
    {v1 v2 v3 mx : UInt16} {m : String} {l : List UInt16} {dg : NsmDigest} {t t' : List Event} (hi : i ∈ l)
    (ht : s.trace = t ++ .nsm .describeNSM (.describeNSM v1 v2 v3 m mx l dg) :: t') :
    ∃ d as, MockNsm.run E.prims pki start s.nsmHist = some (d, as) ∧ d.locked i = true ∧
      ∃ d0, MockNsm.run E.prims pki start (t.filterMap Event.request) = some (d0, t.filterMap Event.response) ∧
        d.value i = d0.value i := by
  obtain ⟨d0, hs0, h0⟩ := h.replay hp hd t _ ht
  have hans := h.answers t _ _ t' ht
  rw [hd.nsm] at hans
  unfold mockDevice at hans
  simp only [h0, MockNsm.process] at hans
  injection hans with _ _ _ _ _ hl _
  have hlk : d0.locked i = true := by
    rw [hl] at hi
    unfold MockNsm.State.lockedList at hi
    exact (List.mem_filter.1 hi).2
  obtain ⟨d, as, h1, _, _⟩ := MockNsm.never_panics E.prims hp pki
    ((Event.nsm .describeNSM (.describeNSM v1 v2 v3 m mx l dg) :: t').filterMap Event.request) d0 hs0
  have hstep := MockNsm.run_step _ _ i _ _ _ _ h1
  refine ⟨d, t.filterMap Event.response ++ as, ?_, hstep.2.1 hlk, d0, h0, by rw [hstep.2.2.1, hstep.2.2.2 hlk]; rfl⟩
  rw [h.hist, ht, List.filterMap_append, MockNsm.run_append, h0]
  simp only [h1]

/-- The device at the end of a boot, and at every later time. -/
theorem Boot.Since.device {b : Boot} (H : History E fs0 h s) (hd : HonestDevice E pki start)
    (hb : b.Since E (requests h) s.trace s.files) :
    ∃ d as, MockNsm.run E.prims pki start s.nsmHist = some (d, as) ∧
      d.value 16 = Attest.committed E.prims .setup (b.hash E) (b.setupPublic E) ∧
      d.value 17 = Attest.committed E.prims .live (b.hash E) (b.livePublic E) ∧
      ∀ i : UInt16, i < 32 → d.locked i = true ∧ (i ≠ 16 → i ≠ 17 → d.value i = start.value i) := by
  obtain ⟨pre, post, ht, hc, _⟩ := hb.split
  have hf := Reach.faithful H.reach
  have hp := H.env.laws
  obtain ⟨v1, v2, v3, w1, w2, w3, m1, m2, mx, l1, l2, dg, hmx, hall, _, _, he⟩ := hc
  rw [he] at ht
  obtain ⟨d, as, r1, r2⟩ := hf.locked hp hd (i := 16)
    (v := extended E.prims (Attest.commitment E.prims .setup (b.hash E) (b.setupPublic E)))
    (t := [_, _, _, _, _, _, _]) ht
  obtain ⟨d', as', q1, q2⟩ := hf.locked hp hd (i := 17)
    (v := extended E.prims (Attest.commitment E.prims .live (b.hash E) (b.livePublic E)))
    (t := [_, _, _, _, _, _, _, _]) ht
  rw [r1, Option.some.injEq, Prod.mk.injEq] at q1
  obtain ⟨rfl, rfl⟩ := q1
  refine ⟨d, as, r1, (MockNsm.reading_some r2).2, (MockNsm.reading_some q2).2, ?_⟩
  intro i hi
  obtain ⟨d', as', q1, q3, d0, q4, q5⟩ := hf.listed hp hd (i := i) (hall i (UInt16.lt_of_lt_of_le hi hmx))
    (t := [_, _, _, _, _, _]) ht
  rw [r1, Option.some.injEq, Prod.mk.injEq] at q1
  obtain ⟨rfl, rfl⟩ := q1
  refine ⟨q3, fun h16 h17 => ?_⟩
  rw [q5, (MockNsm.run_step _ _ i _ _ _ _ q4).2.2.1]
  simp [Event.request, Event.response, MockNsm.accepted, h16.symm, h17.symm]

theorem Boot.sized (b : Boot) (H : History E fs0 h s) (hd : HonestDevice E pki start) {d : MockNsm.State}
    (r16 : d.value 16 = Attest.committed E.prims .setup (b.hash E) (b.setupPublic E))
    (r17 : d.value 17 = Attest.committed E.prims .live (b.hash E) (b.livePublic E))
    (rl : ∀ i : UInt16, i < 32 → i ≠ 16 → i ≠ 17 → d.value i = start.value i) (i : UInt16) (hi : i < 32) :
    (d.value i).length = 48 := by
  by_cases h16 : i = 16
  · rw [h16, r16]; exact H.env.laws.sha384_length _
  by_cases h17 : i = 17
  · rw [h17, r17]; exact H.env.laws.sha384_length _
  rw [rl i hi h16 h17]
  exact hd.started.sized i

/-- C12, with the NSM model as device: whenever any file has been written, now and at any later time, registers 16
and 17 hold the extension of zero by the commitments to the booted manifest with the setup and the live key, and every
register of the bank is locked, the others with the values they had when the enclave started. -/
theorem device_holds_commitments (H : History E fs0 h s) (hd : HonestDevice E pki start)
    (hw : s.files ≠ fs0 ∨ ∃ fs, Event.files fs ∈ s.trace) :
    ∃ (e : Envelope) (pivot : Bytes) (setup live : Pair) (d : MockNsm.State) (as : List NsmResponse),
      (∃ m ∈ requests h, m.BootsWith e pivot) ∧ ApprovedBoot E.prims e pivot ∧
      Pair.fromMasterSeed E.prims (E.seedAt 0) = .ok setup ∧ Pair.fromMasterSeed E.prims (E.seedAt 1) = .ok live ∧
      MockNsm.run E.prims pki start s.nsmHist = some (d, as) ∧
      MockNsm.reading E.prims pki d 16 =
        some (true, Attest.committed E.prims .setup (e.manifest.hash E.prims) (setup.publicKey E.prims).toBytes) ∧
      MockNsm.reading E.prims pki d 17 =
        some (true, Attest.committed E.prims .live (e.manifest.hash E.prims) (live.publicKey E.prims).toBytes) ∧
      (∀ i : UInt16, i < 32 → ∃ v, MockNsm.reading E.prims pki d i = some (true, v)) ∧
      ∀ i : UInt16, i < 32 → i ≠ 16 → i ≠ 17 → MockNsm.reading E.prims pki d i = some (true, start.value i) := by
  have : ∃ b, Booted E b h s := by
    rcases H.inv with hi | hu | hb
    · exfalso
      rcases hw with hw | ⟨fs, hw⟩
      · exact hw hi.files
      · rw [hi.trace] at hw; cases hw
    · exfalso
      rcases hw with hw | ⟨fs, hw⟩
      · exact hw hu.untouched.1
      · obtain ⟨r, a, he⟩ := hu.untouched.2 _ hw
        cases he
    · exact hb
  obtain ⟨b, hb⟩ := this
  have hok := hb.since.ok
  obtain ⟨d, as, h1, h2, h3, h4⟩ := hb.since.device H hd
  have hmax : d.maxPcrs = 32 := (MockNsm.run_step _ _ 0 _ _ _ _ h1).1.trans hd.started.max
  have hread : ∀ i : UInt16, i < 32 → MockNsm.reading E.prims pki d i = some (true, d.value i) := by
    intro i hi
    rw [MockNsm.reading_eq _ _ _ _ (by rw [hmax]; exact hi), (h4 i hi).1]
  refine ⟨b.envelope, b.pivot, b.setup, b.live, d, as, hok.asked, hok.approvedBoot, hok.setup, hok.live, h1, ?_, ?_,
    fun i hi => ⟨_, hread i hi⟩, fun i hi n1 n2 => by rw [hread i hi, (h4 i hi).2 n1 n2]⟩
  · rw [hread 16 (by decide), h2]; rfl
  · rw [hread 17 (by decide), h3]; rfl

/-! ## C13 -/

theorem liveAttestationDoc_run (hio : ReliableFiles E) {s : St} {k : Pair} {e : Envelope} {buf : Bytes}
    (hl : k.seed.length = 32) (hk : Pair.fromMasterSeed E.prims k.seed = .ok k)
    (hh : Holds s.files E.paths.ephemeral k.toMasterSeedHex) (he : e.Ok) (hb : e.toStorageVec = some buf)
    (hm : Holds s.files E.paths.manifest buf) :
    liveAttestationDoc E s = (.ok (E.nsm s.nsmHist (.attestation (some (e.manifest.hash E.prims)) none
        (some (k.publicKey E.prims).toBytes))),
      ask E (bump (bump s)) (.attestation (some (e.manifest.hash E.prims)) none (some (k.publicKey E.prims).toBytes))) := by
  unfold liveAttestationDoc
  rw [bind_run]
  unfold getEphemeralKey
  rw [readPair_total hio hl hk hh]
  simp only
  rw [bind_run, getManifestEnvelope_total (s := bump s) hio he hb hm]
  rfl

/-- Which of the two generated keys an enclave shows in its attestation documents: the first (setup) while it waits for
shares or a forwarded key, the second (live) once it has the quorum key. -/
def shownKey : Phase → Option (Nat × Attest.Kind)
  | .waitingForQuorumShards => some (0, .setup)
  | .waitingForForwardedKey => some (0, .setup)
  | .quorumKeyProvisioned => some (1, .live)
  | _ => none

/-- What is known of the shown key. -/
theorem shown_key (H : History E fs0 h s) {n : Nat} {kind : Attest.Kind} (hs : shownKey s.phase = some (n, kind)) :
    ∃ (b : Boot) (key : Pair) (posts : List (Bytes × Approval)) (buf : Bytes),
      Pair.fromMasterSeed E.prims (E.seedAt n) = .ok key ∧ b.Since E (requests h) s.trace s.files ∧
      b.Posted E (requests h) posts ∧ (b.envelope.withShares (posts.map (·.2))).toStorageVec = some buf ∧
      Holds s.files E.paths.manifest buf ∧ Holds s.files E.paths.pivot b.pivot ∧
      Holds s.files E.paths.ephemeral key.toMasterSeedHex ∧
      (key.publicKey E.prims).toBytes = (match (generalizing := false) kind with | .setup => b.setupPublic E | .live => b.livePublic E) := by
  have hin : s.phase ∈ installedPhases := by
    revert hs; generalize s.phase = p
    cases p <;> simp [shownKey, installedPhases]
  obtain ⟨b, hb⟩ := H.booted hin
  cases hb with
  | waiting h1 hw =>
    have : (n, kind) = (0, Attest.Kind.setup) := by
      rw [h1] at hs; revert hs; split <;> (intro hs; simpa [shownKey] using hs.symm)
    cases this
    obtain ⟨buf, m1, m2⟩ := hw.manifest
    exact ⟨b, b.setup, _, buf, hw.since.ok.setup, hw.since, hw.posted, m1, m2, hw.pivot, hw.ephemeral, rfl⟩
  | provisioned k h1 hw =>
    have : (n, kind) = (1, Attest.Kind.live) := by
      rw [h1] at hs; simpa [shownKey] using hs.symm
    cases this
    obtain ⟨buf, m1, m2⟩ := hw.complete.manifest
    exact ⟨b, b.live, _, buf, hw.since.ok.live, hw.since, hw.complete.posted, m1, m2, hw.complete.pivot,
      hw.complete.ephemeral, rfl⟩
  | broken h1 _ => rw [h1] at hin; exact absurd hin (by decide)

/-- C13: the ephemeral key file holds the setup key while waiting and the live key after provisioning or injection, and a
live attestation request is answered with what the device says to an attestation over exactly the hash of the stored
manifest and that key. -/
theorem attested_key (H : History E fs0 h s) (hio : ReliableFiles E) {n : Nat} {kind : Attest.Kind}
    (hs : shownKey s.phase = some (n, kind)) :
    ∃ (e : Envelope) (pivot : Bytes) (key : Pair), Installed E e pivot s.files ∧
      Pair.fromMasterSeed E.prims (E.seedAt n) = .ok key ∧
      Holds s.files E.paths.ephemeral (Hex.encode key.seed) ∧
      (handle E .liveAttestationDocRequest s).1 = .liveAttestationDocResponse
        (E.nsm s.nsmHist (.attestation (some (e.manifest.hash E.prims)) none (some (key.publicKey E.prims).toBytes)))
        (some e) := by
  obtain ⟨b, key, posts, buf, k1, hS, hP, m1, m2, pv, k2, _⟩ := shown_key H hs
  have hok := b.stored H.env hS.ok hP
  obtain ⟨buf', r1, r2⟩ := storage_roundtrip _ hok
  have hseed := pair_seed _ _ _ k1
  have hl : key.seed.length = 32 := by rw [hseed]; exact H.env.seeds n
  refine ⟨_, b.pivot, key, ⟨⟨buf, m1, m2⟩, pv, ⟨buf', r1, r2⟩, hok⟩, k1, k2, ?_⟩
  have hserved : Lifecycle.kind .liveAttestationDocRequest ∈ served s.phase := by
    revert hs; generalize s.phase = p
    cases p <;> simp [shownKey] <;> intros <;> decide
  rw [handle_live hserved, liveAttestationDoc_run hio hl (by rw [hseed]; exact k1) k2 hok m1 m2]
  simp only
  have hg : getManifestEnvelope E (ask E (bump (bump s)) (.attestation
      (some ((b.envelope.withShares (posts.map (·.2))).manifest.hash E.prims)) none
        (some (key.publicKey E.prims).toBytes))) = _ :=
    getManifestEnvelope_total hio hok m1 m2
  unfold StateMachine.optional
  rw [hg]
  rfl

/-- C13: with the NSM model as device, that document verifies as a setup document while waiting and as a live
document afterwards, for the stored manifest, if registers 0 to 3 are the expected ones; and it does not verify as the
other kind unless the two keys are equal or there is a SHA-384 collision. -/
theorem attestation_verifies (H : History E fs0 h s) (hd : HonestDevice E pki start) (hio : ReliableFiles E) {n : Nat}
    {kind : Attest.Kind} (hs : shownKey s.phase = some (n, kind)) :
    ∃ (e : Envelope) (pivot : Bytes) (key : Pair) (doc : AttestationDoc), Installed E e pivot s.files ∧
      Pair.fromMasterSeed E.prims (E.seedAt n) = .ok key ∧
      (handle E .liveAttestationDocRequest s).1 =
        .liveAttestationDocResponse (.attestation (pki.signDoc doc)) (some e) ∧
      doc.publicKey = some (key.publicKey E.prims).toBytes ∧ IssuedDoc pki start doc ∧
      (∀ i, i < 32 → i ≠ 16 → i ≠ 17 → doc.pcr i = some (start.value (UInt16.ofNat i))) ∧
      (∀ i : Attest.Input, i.manifestHash = e.manifest.hash E.prims → doc.pcr 0 = some i.pcr0 →
        doc.pcr 1 = some i.pcr1 → doc.pcr 2 = some i.pcr2 → doc.pcr 3 = some i.pcr3 →
        Attest.verifyManifest E.prims kind doc i = .ok ()) ∧
      (∀ (kind' : Attest.Kind) (i : Attest.Input), kind' ≠ kind → Attest.verifyManifest E.prims kind' doc i = .ok () →
        (∃ k0 k1, Pair.fromMasterSeed E.prims (E.seedAt 0) = .ok k0 ∧ Pair.fromMasterSeed E.prims (E.seedAt 1) = .ok k1 ∧
          k0.publicKey E.prims = k1.publicKey E.prims) ∨ ∃ x y, x ≠ y ∧ E.prims.sha384 x = E.prims.sha384 y) := by
  obtain ⟨e, pivot, key, hin, k1, k2, hresp⟩ := attested_key H hio hs
  obtain ⟨b, key', posts, buf, k1', hS, hP, m1, m2, pv, _, hpub⟩ := shown_key H hs
  rw [k1, Except.ok.injEq] at k1'
  subst k1'
  have hin' : Installed E (b.envelope.withShares (posts.map (·.2))) b.pivot s.files := by
    obtain ⟨buf', r1, r2⟩ := storage_roundtrip _ (b.stored H.env hS.ok hP)
    exact ⟨⟨buf, m1, m2⟩, pv, ⟨buf', r1, r2⟩, b.stored H.env hS.ok hP⟩
  obtain ⟨rfl, rfl⟩ := hin.unique hin'
  obtain ⟨d, as, r1, r16, r17, rl⟩ := hS.device H hd
  have hhash : (b.envelope.withShares (posts.map (·.2))).manifest.hash E.prims = b.hash E := by
    rw [Envelope.manifest_withShares]; rfl
  rw [hhash] at hresp
  let doc := MockNsm.attestationDoc pki d (some (b.hash E)) none (some (key.publicKey E.prims).toBytes)
  have hpcr : ∀ i, i < 32 → doc.pcr i = some (d.value (UInt16.ofNat i)) := fun i hi => MockNsm.doc_pcr _ _ _ _ i hi
  have hnsm : E.nsm s.nsmHist (.attestation (some (b.hash E)) none (some (key.publicKey E.prims).toBytes)) =
      .attestation (pki.signDoc doc) := by
    rw [hd.nsm]
    unfold mockDevice
    rw [r1]
    rfl
  rw [hnsm] at hresp
  have h16 : doc.pcr 16 = some (Attest.committed E.prims .setup (b.hash E) (b.setupPublic E)) := by
    rw [hpcr 16 (by omega)]; exact congrArg some r16
  have h17 : doc.pcr 17 = some (Attest.committed E.prims .live (b.hash E) (b.livePublic E)) := by
    rw [hpcr 17 (by omega)]; exact congrArg some r17
  refine ⟨_, b.pivot, key, doc, hin, k1, hresp, rfl,
    ⟨_, _, _, rfl, fun i hi => (rl i hi).2, b.sized H hd r16 r17 fun i hi => (rl i hi).2, H.env.laws.sha256_length _,
      (P256.public_of_pair _ H.env.laws _ _ k1).2⟩, ?_, ?_, ?_⟩
  · intro i hi n1 n2
    have hv : (UInt16.ofNat i).toNat = i := by simp [UInt16.toNat_ofNat]; omega
    rw [hpcr i hi, (rl _ (by rw [UInt16.lt_iff_toNat_lt, hv]; exact hi)).2
      (fun hc => n1 (by rw [← hv, hc]; rfl)) (fun hc => n2 (by rw [← hv, hc]; rfl))]
  · intro i hi h0 h1 h2 h3
    rw [hhash] at hi
    refine (Attest.verify_manifest_exact ..).2 ⟨(key.publicKey E.prims).toBytes, by rw [hi]; rfl, rfl, h0, h1, h2, h3,
      fun n hn => by rw [hpcr n hn]; rfl, rfl, ?_⟩
    rw [hi]
    cases kind with
    | setup => simp only [h16]; rw [show (key.publicKey E.prims).toBytes = _ from hpub]
    | live => simp only [h17]; rw [show (key.publicKey E.prims).toBytes = _ from hpub]
  · intro kind' i hne hv
    obtain ⟨k', hm⟩ := (Attest.verify_manifest_exact ..).1 hv
    have hkey : k' = (key.publicKey E.prims).toBytes := by
      have := hm.publicKey
      exact (Option.some.inj this).symm
    have hcom := hm.commitment
    have concl : b.setupPublic E = b.livePublic E → ∃ k0 k1, Pair.fromMasterSeed E.prims (E.seedAt 0) = .ok k0 ∧
        Pair.fromMasterSeed E.prims (E.seedAt 1) = .ok k1 ∧ k0.publicKey E.prims = k1.publicKey E.prims := by
      intro heq
      refine ⟨b.setup, b.live, hS.ok.setup, hS.ok.live, ?_⟩
      have h1 := (public_of_pair _ H.env.laws _ _ hS.ok.setup).1
      have h2 := (public_of_pair _ H.env.laws _ _ hS.ok.live).1
      have heq' : (b.setup.publicKey E.prims).toBytes = (b.live.publicKey E.prims).toBytes := heq
      rw [heq', h2, Except.ok.injEq] at h1
      exact h1.symm
    cases kind with
    | setup =>
      cases kind' with
      | setup => exact absurd rfl hne
      | live =>
        simp only [h17, Option.some.injEq] at hcom
        rcases Attest.commitment_collision _ H.env.laws _ _ _ _ _ _ hcom with hc | hc
        · left; apply concl
          rw [hc.2.2, hkey]; exact hpub.symm
        · exact .inr hc
    | live =>
      cases kind' with
      | live => exact absurd rfl hne
      | setup =>
        simp only [h16, Option.some.injEq] at hcom
        rcases Attest.commitment_collision _ H.env.laws _ _ _ _ _ _ hcom with hc | hc
        · left; apply concl
          rw [hc.2.2, hkey]; exact hpub
        · exact .inr hc

end Qos
