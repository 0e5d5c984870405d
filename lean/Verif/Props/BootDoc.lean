import Verif.Props.Live
import Verif.Props.Completes
import Verif.Props.Scenario
/-!
# C13, the document handed out by the boot itself
-/
namespace Qos.Lifecycle
open StateMachine Services Handles P256
variable {E : Env} {pki : MockNsm.Pki} {start : MockNsm.State} {fs0 : Files} {h : List (Msg × Msg)} {s : St}

theorem ends_any {α : Type} {m : M α} {s : St} {Q : α → St → Prop} (h : ∀ a s', Q a s') :
    Ends m s Q (fun _ _ => True) := by
  unfold Ends
  match m s with
  | (.ok a, s') => exact h a s'
  | (.error e, s') => trivial

/-- The answer of a boot is what the device says to the last question put to it. -/
theorem putManifestAndPivot_answer {e : Envelope} {pivot : Bytes} (hs : s.seeds = 0) :
    Ends (putManifestAndPivot E e pivot) s (fun r s' => ∃ setup hist, Pair.fromMasterSeed E.prims (E.seedAt 0) = .ok setup ∧
      s'.nsmHist = hist ++ [.attestation (some (e.manifest.hash E.prims)) none (some (setup.publicKey E.prims).toBytes)] ∧
      r = E.nsm hist (.attestation (some (e.manifest.hash E.prims)) none (some (setup.publicKey E.prims).toBytes)))
      (fun _ _ => True) := by
  unfold putManifestAndPivot
  refine ends_bind (ends_lift (fun _ _ => ?_) fun _ _ => trivial)
  have g1 : Ends (generatePair E) s (fun k s' => Pair.fromMasterSeed E.prims (E.seedAt 0) = .ok k) (fun _ _ => True) := by
    unfold Ends generatePair
    rw [hs]
    cases hx : liftP256 (Pair.fromMasterSeed E.prims (E.seedAt 0)) with
    | error e => trivial
    | ok k => exact liftP256_ok hx
  refine ends_bind (ends_mono g1 (fun k s1 hk => ?_) (fun _ _ h => h))
  refine ends_bind (ends_any fun live s2 => ?_)
  refine ends_bind (ends_any fun _ s3 => ?_)
  refine ends_bind (ends_any fun _ s4 => ?_)
  refine ends_bind (ends_any fun _ s5 => ?_)
  refine ends_bind (ends_any fun _ s6 => ?_)
  refine ends_bind (ends_any fun _ s7 => ?_)
  exact ⟨k, s7.nsmHist, hk, rfl, rfl⟩

/-- C13: with the NSM model as device, the document in the answer to an accepted boot request carries the manifest's
hash and the public key of the setup key, and verifies as a setup document for the booted manifest. -/
theorem boot_document (H : History E fs0 h s) (hd : HonestDevice E pki start) {m : Msg} {e : Envelope} {pivot : Bytes}
    (he : e.Ok) (hm : m.BootsWith e pivot) {r : NsmResponse}
    (hr : (handle E m s).1 = .bootStandardResponse r ∨ (handle E m s).1 = .bootKeyForwardResponse r) :
    ∃ (setup : Pair) (doc : AttestationDoc), Pair.fromMasterSeed E.prims (E.seedAt 0) = .ok setup ∧
      r = .attestation (pki.signDoc doc) ∧ doc.publicKey = some (setup.publicKey E.prims).toBytes ∧
      doc.userData = some (e.manifest.hash E.prims) ∧ IssuedDoc pki start doc ∧
      (∀ i, i < 32 → i ≠ 16 → i ≠ 17 → doc.pcr i = some (start.value (UInt16.ofNat i))) ∧
      ∀ i : Attest.Input, i.manifestHash = e.manifest.hash E.prims → doc.pcr 0 = some i.pcr0 →
        doc.pcr 1 = some i.pcr1 → doc.pcr 2 = some i.pcr2 → doc.pcr 3 = some i.pcr3 →
        Attest.verifyManifest E.prims .setup doc i = .ok () := by
  have hs : s.phase = .waitingForBootInstruction := by
    by_contra hne
    have hu := unserved_rejected E m s (by
      rcases hm with rfl | rfl | rfl <;> revert hne <;> generalize s.phase = p <;> cases p <;> simp [kind, served])
    rw [hu] at hr
    rcases hr with hr | hr <;> cases hr
  have hi := H.idle hs
  have hrun : ∃ s', putManifestAndPivot E e pivot s = (.ok r, s') ∧ ∃ p, (handle E m s).2 = { s' with phase := p } := by
    have step : ∀ (f : NsmResponse → Msg) (p : Phase), (∀ r', f r' = .bootStandardResponse r ∨ f r' = .bootKeyForwardResponse r → r' = r) →
        (handle E m s = match putManifestAndPivot E e pivot s with
          | (.ok r, s') => (f r, { s' with phase := p })
          | (.error e, s') => (.protocolErrorResponse e, { s' with phase := .unrecoverableError })) →
        ∃ s', putManifestAndPivot E e pivot s = (.ok r, s') ∧ ∃ p, (handle E m s).2 = { s' with phase := p } := by
      intro f p hf hh
      rw [hh] at hr ⊢
      match hx : putManifestAndPivot E e pivot s with
      | (.ok r', s') =>
        rw [hx] at hr
        obtain rfl := hf _ hr
        exact ⟨s', rfl, p, rfl⟩
      | (.error x, s') =>
        rw [hx] at hr
        rcases hr with hr | hr <;> cases hr
    rcases hm with hm | hm | hm
    · exact step .bootStandardResponse _ (by rintro _ (h | h) <;> cases h; rfl) (handle_standard hs (.inl hm))
    · exact step .bootStandardResponse _ (by rintro _ (h | h) <;> cases h; rfl) (handle_standard hs (.inr hm))
    · exact step .bootKeyForwardResponse _ (by rintro _ (h | h) <;> cases h; rfl) (by rw [hm]; exact handle_forward hs e pivot)
  obtain ⟨s', hrun, p, hp⟩ := hrun
  obtain ⟨setup, hist, k0, hx, hr'⟩ := ends_ok (putManifestAndPivot_answer hi.seeds) hrun
  have H' := H.step (m := m) (by rcases hm with rfl | rfl | rfl <;> exact he)
  obtain ⟨fwd, hfwd⟩ : ∃ fwd, ∀ setup live, (Boot.mk fwd e pivot setup live).RequestedBy m := by
    rcases hm with hm | hm | hm
    · exact ⟨false, fun _ _ => by simp [Boot.RequestedBy, hm]⟩
    · exact ⟨false, fun _ _ => by simp [Boot.RequestedBy, hm]⟩
    · exact ⟨true, fun _ _ => by simp [Boot.RequestedBy, hm]⟩
  obtain ⟨b, -, rfl, rfl, hw⟩ := ends_ok (putManifestAndPivot_ends (reqs := requests (h ++ [(m, (handle E m s).1)])) H.env
    H.fresh (pivot := pivot) he fwd (m := m) (by simp [requests]) hfwd hi.files hi.trace hi.seeds hi.shares) hrun
  obtain ⟨d, as, r1, r16, r17, rl⟩ := Boot.Since.device H' hd (b := b) (by rw [hp]; exact hw.since)
  rw [hp, show ({ s' with phase := p } : St).nsmHist = s'.nsmHist from rfl, hx, MockNsm.run_append] at r1
  have hset : b.setup = setup := by
    have := hw.since.ok.setup
    rw [k0, Except.ok.injEq] at this
    exact this.symm
  cases h0 : MockNsm.run E.prims pki start hist with
  | none => rw [h0] at r1; cases r1
  | some x =>
    obtain ⟨d0, as0⟩ := x
    rw [h0] at r1
    have hd0 : d0 = d := by
      simp only [MockNsm.run, MockNsm.process] at r1
      cases r1
      rfl
    subst hd0
    let doc := MockNsm.attestationDoc pki d0 (some (b.hash E)) none (some (setup.publicKey E.prims).toBytes)
    have hpcr : ∀ i, i < 32 → doc.pcr i = some (d0.value (UInt16.ofNat i)) := fun i hi => MockNsm.doc_pcr _ _ _ _ i hi
    refine ⟨setup, doc, k0, ?_, rfl, rfl, ⟨_, _, _, rfl, fun i hi => (rl i hi).2,
      b.sized H hd r16 r17 fun i hi => (rl i hi).2, H.env.laws.sha256_length _,
      (P256.public_of_pair _ H.env.laws _ _ k0).2⟩, ?_, ?_⟩
    · rw [hr', hd.nsm]
      unfold mockDevice
      rw [h0]
      rfl
    · intro i hi n1 n2
      have hv : (UInt16.ofNat i).toNat = i := by simp [UInt16.toNat_ofNat]; omega
      rw [hpcr i hi, (rl _ (by rw [UInt16.lt_iff_toNat_lt, hv]; exact hi)).2
        (fun hc => n1 (by rw [← hv, hc]; rfl)) (fun hc => n2 (by rw [← hv, hc]; rfl))]
    · intro i hi h0 h1 h2 h3
      refine (Attest.verify_manifest_exact ..).2 ⟨(setup.publicKey E.prims).toBytes, by rw [hi]; rfl, rfl, h0, h1, h2, h3,
        fun n hn => by rw [hpcr n hn]; rfl, rfl, ?_⟩
      rw [hi, show doc.pcr 16 = some (Attest.committed E.prims .setup (b.hash E) (b.setupPublic E)) by
        rw [hpcr 16 (by omega)]; exact congrArg some r16, ← hset]
      rfl

-- The toy enclave is booted over the toy device and hands out such a document.
example : ∃ (setup : Pair) (doc : AttestationDoc), Pair.fromMasterSeed toyEnv.prims (toyEnv.seedAt 0) = .ok setup ∧
    doc.publicKey = some (setup.publicKey toyEnv.prims).toBytes ∧
    doc.userData = some (toyEnvelope.manifest.hash toyEnv.prims) ∧
    (handle toyEnv (.bootStandardRequest toyEnvelope [1, 2, 3]) (St.initial noFiles)).1 =
      .bootStandardResponse (.attestation (MockNsm.toyPki.signDoc doc)) := by
  obtain ⟨-, -, -, ⟨r, hr⟩, -⟩ := toy_boot (m := .bootStandardRequest toyEnvelope [1, 2, 3]) (.inl rfl)
  obtain ⟨setup, doc, h1, h2, h3, h4, -⟩ := boot_document (History.start toyEnv_ok toy_fresh) toy_device toyEnvelope_ok
    (.inl rfl) hr
  refine ⟨setup, doc, h1, h3, h4, ?_⟩
  subst h2
  rcases hr with hr | hr
  · exact hr
  · rcases handle_standard (E := toyEnv) (s := St.initial noFiles) rfl (.inl rfl) ▸ hr with hr
    revert hr
    cases putManifestAndPivot toyEnv toyEnvelope [1, 2, 3] (St.initial noFiles) with
    | mk r s => cases r <;> intro hr <;> cases hr

end Qos.Lifecycle
