import Verif.Model.Host
import Verif.Props.WireState
import Verif.Props.Live
import Verif.Props.ToySize
/-!
# C50: the host's HTTP endpoints
-/
namespace Qos.Host
open StateMachine Services Lifecycle Wire P256
variable {S : Type} {E : Env}

theorem errorResponse_reads (status : Nat) (e : ProtocolError) (h : JCodec.protocolError.ok e) :
    ∃ b, errorResponse status e = some ⟨status, b⟩ ∧ fromWire b = .ok (.protocolErrorResponse e, .json) := by
  obtain ⟨r, h1, h2⟩ := errorAnswer_reads e
  refine ⟨r, ?_, h2 h⟩
  unfold errorResponse
  rw [h1]

/-! ## Property theorems -/

/-- C50: `/message` hands every body of at most 256 MiB to the enclave exactly as it is, once, and hands the enclave's
answer back exactly as it is with status 200; a longer body never reaches the enclave and is answered with status 400;
when the enclave cannot be reached the status is 500. The body that goes with an error status is a protocol error message
that reads back. -/
theorem message_exact (call : Call S) (body : Bytes) (s : S) :
    (body.length ≤ 256 * 1024 * 1024 → ∀ s' b, call s body = (s', some b) → message call body s = (s', some ⟨200, b⟩)) ∧
    (body.length ≤ 256 * 1024 * 1024 → ∀ s', call s body = (s', none) →
      ∃ b, message call body s = (s', some ⟨500, b⟩) ∧ fromWire b = .ok (.protocolErrorResponse .enclaveClient, .json)) ∧
    (256 * 1024 * 1024 < body.length →
      ∃ b, message call body s = (s, some ⟨400, b⟩) ∧ fromWire b = .ok (.protocolErrorResponse .oversizeMsg, .json)) := by
  have hm : maxEncodedMsgLen = 256 * 1024 * 1024 := rfl
  refine ⟨fun h s' b hc => ?_, fun h s' hc => ?_, fun h => ?_⟩
  · unfold message
    rw [if_neg (by rw [hm]; exact Nat.not_lt.mpr h), hc]
    rfl
  · obtain ⟨b, h1, h2⟩ := errorResponse_reads 500 .enclaveClient trivial
    refine ⟨b, ?_, h2⟩
    unfold message
    rw [if_neg (by rw [hm]; exact Nat.not_lt.mpr h), hc]
    simp only [relay, h1]
  · obtain ⟨b, h1, h2⟩ := errorResponse_reads 400 .oversizeMsg trivial
    refine ⟨b, ?_, h2⟩
    unfold message
    rw [if_pos (by rw [hm]; exact h), h1]

/-- C50: `/enclave-health` says 200 exactly when the enclave's answer is a status message with a provisioned or genesis
phase, 503 exactly when it is a status message with another phase, and 500 otherwise; and it always answers. -/
theorem health_exact (call : Call S) (s : S) : ∃ req r, toWire .statusRequest .json = .ok req ∧
    enclaveHealth call s = ((call s req).1, some r) ∧
    (r.status = 200 ↔ ∃ b enc p, (call s req).2 = some b ∧ fromWire b = .ok (.statusResponse p, enc) ∧
      (p = .quorumKeyProvisioned ∨ p = .genesisBooted)) ∧
    (r.status = 503 ↔ ∃ b enc p, (call s req).2 = some b ∧ fromWire b = .ok (.statusResponse p, enc) ∧
      p ≠ .quorumKeyProvisioned ∧ p ≠ .genesisBooted) ∧
    (r.status = 200 ∨ r.status = 503 ∨ r.status = 500) ∧
    (∀ p, r.phase = some p ↔ ∃ b enc, (call s req).2 = some b ∧ fromWire b = .ok (.statusResponse p, enc)) := by
  have hj := toJson_some .statusRequest (by rintro _ _ ⟨⟩)
  refine ⟨Json.writeBytes (Json.norm (JCodec.msg.enc .statusRequest)), healthOf (readAsked (call s (Json.writeBytes (Json.norm (JCodec.msg.enc .statusRequest)))).2),
    by simp only [toWire, hj, orErr], ?_, ?_⟩
  · unfold enclaveHealth ask
    rw [hj]
  generalize (call s (Json.writeBytes (Json.norm (JCodec.msg.enc .statusRequest)))).2 = x
  cases x with
  | none => simp [readAsked, healthOf]
  | some b =>
    cases hf : fromWire b with
    | error e => simp [readAsked, healthOf, hf]
    | ok me =>
      obtain ⟨m, enc⟩ := me
      have hr : readAsked (some b) = .answered m := by simp [readAsked, hf]
      rw [hr]
      by_cases hm : ∃ p, m = .statusResponse p
      · obtain ⟨p, rfl⟩ := hm
        cases p <;> simp [healthOf, phaseStatus, hf]
      · have : healthOf (.answered m) = ⟨500, none⟩ := by
          unfold healthOf
          split
          · rename_i p heq
            cases heq
            exact absurd ⟨p, rfl⟩ hm
          · rfl
        rw [this]
        have hne : ∀ p enc', fromWire b ≠ .ok (.statusResponse p, enc') := by
          intro p enc' h
          rw [hf] at h
          cases h
          exact hm ⟨p, rfl⟩
        refine ⟨?_, ?_, by simp, ?_⟩
        · simp only [Nat.reduceEqDiff, false_iff]
          rintro ⟨b', enc', p, hb, h, _⟩
          cases hb
          exact hne _ _ h
        · simp only [Nat.reduceEqDiff, false_iff]
          rintro ⟨b', enc', p, hb, h, _⟩
          cases hb
          exact hne _ _ h
        · intro p
          simp only [reduceCtorEq, false_iff]
          rintro ⟨b', enc', hb, h⟩
          cases hb
          exact hne _ _ h

/-! ### In front of the modelled enclave -/

/-- The message has a JSON form that fits into one frame (128 MiB) and reads back. -/
def Fits (m : Msg) : Prop := JCodec.msg.ok m ∧ ∀ b, toWire m .json = .ok b → b.length ≤ 128 * 1024 * 1024

/-- A request in JSON reaches the modelled enclave through the socket and its answer comes back. -/
theorem enclave_json (q : Msg) (s : St) (hq : JCodec.msg.ok q) (b : Bytes) (hw : toWire q .json = .ok b)
    (hl : b.length ≤ 128 * 1024 * 1024) :
    ∃ a r, enclaveCall E s b = ((handle E q s).2, a) ∧ toWire (handle E q s).1 .json = .ok r ∧
      (r.length ≤ 128 * 1024 * 1024 → a = some r) ∧ (128 * 1024 * 1024 < r.length → a = none) := by
  obtain ⟨b', h1, h2⟩ := fromWire_json q hq
  rw [hw] at h1
  cases h1
  obtain ⟨r, h3, h4⟩ := process_json E b s hl q h2
  have hm : Stream.maxPayloadSize = 128 * 1024 * 1024 := rfl
  refine ⟨delivered (some r), r, ?_, h4, fun h => ?_, fun h => ?_⟩
  · unfold enclaveCall
    rw [if_pos (by rw [hm]; exact hl), h3]
  · simp only [delivered, hm, if_pos h]
  · simp only [delivered, hm, if_neg (Nat.not_le.mpr h)]

/-- A question of the host's own, put to the modelled enclave. -/
theorem ask_enclave (q : Msg) (s : St) (hq : Fits q) (ha : Fits (handle E q s).1)
    (hj : ∀ e p, q ≠ .bootStandardJsonEnvelopeRequest e p) :
    ask (enclaveCall E) q s = ((handle E q s).2, some (.answered (handle E q s).1)) := by
  have hw : toWire q .json = .ok (Json.writeBytes (Json.norm (JCodec.msg.enc q))) := by
    simp only [toWire, toJson_some q hj, orErr]
  obtain ⟨a, r, h1, h2, h3, -⟩ := enclave_json (E := E) q s hq.1 _ hw (hq.2 _ hw)
  obtain ⟨r', h4, h5⟩ := fromWire_json _ ha.1
  rw [h2] at h4
  cases h4
  unfold ask
  rw [toJson_some q hj]
  simp only [h1, h3 (ha.2 _ h2), readAsked, h5]

theorem fits_small {m : Msg} (hj : ∀ e p, m ≠ .bootStandardJsonEnvelopeRequest e p) (h : JCodec.msg.ok m)
    (hl : (Json.writeBytes (Json.norm (JCodec.msg.enc m))).length ≤ 128 * 1024 * 1024) : Fits m := by
  refine ⟨h, fun b hb => ?_⟩
  simp only [toWire, toJson_some m hj, orErr, Except.ok.injEq] at hb
  rw [← hb]
  exact hl

theorem ask_unit (q : Msg) (s : St) (hk : q = .statusRequest ∨ q = .manifestEnvelopeRequest ∨ q = .liveAttestationDocRequest)
    (ha : Fits (handle E q s).1) :
    ask (enclaveCall E) q s = ((handle E q s).2, some (.answered (handle E q s).1)) := by
  rcases hk with rfl | rfl | rfl
  · exact ask_enclave .statusRequest s (fits_small (by rintro _ _ ⟨⟩) trivial (by decide +kernel)) ha (by rintro _ _ ⟨⟩)
  · exact ask_enclave .manifestEnvelopeRequest s (fits_small (by rintro _ _ ⟨⟩) trivial (by decide +kernel)) ha
      (by rintro _ _ ⟨⟩)
  · exact ask_enclave .liveAttestationDocRequest s (fits_small (by rintro _ _ ⟨⟩) trivial (by decide +kernel)) ha
      (by rintro _ _ ⟨⟩)

theorem fits_status (p : Phase) : Fits (.statusResponse p) := by
  cases p <;> exact fits_small (by rintro _ _ ⟨⟩) trivial (by decide +kernel)

theorem fits_unserved (p : Phase) : Fits (.protocolErrorResponse (.noMatchingRoute p)) := by
  cases p <;> exact fits_small (by rintro _ _ ⟨⟩) trivial (by decide +kernel)

theorem fits_no_envelope : Fits (.manifestEnvelopeResponse none) :=
  fits_small (by rintro _ _ ⟨⟩) trivial (by decide +kernel)

theorem ask_status (s : St) : ask (enclaveCall E) .statusRequest s = (s, some (.answered (.statusResponse s.phase))) := by
  have := ask_unit (E := E) .statusRequest s (.inl rfl) (by rw [Wire.handle_status]; exact fits_status _)
  rwa [Wire.handle_status] at this

/-- C50: with the modelled enclave behind it, `/enclave-health` reports the enclave's phase, with status 200 exactly in
the provisioned and the genesis phase and 503 otherwise, and changes nothing. -/
theorem health_tells_phase (E : Env) (s : St) : ∃ status, enclaveHealth (enclaveCall E) s = (s, some ⟨status, some s.phase⟩) ∧
    (status = 200 ↔ s.phase = .quorumKeyProvisioned ∨ s.phase = .genesisBooted) ∧
    (status = 503 ↔ s.phase ≠ .quorumKeyProvisioned ∧ s.phase ≠ .genesisBooted) := by
  refine ⟨phaseStatus s.phase, ?_, ?_⟩
  · unfold enclaveHealth
    rw [ask_status]
    rfl
  · cases s.phase <;> simp [phaseStatus]

/-- C50: in front of the modelled enclave, in every phase in which a manifest is installed, `/enclave-info` reports the
phase, exactly the stored envelope and exactly the public key of the enclave's current ephemeral key, and leaves phase,
files, shares and pending key as they are. (The two answers must fit into a frame; `decode` is any decoder of documents
that reads the device's document back.) -/
theorem info_installed {fs0 : Files} {h : List (Msg × Msg)} {s : St} {pki : MockNsm.Pki} {start : MockNsm.State} (H : History E fs0 h s)
    (hd : HonestDevice E pki start) (hio : ReliableFiles E) {n : Nat} {kind : Attest.Kind}
    (hs : shownKey s.phase = some (n, kind)) :
    ∃ (e : Envelope) (pivot : Bytes) (key : Pair) (doc : AttestationDoc) (s' : St), Installed E e pivot s.files ∧
      Pair.fromMasterSeed E.prims (E.seedAt n) = .ok key ∧
      (Fits (.manifestEnvelopeResponse (some e)) →
        Fits (.liveAttestationDocResponse (.attestation (pki.signDoc doc)) (some e)) →
        ∀ decode : Bytes → Except AttestError AttestationDoc, decode (pki.signDoc doc) = .ok doc → enclaveInfo (enclaveCall E) decode s = (s', some ⟨s.phase, some e, some (key.publicKey E.prims).toBytes⟩)) ∧
      Quiet s s' := by
  have hp : s.phase ∈ installedPhases := by
    revert hs; generalize s.phase = p
    cases p <;> simp [shownKey, installedPhases]
  let s1 := (handle E .manifestEnvelopeRequest s).2
  have q1 : Quiet s s1 := read_only_requests E .manifestEnvelopeRequest s (by decide)
  have hs1 : shownKey s1.phase = some (n, kind) := by rw [q1.phase]; exact hs
  have H1 := H.step (m := .manifestEnvelopeRequest) trivial
  obtain ⟨e, pivot, key, doc, hin, hk, hresp, hpub, -, -, -, -⟩ := attestation_verifies H1 hd hio hs1
  rw [show (handle E .manifestEnvelopeRequest s).2.files = s.files from q1.files] at hin
  obtain ⟨buf, m1, m2⟩ := hin.manifest
  have hm : handle E .manifestEnvelopeRequest s = (.manifestEnvelopeResponse (some e), s1) := by
    have h1 := handle_manifestEnvelope (E := E) (s := s) (by intro hc; rw [hc] at hp; exact absurd hp (by decide))
    rw [getManifestEnvelope_total hio hin.wellFormed m1 m2] at h1
    have : (handle E .manifestEnvelopeRequest s).1 = .manifestEnvelopeResponse (some e) := by rw [h1]; rfl
    rw [← this]
  refine ⟨e, pivot, key, doc, (handle E .liveAttestationDocRequest s1).2, hin, hk, fun hf1 hf2 decode hdec => ?_,
    quiet_pre.trans _ _ _ q1 (read_only_requests E .liveAttestationDocRequest s1 (by decide))⟩
  have a2 := ask_unit (E := E) .manifestEnvelopeRequest s (.inr (.inl rfl)) (by
    rw [hm]
    exact hf1)
  have a3 := ask_unit (E := E) .liveAttestationDocRequest s1 (.inr (.inr rfl)) (by
    rw [hresp]
    exact hf2)
  rw [hm] at a2
  rw [hresp] at a3
  unfold enclaveInfo
  simp only [ask_status, phaseIn, a2, envelopeIn, a3, ephemeralIn, keyInDoc, hdec, hpub]

/-- A device whose documents are one byte. -/
def toyShortEnv : Env := { toyEnv with nsm := mockDevice toyPrims ⟨[1], [2], [3], fun _ => [7]⟩ MockNsm.initial }

theorem envelope_fits {e : Envelope} (h : e.Ok) (hl : Json.extent (JCodec.envelope.enc e) ≤ 100000) :
    Fits (.manifestEnvelopeResponse (some e)) :=
  fits_small (by rintro _ _ ⟨⟩) h (Nat.le_trans (Json.length_canonical _)
    (Nat.le_trans (Json.extent_envelopeResponse e) (Nat.le_trans (Nat.add_le_add_left hl 1000) (by decide))))

theorem live_fits {e : Envelope} (h : e.Ok) (hl : Json.extent (JCodec.envelope.enc e) ≤ 100000)
    (d : Bytes) (hd : d.length ≤ 100000) : Fits (.liveAttestationDocResponse (.attestation d) (some e)) := by
  refine fits_small (by rintro _ _ ⟨⟩) ⟨?_, h⟩ (Nat.le_trans (Json.length_canonical _)
    (Nat.le_trans (Json.extent_liveResponse d e) ?_))
  · show 2 * d.length < Hex.strMaxLength
    rw [show Hex.strMaxLength = 256 * 1024 * 1024 from rfl]
    omega
  · omega

-- Non-vacuity: the concrete boot, and `/enclave-info` after it.
example : ∃ (s s' : St) (key : Pair) (doc : AttestationDoc),
    enclaveInfo (enclaveCall toyShortEnv) (fun b => if b = [7] then .ok doc else .error .invalidCOSESign1Structure) s =
      (s', some ⟨.waitingForQuorumShards, some toyEnvelope, some (key.publicKey toyPrims).toBytes⟩) := by
  obtain ⟨setup, h0⟩ := toy_pair (toyEnv.seedAt 0)
  obtain ⟨live, h1⟩ := toy_pair (toyEnv.seedAt 1)
  have hok : toyShortEnv.Ok := { toyEnv_ok with }
  have H := History.start hok (E := toyShortEnv) toy_fresh
  obtain ⟨-, b, c, -, -⟩ := approved_boot_completes (E := toyShortEnv) (m := .bootStandardRequest toyEnvelope [1, 2, 3]) H rfl
    (pki := ⟨[1], [2], [3], fun _ => [7]⟩) ⟨initial_started, rfl⟩ toy_io toyEnvelope_ok (by decide +kernel) rfl rfl h0 h1 (.inl rfl)
  have H' := H.step (m := .bootStandardRequest toyEnvelope [1, 2, 3]) toyEnvelope_ok
  obtain ⟨e, pivot, key, doc, s', hin, -, hres, -⟩ := info_installed H' (pki := ⟨[1], [2], [3], fun _ => [7]⟩) ⟨initial_started, rfl⟩ toy_io
    (n := 0) (kind := .setup) (by rw [b]; rfl)
  obtain ⟨rfl, -⟩ := hin.unique c
  refine ⟨(handle toyShortEnv (.bootStandardRequest toyEnvelope [1, 2, 3]) (St.initial noFiles)).2, s', key, doc, ?_⟩
  have hf1 := envelope_fits toyEnvelope_ok Json.extent_toyEnvelope
  have hf2 := live_fits toyEnvelope_ok Json.extent_toyEnvelope [7] (by decide)
  have := hres hf1 hf2 (fun b => if b = [7] then .ok doc else .error .invalidCOSESign1Structure) (by simp)
  rw [b] at this
  exact this

/-- C50: before boot `/enclave-info` reports the phase and nothing else. -/
theorem info_before_boot {fs0 : Files} {h : List (Msg × Msg)} {s : St} (H : History E fs0 h s)
    (hs : s.phase = .waitingForBootInstruction) (decode : Bytes → Except AttestError AttestationDoc) :
    ∃ s', enclaveInfo (enclaveCall E) decode s = (s', some ⟨.waitingForBootInstruction, none, none⟩) ∧ Quiet s s' := by
  let s1 := (handle E .manifestEnvelopeRequest s).2
  have q1 : Quiet s s1 := read_only_requests E .manifestEnvelopeRequest s (by decide)
  have hfile : s.files E.paths.manifest = none := by
    rw [(H.idle hs).files]
    exact H.fresh _ (by simp [Paths.all])
  have hm : handle E .manifestEnvelopeRequest s = (.manifestEnvelopeResponse none, s1) := by
    have h1 := handle_manifestEnvelope (E := E) (s := s) (by rw [hs]; decide)
    have h2 : (Handles.getManifestEnvelope E s).1.toOption = none := by
      unfold Handles.getManifestEnvelope
      rw [bind_run, readFile_run]
      by_cases hio : E.io s.ios = .ok
      · simp only [if_pos hio, hfile]
        rfl
      · simp only [if_neg hio]
        rfl
    rw [h2] at h1
    have : (handle E .manifestEnvelopeRequest s).1 = .manifestEnvelopeResponse none := by rw [h1]
    rw [← this]
  have hl : handle E .liveAttestationDocRequest s1 = (.protocolErrorResponse (.noMatchingRoute s1.phase), s1) :=
    unserved_rejected E _ s1 (by rw [q1.phase, hs]; decide)
  have a2 := ask_unit (E := E) .manifestEnvelopeRequest s (.inr (.inl rfl)) (by rw [hm]; exact fits_no_envelope)
  have a3 := ask_unit (E := E) .liveAttestationDocRequest s1 (.inr (.inr rfl)) (by
    rw [hl]
    exact fits_unserved _)
  rw [hm] at a2
  rw [hl] at a3
  refine ⟨s1, ?_, q1⟩
  unfold enclaveInfo
  simp only [ask_status, phaseIn, a2, envelopeIn, a3, ephemeralIn, hs]

example : ∃ s', enclaveInfo (enclaveCall toyEnv) toyDecode (St.initial noFiles) =
    (s', some ⟨.waitingForBootInstruction, none, none⟩) :=
  let ⟨s', h, _⟩ := info_before_boot (History.start toyEnv_ok toy_fresh) rfl toyDecode
  ⟨s', h⟩

/-- C50, a limit: after a genesis boot `/enclave-info` always fails (status 500), because the manifest request is not
served in that phase; `/enclave-health` still works. -/
theorem info_fails_after_genesis (E : Env) (s : St) (hs : s.phase = .genesisBooted)
    (decode : Bytes → Except AttestError AttestationDoc) : enclaveInfo (enclaveCall E) decode s = (s, none) := by
  have hm : handle E .manifestEnvelopeRequest s = (.protocolErrorResponse (.noMatchingRoute s.phase), s) :=
    unserved_rejected E _ s (by rw [hs]; decide)
  have a2 := ask_unit (E := E) .manifestEnvelopeRequest s (.inr (.inl rfl)) (by rw [hm]; exact fits_unserved _)
  rw [hm] at a2
  unfold enclaveInfo
  simp only [ask_status, phaseIn, a2, envelopeIn]

theorem phaseIn_iff (a : Option Asked) (p : Phase) : phaseIn a = some p ↔ a = some (.answered (.statusResponse p)) := by
  unfold phaseIn
  split
  · simp
  · rename_i h
    simp only [reduceCtorEq, false_iff]
    exact h p

theorem envelopeIn_iff (a : Option Asked) (e : Option Envelope) :
    envelopeIn a = some e ↔ a = some (.answered (.manifestEnvelopeResponse e)) := by
  unfold envelopeIn
  split
  · simp
  · rename_i h
    simp only [reduceCtorEq, false_iff]
    exact h e

theorem ephemeralIn_iff (decode : Bytes → Except AttestError AttestationDoc) (a : Option Asked) (k : Bytes) :
    ephemeralIn decode a = some k ↔ ∃ document e doc, decode document = .ok doc ∧ doc.publicKey = some k ∧
      a = some (.answered (.liveAttestationDocResponse (.attestation document) e)) := by
  unfold ephemeralIn
  split
  · rename_i document e
    unfold keyInDoc
    cases hd : decode document with
    | error x =>
      simp only [reduceCtorEq, false_iff]
      rintro ⟨d', e', doc, h1, -, h2⟩
      cases h2
      rw [hd] at h1
      cases h1
    | ok doc =>
      constructor
      · exact fun h => ⟨document, e, doc, hd, h, rfl⟩
      · rintro ⟨d', e', doc', h1, h, h2⟩
        cases h2
        rw [hd] at h1
        cases h1
        exact h
  · rename_i h
    simp only [reduceCtorEq, false_iff]
    rintro ⟨d', e', doc, -, -, h2⟩
    exact h d' e' h2

/-- C50: whatever sits behind the host, `/enclave-info` answers with a phase and an envelope exactly when the answers to
its first two questions are a status and an envelope response, and reports just those; the key it reports is the key in a
document returned for the third question, and is left out when there is none. -/
theorem info_exact (call : Call S) (decode : Bytes → Except AttestError AttestationDoc) (s : S) (i : EnclaveInfo) (s' : S) :
    enclaveInfo call decode s = (s', some i) ↔
      ∃ s1 s2 a, ask call .statusRequest s = (s1, some (.answered (.statusResponse i.phase))) ∧
        ask call .manifestEnvelopeRequest s1 = (s2, some (.answered (.manifestEnvelopeResponse i.manifestEnvelope))) ∧
        ask call .liveAttestationDocRequest s2 = (s', a) ∧
        ∀ k, i.ephemeralKey = some k ↔ ∃ document e doc, decode document = .ok doc ∧ doc.publicKey = some k ∧
          a = some (.answered (.liveAttestationDocResponse (.attestation document) e)) := by
  have hk : ∀ (o : Option Bytes) (a : Option Asked), (∀ k, o = some k ↔ ephemeralIn decode a = some k) ↔
      o = ephemeralIn decode a := by
    intro o a
    constructor
    · exact fun h => Option.ext fun k => h k
    · rintro rfl k
      rfl
  simp only [← ephemeralIn_iff, hk]
  unfold enclaveInfo
  obtain ⟨p, e, k⟩ := i
  rcases h1 : ask call .statusRequest s with ⟨s1, a1⟩
  simp only [Prod.mk.injEq, ← phaseIn_iff]
  cases hp : phaseIn a1 with
  | none =>
    simp only [Prod.mk.injEq, reduceCtorEq, and_false, false_iff]
    rintro ⟨_, _, _, ⟨rfl, h⟩, _⟩
  | some p1 =>
    simp only
    rcases h2 : ask call .manifestEnvelopeRequest s1 with ⟨s2, a2⟩
    simp only
    cases he : envelopeIn a2 with
    | none =>
      simp only [Prod.mk.injEq, reduceCtorEq, and_false, false_iff]
      rintro ⟨_, _, _, ⟨rfl, _⟩, h, _⟩
      rw [h2, Prod.mk.injEq, ← envelopeIn_iff, he] at h
      cases h.2
    | some e1 =>
      simp only [Prod.mk.injEq, Option.some.injEq, EnclaveInfo.mk.injEq]
      constructor
      · rintro ⟨rfl, rfl, rfl, rfl⟩
        exact ⟨s1, s2, _, ⟨rfl, rfl⟩, by rw [h2, Prod.mk.injEq, ← envelopeIn_iff]; exact ⟨rfl, he⟩, rfl, rfl⟩
      · rintro ⟨_, t2, a, ⟨rfl, rfl⟩, h, h3, hk'⟩
        rw [h2, Prod.mk.injEq, ← envelopeIn_iff, he] at h
        obtain ⟨rfl, h⟩ := h
        cases h
        rw [h3]
        exact ⟨rfl, rfl, rfl, hk'.symm⟩

end Qos.Host
