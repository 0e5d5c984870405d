import Verif.Props.Scenario
import Verif.Props.Forward
import Verif.Props.Live
import Verif.Props.BootDoc
/-!
# Concrete cases for C06–C10, C12, C13, C15–C18 and C42

One `example` per group of theorems of `Props/Boot`, `Props/Live`, `Props/Completes` and `Props/Forward`: a run of the
toy enclave that meets every hypothesis, followed by what the theorem then says about that run. The key forwarding
between two concrete enclaves (C15, C18) is `Qos.Client.toy_forwarding`.
-/
namespace Qos
open StateMachine P256

/-- The toy enclave after a standard boot: it waits for shares. -/
theorem toy_waiting : ∃ h s, History toyEnv noFiles h s ∧ s.phase = .waitingForQuorumShards ∧
    Installed toyEnv toyEnvelope [1, 2, 3] s.files ∧ posted h = [] := by
  obtain ⟨setup, h0, H, ⟨doc, hdoc⟩, hph, hin, heph⟩ := toy_boot (m := .bootStandardRequest toyEnvelope [1, 2, 3]) (.inl rfl)
  exact ⟨_, _, H, hph, hin, by rcases hdoc with hd | hd <;> rw [hd] <;> rfl⟩

/-- The toy enclave after a key-forward boot: it waits for the key. -/
theorem toy_waiting_forward : ∃ h s, History toyEnv noFiles h s ∧ s.phase = .waitingForForwardedKey ∧
    Installed toyEnv toyEnvelope [1, 2, 3] s.files := by
  obtain ⟨setup, h0, H, -, hph, hin, -⟩ := toy_boot (m := .bootKeyForwardRequest toyEnvelope [1, 2, 3])
    (.inr (.inr rfl))
  exact ⟨_, _, H, hph, hin⟩

/-- The toy enclave after both shares. -/
theorem toy_with_key : ∃ (h : List (Msg × Msg)) (s : St) (e : Envelope) (f : File), History toyEnv noFiles h s ∧
    s.phase = .quorumKeyProvisioned ∧ Installed toyEnv e [1, 2, 3] s.files ∧
    s.files toyEnv.paths.quorum = some f := by
  obtain ⟨setup, h0, H, ⟨doc, hdoc⟩, hph, hin, heph⟩ := toy_boot (m := .bootStandardRequest toyEnvelope [1, 2, 3]) (.inl rfl)
  obtain ⟨h, s, q1, q2, q3, -⟩ := toy_provision (a := toyApproval 4 toyHash) H hph
    (by rcases hdoc with hd | hd <;> rw [hd] <;> rfl) h0 hin heph List.mem_cons_self
    ((approval_verify_iff ..).1 toy_share_approval)
  obtain ⟨b, key, hb, -⟩ := q1.provisioned q2
  obtain ⟨f, hf, -⟩ := hb.quorum
  exact ⟨h, s, _, f, q1, q2, q3, hf⟩

/-- The manifest file of an installed enclave exists, and so the files are no longer the initial ones. -/
theorem manifest_there {e : Envelope} {pivot : Bytes} {fs : Files} (h : Installed toyEnv e pivot fs) :
    fs toyEnv.paths.manifest ≠ none ∧ fs ≠ noFiles := by
  obtain ⟨buf, -, f, hf, -⟩ := h.manifest
  exact ⟨by rw [hf]; simp, by rintro rfl; cases hf⟩

-- C06 `stored_is_approved`: a moment at which the manifest file exists.
example : ∃ h s fs, History toyEnv noFiles h s ∧ Moment noFiles s fs ∧
    (fs toyEnv.paths.manifest ≠ none ∨ fs toyEnv.paths.pivot ≠ none) := by
  obtain ⟨h, s, H, -, hi, -⟩ := toy_waiting
  exact ⟨h, s, s.files, H, .inr (.inr rfl), .inl (manifest_there hi).1⟩

-- C06 `stored_exactly`, `manifest_reported`, `boot_is_permanent`: each of the three installed phases is reached.
example : ∀ ph ∈ installedPhases, ∃ h s, History toyEnv noFiles h s ∧ s.phase = ph := by
  intro ph hp
  simp only [installedPhases, List.mem_cons, List.not_mem_nil, or_false] at hp
  rcases hp with rfl | rfl | rfl
  · obtain ⟨h, s, H, hp, -⟩ := toy_waiting
    exact ⟨h, s, H, hp⟩
  · obtain ⟨h, s, H, hp, -⟩ := toy_waiting_forward
    exact ⟨h, s, H, hp⟩
  · obtain ⟨h, s, e, f, H, hp, -⟩ := toy_with_key
    exact ⟨h, s, H, hp⟩

-- C06 `manifest_reported` on the waiting enclave: the envelope it reports is the one that was sent.
example : ∃ h s, History toyEnv noFiles h s ∧
    (handle toyEnv .manifestEnvelopeRequest s).1 = .manifestEnvelopeResponse (some toyEnvelope) := by
  obtain ⟨h, s, H, hp, hi, hz⟩ := toy_waiting
  obtain ⟨e, pivot, -, -, hi', hr⟩ := manifest_reported H (by rw [hp]; decide)
  rcases hr with hr | ⟨hr, -⟩
  · exact ⟨h, s, H, by rw [hr, (hi'.unique hi).1]⟩
  · exact absurd (toy_io s.ios) hr

-- C07 `rejected_boot`: an approved envelope with a pivot that it does not name.
theorem wrong_pivot : toyEnv.prims.sha256 [1, 2] ≠ toyEnvelope.manifest.pivotHash := by decide +kernel

example : (Msg.bootStandardRequest toyEnvelope [1, 2]).BootsWith toyEnvelope [1, 2] ∧
    (St.initial noFiles).phase = .waitingForBootInstruction ∧
    toyEnv.prims.sha256 [1, 2] ≠ toyEnvelope.manifest.pivotHash := by
  exact ⟨.inl rfl, rfl, wrong_pivot⟩

-- C07 `failed_boot_untouched`: after that request the trace is empty, so nothing was committed.
example : ∃ (e : Envelope) (pivot : Bytes), ∀ (b : Boot) (pre post : List Event), b.envelope = e → b.pivot = pivot →
    (handle toyEnv (.bootStandardRequest e pivot) (St.initial noFiles)).2.trace = pre ++ post → ¬ Committed toyEnv b pre := by
  refine ⟨toyEnvelope, [1, 2], fun b pre post _ _ ht hc => ?_⟩
  obtain ⟨er, hr⟩ := rejected_boot toyEnv (m := .bootStandardRequest toyEnvelope [1, 2]) (.inl rfl) (St.initial noFiles) rfl
    (.inr (.inr wrong_pivot))
  rw [hr] at ht
  have hnil : pre = [] := (List.append_eq_nil_iff.1 ht.symm).1
  obtain ⟨_, _, _, _, _, _, _, _, _, _, _, _, -, -, -, -, h⟩ := hc
  rw [hnil] at h
  cases h

-- C08, C09, C10 `quorum_key_complete`, `quorum_key_written_once`, `quorum_key_permanent`, `provisioned_by_threshold`:
-- a moment at which the quorum key file exists, which is not the first one.
example : ∃ h s fs f, History toyEnv noFiles h s ∧ Moment noFiles s fs ∧ InOrder noFiles s fs s.files ∧
    fs toyEnv.paths.quorum = some f ∧ fs ≠ noFiles := by
  obtain ⟨h, s, e, f, H, hp, hi, hf⟩ := toy_with_key
  exact ⟨h, s, s.files, f, H, .inr (.inr rfl), .inr (.inr (.inr rfl)), hf, (manifest_there hi).2⟩

-- C09 `put_existing_refused`: a reachable state in which all four files exist.
example : ∃ h s, History toyEnv noFiles h s ∧ ∀ q ∈ toyEnv.paths.all, s.files q ≠ none := by
  obtain ⟨h, s, e, f, H, hp, hi, hf⟩ := toy_with_key
  obtain ⟨_, _, key, -, -, hk, -⟩ := attested_key H toy_io (n := 1) (kind := .live) (by rw [hp]; rfl)
  obtain ⟨_, hk, -⟩ := hk
  obtain ⟨_, -, _, hm, -⟩ := hi.manifest
  obtain ⟨_, hpv, -⟩ := hi.pivot
  refine ⟨h, s, H, fun q hq => ?_⟩
  simp only [Paths.all, List.mem_cons, List.not_mem_nil, or_false] at hq
  rcases hq with rfl | rfl | rfl | rfl
  · rw [hk]; simp
  · rw [hf]; simp
  · rw [hm]; simp
  · rw [hpv]; simp

-- C12 `bank_locked_first`, `device_holds_commitments`: a run that has written files, on the NSM model.
example : ∃ h s, History toyEnv noFiles h s ∧ HonestDevice toyEnv MockNsm.toyPki MockNsm.initial ∧ s.files ≠ noFiles := by
  obtain ⟨h, s, H, hp, hi, -⟩ := toy_waiting
  exact ⟨h, s, H, toy_device, (manifest_there hi).2⟩

-- C13 `attested_key`, `attestation_verifies`: both kinds of documents are shown.
example : ∀ k ∈ [Attest.Kind.setup, .live], ∃ h s n, History toyEnv noFiles h s ∧
    HonestDevice toyEnv MockNsm.toyPki MockNsm.initial ∧ ReliableFiles toyEnv ∧ shownKey s.phase = some (n, k) := by
  intro k hk
  simp only [List.mem_cons, List.not_mem_nil, or_false] at hk
  rcases hk with rfl | rfl
  · obtain ⟨h, s, H, hp, -⟩ := toy_waiting
    exact ⟨h, s, 0, H, toy_device, toy_io, by rw [hp]; rfl⟩
  · obtain ⟨h, s, e, f, H, hp, -⟩ := toy_with_key
    exact ⟨h, s, 1, H, toy_device, toy_io, by rw [hp]; rfl⟩

-- C17 `inject_exact`, `waiting_has_setup_key`, `no_quorum_before`: an enclave that waits for a forwarded key, with its
-- setup key in the ephemeral key file.
example : ∃ h s setup, History toyEnv noFiles h s ∧ s.phase = .waitingForForwardedKey ∧
    Installed toyEnv toyEnvelope [1, 2, 3] s.files ∧ Pair.fromMasterSeed toyEnv.prims setup.seed = .ok setup ∧
    Holds s.files toyEnv.paths.ephemeral (Hex.encode setup.seed) := by
  obtain ⟨h, s, H, hp, hi⟩ := toy_waiting_forward
  obtain ⟨e, pivot, setup, -, -, -, hs, hseed, hh⟩ := waiting_has_setup_key H hp
  exact ⟨h, s, setup, H, hp, hi, by rw [hseed]; exact hs, hh⟩

-- C15 `export_exact`: an enclave with the quorum key.
example : ∃ h s e, History toyEnv noFiles h s ∧ s.phase = .quorumKeyProvisioned ∧
    Installed toyEnv e [1, 2, 3] s.files := by
  obtain ⟨h, s, e, f, H, hp, hi, -⟩ := toy_with_key
  exact ⟨h, s, e, H, hp, hi⟩

end Qos
