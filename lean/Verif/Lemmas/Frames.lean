import Verif.Lemmas.Monad
/-!
# What the services leave alone
-/
namespace Qos
open Handles Services StateMachine

/-! ## No service changes the phase -/

/-- The phase is unchanged. -/
def SamePhase (s s' : St) : Prop := s'.phase = s.phase

theorem samePhase_pre : Preorderly SamePhase := ⟨fun _ => rfl, fun _ _ _ h1 h2 => h2.trans h1⟩

theorem phase_nextIo (E : Env) : Keeps SamePhase (nextIo E) := ⟨fun _ => rfl⟩
theorem phase_setFiles (fs : Files) : Keeps SamePhase (setFiles fs) := ⟨fun _ => rfl⟩
theorem phase_modify {f : St → St} (h : ∀ s, (f s).phase = s.phase) : Keeps SamePhase (M.modify f) := ⟨h⟩
theorem phase_callNsm (E : Env) (r : NsmRequest) : Keeps SamePhase (callNsm E r) := ⟨fun _ => rfl⟩
theorem phase_generatePair (E : Env) : Keeps SamePhase (generatePair E) := ⟨fun _ => rfl⟩
theorem phase_encryptTo (E : Env) (k : P256.Public) (m : Bytes) : Keeps SamePhase (encryptTo E k m) := ⟨fun _ => rfl⟩
theorem phase_splitSecret (E : Env) (b : Bytes) (n k : Nat) : Keeps SamePhase (splitSecret E b n k) := ⟨fun _ => rfl⟩

/-- Discharge `Keeps R` goals structurally. -/
syntax "keeps_tac" term : tactic
macro_rules
  | `(tactic| keeps_tac $pre) => `(tactic| repeat' first
      | assumption
      | intro _
      | with_reducible apply keeps_bind $pre
      | with_reducible apply keeps_pure $pre
      | with_reducible apply keeps_mpure $pre
      | with_reducible apply keeps_fail $pre
      | with_reducible apply keeps_lift $pre
      | with_reducible apply keeps_get $pre
      | with_reducible apply keeps_ensure $pre
      | with_reducible apply keeps_optional
      | with_reducible apply keeps_attempt
      | with_reducible apply phase_nextIo
      | with_reducible apply phase_setFiles
      | with_reducible apply phase_callNsm
      | with_reducible apply phase_generatePair
      | with_reducible apply phase_encryptTo
      | with_reducible apply phase_splitSecret
      | (with_reducible apply phase_modify; intro _; rfl)
      | split)

theorem phase_readFile (E : Env) (p : String) : Keeps SamePhase (readFile E p) := by
  unfold readFile; keeps_tac samePhase_pre
theorem phase_fileExists (p : String) : Keeps SamePhase (fileExists p) := by
  unfold fileExists; keeps_tac samePhase_pre
theorem phase_makeParent (E : Env) : Keeps SamePhase (makeParent E) := by
  unfold makeParent; keeps_tac samePhase_pre
theorem phase_writeUpTo (E : Env) (p : String) (b : Bytes) (k : Nat) : Keeps SamePhase (writeUpTo E p b k) := by
  induction k with
  | zero => unfold writeUpTo; keeps_tac samePhase_pre
  | succ k ih => unfold writeUpTo; keeps_tac samePhase_pre
theorem phase_writeFile (E : Env) (p : String) (b : Bytes) : Keeps SamePhase (writeFile E p b) := by
  have h := phase_writeUpTo E p b
  unfold writeFile; keeps_tac samePhase_pre <;> apply h
theorem phase_renameFile (E : Env) (p q : String) : Keeps SamePhase (renameFile E p q) := by
  unfold renameFile; keeps_tac samePhase_pre
theorem phase_chmod (E : Env) (p : String) (m : Nat) : Keeps SamePhase (chmod E p m) := by
  unfold chmod; keeps_tac samePhase_pre
theorem phase_removeFile (E : Env) (p : String) : Keeps SamePhase (removeFile E p) := by
  unfold removeFile; keeps_tac samePhase_pre

theorem phase_writeAsReadOnly (E : Env) (p : String) (b : Bytes) (e : ProtocolError) :
    Keeps SamePhase (writeAsReadOnly E p b e) := by
  unfold writeAsReadOnly
  keeps_tac samePhase_pre <;>
    first | apply phase_fileExists | apply phase_makeParent | apply phase_writeFile | apply phase_renameFile
          | apply phase_chmod
theorem phase_readPair (E : Env) (p : String) (w : P256Error → ProtocolError) : Keeps SamePhase (readPair E p w) := by
  unfold readPair; keeps_tac samePhase_pre; apply phase_readFile
theorem phase_getManifestEnvelope (E : Env) : Keeps SamePhase (getManifestEnvelope E) := by
  unfold getManifestEnvelope; keeps_tac samePhase_pre; apply phase_readFile
theorem phase_putManifestEnvelope (E : Env) (e : Envelope) : Keeps SamePhase (putManifestEnvelope E e) := by
  unfold putManifestEnvelope; keeps_tac samePhase_pre; apply phase_writeAsReadOnly
theorem phase_mutateManifestEnvelope (E : Env) (f : Envelope → Envelope) :
    Keeps SamePhase (mutateManifestEnvelope E f) := by
  unfold mutateManifestEnvelope
  keeps_tac samePhase_pre <;>
    first | apply phase_getManifestEnvelope | apply phase_writeFile | apply phase_chmod
theorem phase_putPivot (E : Env) (b : Bytes) : Keeps SamePhase (putPivot E b) := by
  unfold putPivot
  keeps_tac samePhase_pre <;>
    first | apply phase_fileExists | apply phase_makeParent | apply phase_writeFile | apply phase_chmod
theorem phase_rotateEphemeralKey (E : Env) (k : P256.Pair) : Keeps SamePhase (rotateEphemeralKey E k) := by
  unfold rotateEphemeralKey
  keeps_tac samePhase_pre <;>
    first | apply phase_fileExists | apply phase_removeFile | apply phase_writeAsReadOnly
theorem phase_describeNsm (E : Env) : Keeps SamePhase (describeNsm E) := by
  unfold describeNsm; keeps_tac samePhase_pre
theorem phase_describePcr (E : Env) (i : UInt16) : Keeps SamePhase (describePcr E i) := by
  unfold describePcr; keeps_tac samePhase_pre
theorem phase_extendCommitment (E : Env) (k : Attest.Kind) (m : UInt16) (l : List UInt16) (a b : Bytes) :
    Keeps SamePhase (extendCommitment E k m l a b) := by
  unfold extendCommitment; keeps_tac samePhase_pre; apply phase_describePcr
theorem phase_verifyLocked (E : Env) (k : Attest.Kind) (a : Bytes) : Keeps SamePhase (verifyLocked E k a) := by
  unfold verifyLocked; keeps_tac samePhase_pre; apply phase_describePcr
theorem phase_lockBank (E : Env) (r : UInt16) : Keeps SamePhase (lockBank E r) := by
  unfold lockBank; keeps_tac samePhase_pre
theorem phase_requireAllLocked (m : UInt16) (l : List UInt16) : Keeps SamePhase (requireAllLocked m l) := by
  unfold requireAllLocked; keeps_tac samePhase_pre
theorem phase_lockCommitmentBank (E : Env) (a b c : Bytes) : Keeps SamePhase (lockCommitmentBank E a b c) := by
  unfold lockCommitmentBank
  keeps_tac samePhase_pre <;>
    first | apply phase_describeNsm | apply phase_extendCommitment | apply phase_verifyLocked | apply phase_lockBank
          | apply phase_requireAllLocked
theorem phase_putManifestAndPivot (E : Env) (e : Envelope) (b : Bytes) :
    Keeps SamePhase (putManifestAndPivot E e b) := by
  unfold putManifestAndPivot putEphemeralKey postBootAttestationDoc
  keeps_tac samePhase_pre <;>
    first | apply phase_lockCommitmentBank | apply phase_writeAsReadOnly | apply phase_putPivot
          | apply phase_putManifestEnvelope
theorem phase_takePending : Keeps SamePhase takePending := by
  unfold takePending; keeps_tac samePhase_pre
theorem phase_addShare (b : Bytes) : Keeps SamePhase (addShare b) := by
  unfold addShare; keeps_tac samePhase_pre
theorem phase_installQuorumKey (E : Env) (k : P256.Pair) : Keeps SamePhase (installQuorumKey E k) := by
  unfold installQuorumKey putQuorumKey
  keeps_tac samePhase_pre <;>
    first | apply phase_takePending | apply phase_rotateEphemeralKey | apply phase_writeAsReadOnly
theorem phase_provision (E : Env) (b : Bytes) (a : Approval) : Keeps SamePhase (provision E b a) := by
  unfold provision getEphemeralKey
  keeps_tac samePhase_pre <;>
    first | apply phase_getManifestEnvelope | apply phase_mutateManifestEnvelope | apply phase_readPair
          | apply phase_addShare | apply phase_installQuorumKey
theorem phase_injectKey (E : Env) (a b : Bytes) : Keeps SamePhase (injectKey E a b) := by
  unfold injectKey getEphemeralKey
  keeps_tac samePhase_pre <;>
    first | apply phase_getManifestEnvelope | apply phase_readPair | apply phase_installQuorumKey
theorem phase_memberOutputs (E : Env) (l : List Bytes) (ms : List QuorumMember) :
    Keeps SamePhase (memberOutputs E l ms) := by
  induction l generalizing ms with
  | nil => unfold memberOutputs; keeps_tac samePhase_pre
  | cons b l ih =>
    cases ms with
    | nil => unfold memberOutputs; keeps_tac samePhase_pre
    | cons m ms =>
      have := ih ms
      unfold memberOutputs memberOutput; keeps_tac samePhase_pre
theorem phase_wrapForDr (E : Env) (k : Option Bytes) (b : Bytes) : Keeps SamePhase (wrapForDr E k b) := by
  unfold wrapForDr; keeps_tac samePhase_pre
theorem phase_bootGenesis (E : Env) (g : GenesisSet) (k : Option Bytes) : Keeps SamePhase (bootGenesis E g k) := by
  unfold bootGenesis
  keeps_tac samePhase_pre <;> first | apply phase_memberOutputs | apply phase_wrapForDr

/-! ## Read-only services -/

/-- Attestation requests. -/
def Event.isAttestation : Event → Prop
  | .nsm (.attestation _ _ _) _ => True
  | _ => False

/-- Phase, files, shares and pending key are unchanged and the device saw nothing but attestation requests. -/
structure Quiet (s s' : St) : Prop where
  phase : s'.phase = s.phase
  files : s'.files = s.files
  shares : s'.shares = s.shares
  pending : s'.pending = s.pending
  seeds : s'.seeds = s.seeds
  trace : ∃ evs, s'.trace = s.trace ++ evs ∧ ∀ ev ∈ evs, ev.isAttestation

theorem quiet_pre : Preorderly Quiet where
  refl s := ⟨rfl, rfl, rfl, rfl, rfl, [], by simp, by simp⟩
  trans a b c h1 h2 := by
    obtain ⟨e1, h1t, h1a⟩ := h1.trace
    obtain ⟨e2, h2t, h2a⟩ := h2.trace
    refine ⟨h2.phase.trans h1.phase, h2.files.trans h1.files, h2.shares.trans h1.shares,
      h2.pending.trans h1.pending, h2.seeds.trans h1.seeds, e1 ++ e2, ?_, ?_⟩
    · rw [h2t, h1t, List.append_assoc]
    · intro ev hev
      rcases List.mem_append.1 hev with h | h
      · exact h1a _ h
      · exact h2a _ h

theorem quiet_bump (s : St) : Quiet s (bump s) := ⟨rfl, rfl, rfl, rfl, rfl, [], by simp [bump], by simp⟩

theorem quiet_readFile (E : Env) (p : String) : Keeps Quiet (readFile E p) := by
  constructor; intro s; rw [readFile_run]; exact quiet_bump s

theorem quiet_readPair (E : Env) (p : String) (w : P256Error → ProtocolError) : Keeps Quiet (readPair E p w) := by
  unfold readPair; keeps_tac quiet_pre; apply quiet_readFile

theorem quiet_getManifestEnvelope (E : Env) : Keeps Quiet (getManifestEnvelope E) := by
  unfold getManifestEnvelope; keeps_tac quiet_pre; apply quiet_readFile

theorem quiet_postBootAttestationDoc (E : Env) (a b : Bytes) : Keeps Quiet (postBootAttestationDoc E a b) := by
  constructor; intro s
  exact ⟨rfl, rfl, rfl, rfl, rfl, _, rfl, by simp [Event.isAttestation]⟩

theorem quiet_liveAttestationDoc (E : Env) : Keeps Quiet (liveAttestationDoc E) := by
  unfold liveAttestationDoc getEphemeralKey
  keeps_tac quiet_pre <;>
    first | apply quiet_readPair | apply quiet_getManifestEnvelope | apply quiet_postBootAttestationDoc

theorem quiet_encryptTo (E : Env) (k : P256.Public) (b : Bytes) : Keeps Quiet (encryptTo E k b) := ⟨fun s =>
  ⟨rfl, rfl, rfl, rfl, rfl, [], by simp [encryptTo], by simp⟩⟩

theorem quiet_exportKeyInternal (E : Env) (e : Envelope) (d : AttestationDoc) :
    Keeps Quiet (exportKeyInternal E e d) := by
  unfold exportKeyInternal getQuorumKey
  keeps_tac quiet_pre <;>
    first | apply quiet_readPair | apply quiet_getManifestEnvelope | apply quiet_encryptTo

theorem quiet_exportKey (E : Env) (e : Envelope) (d : Bytes) : Keeps Quiet (exportKey E e d) := by
  unfold exportKey extractAttestationDoc
  keeps_tac quiet_pre <;> first | exact ⟨fun s => quiet_bump s⟩ | apply quiet_exportKeyInternal

end Qos
