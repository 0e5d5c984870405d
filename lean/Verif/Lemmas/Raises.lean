import Verif.Lemmas.Frames
import Verif.Props.Approvals
/-!
# Errors the services never raise themselves

`NoMatchingRoute` and `InvalidStateTransition` come only from the dispatcher, `ProtocolMsgDeserialization` only from
reading a request.
-/
namespace Qos
open Handles Services StateMachine

/-- An error other than the two raised by the dispatcher and the one raised by the reader of requests. -/
def ProtocolError.Service : ProtocolError → Prop
  | .noMatchingRoute _ => False
  | .invalidStateTransition _ _ => False
  | .protocolMsgDeserialization => False
  | _ => True

/-- A pure result never carries a dispatcher error. -/
structure CleanResult {α : Type} (x : Except ProtocolError α) : Prop where
  out : ∀ e, x = .error e → e.Service

/-- A computation never raises a dispatcher error. -/
structure Clean {α : Type} (m : M α) : Prop where
  run : ∀ s, CleanResult (m s).1

variable {α β : Type}

theorem clean_pure (a : α) : Clean (pure a : M α) := ⟨fun _ => ⟨fun _ h => nomatch h⟩⟩
theorem clean_fail {e : ProtocolError} (h : e.Service) : Clean (M.fail e : M α) :=
  ⟨fun _ => ⟨fun _ h' => by cases h'; exact h⟩⟩
theorem clean_bind {m : M α} {f : α → M β} (hm : Clean m) (hf : ∀ a, Clean (f a)) : Clean (m >>= f) := by
  constructor
  intro s
  show CleanResult (M.bind m f s).1
  unfold M.bind
  have h := hm.run s
  match hms : m s with
  | (.ok a, s') => exact (hf a).run s'
  | (.error e, s') =>
    rw [hms] at h
    constructor
    intro e' he
    cases he
    exact h.out e rfl
theorem clean_lift {x : Except ProtocolError α} (h : CleanResult x) : Clean (M.lift x) := by
  cases x with
  | ok a => exact ⟨fun _ => ⟨fun _ h => nomatch h⟩⟩
  | error e => exact clean_fail (h.out e rfl)
theorem clean_get : Clean M.get := ⟨fun _ => ⟨fun _ h => nomatch h⟩⟩
theorem clean_modify (f : St → St) : Clean (M.modify f) := ⟨fun _ => ⟨fun _ h => nomatch h⟩⟩
theorem clean_ensure {c : Bool} {e : ProtocolError} (h : e.Service) : Clean (M.ensure c e) := by
  unfold M.ensure
  cases c
  · exact clean_fail h
  · exact ⟨fun _ => ⟨fun _ h => nomatch h⟩⟩
theorem clean_optional (m : M α) : Clean (StateMachine.optional m) := by
  constructor
  intro s
  unfold StateMachine.optional
  match m s with
  | (.ok a, s') => constructor; intro e h; cases h
  | (.error e, s') => constructor; intro e h; cases h

theorem clean_liftP256 (x : Except P256Error α) : CleanResult (liftP256 x) := by
  constructor
  intro e h
  cases x with
  | ok a => cases h
  | error x => cases h; trivial

theorem clean_nextIo (E : Env) : Clean (nextIo E) := ⟨fun _ => ⟨fun _ h => nomatch h⟩⟩
theorem clean_callNsm (E : Env) (r : NsmRequest) : Clean (callNsm E r) := ⟨fun _ => ⟨fun _ h => nomatch h⟩⟩
theorem clean_generatePair (E : Env) : Clean (generatePair E) := ⟨fun _ => clean_liftP256 _⟩
theorem clean_encryptTo (E : Env) (k : P256.Public) (b : Bytes) : Clean (encryptTo E k b) := ⟨fun _ => clean_liftP256 _⟩
theorem clean_splitSecret (E : Env) (b : Bytes) (n k : Nat) : Clean (splitSecret E b n k) := by
  constructor
  intro s
  constructor
  intro e h
  unfold splitSecret at h
  simp only at h
  split at h
  · cases h
  · cases h; trivial
theorem clean_readFile (E : Env) (p : String) : Clean (readFile E p) := by
  constructor; intro s; rw [readFile_run]; constructor; intro e h; cases h
theorem clean_fileExists (p : String) : Clean (fileExists p) := ⟨fun _ => ⟨fun _ h => nomatch h⟩⟩
theorem clean_makeParent (E : Env) : Clean (makeParent E) := by
  constructor; intro s; rw [makeParent_run]; constructor; intro e h; cases h

/-- Structural search. -/
syntax "clean_tac" : tactic
macro_rules
  | `(tactic| clean_tac) => `(tactic| repeat' first
      | assumption
      | with_reducible apply clean_lift
      | (intro _)
      | trivial
      | with_reducible apply clean_bind
      | with_reducible apply clean_pure
      | with_reducible apply clean_fail
      | with_reducible apply clean_lift
      | with_reducible apply clean_get
      | with_reducible apply clean_modify
      | with_reducible apply clean_ensure
      | with_reducible apply clean_optional
      | with_reducible apply clean_nextIo
      | with_reducible apply clean_callNsm
      | with_reducible apply clean_generatePair
      | with_reducible apply clean_encryptTo
      | with_reducible apply clean_splitSecret
      | with_reducible apply clean_readFile
      | with_reducible apply clean_fileExists
      | with_reducible apply clean_makeParent
      | split)

theorem clean_writeUpTo (E : Env) (p : String) (b : Bytes) (k : Nat) : Clean (writeUpTo E p b k) := by
  induction k with
  | zero => exact ⟨fun _ => ⟨fun _ h => nomatch h⟩⟩
  | succ k ih => unfold writeUpTo setFiles; clean_tac
theorem clean_writeFile (E : Env) (p : String) (b : Bytes) : Clean (writeFile E p b) := by
  have h := clean_writeUpTo E p b
  unfold writeFile; clean_tac <;> apply h
theorem clean_renameFile (E : Env) (p q : String) : Clean (renameFile E p q) := by
  unfold renameFile setFiles; clean_tac
theorem clean_chmod (E : Env) (p : String) (m : Nat) : Clean (chmod E p m) := by
  unfold chmod setFiles; clean_tac
theorem clean_removeFile (E : Env) (p : String) : Clean (removeFile E p) := by
  unfold removeFile setFiles; clean_tac

theorem clean_writeAsReadOnly (E : Env) (p : String) (b : Bytes) {e : ProtocolError} (he : e.Service) :
    Clean (writeAsReadOnly E p b e) := by
  unfold writeAsReadOnly
  clean_tac <;> first
        | apply clean_writeFile | apply clean_renameFile | apply clean_chmod
theorem clean_readPair (E : Env) (p : String) {w : P256Error → ProtocolError} (hw : ∀ x, (w x).Service) :
    Clean (readPair E p w) := by
  unfold readPair; clean_tac <;> apply hw
theorem clean_getManifestEnvelope (E : Env) : Clean (getManifestEnvelope E) := by
  unfold getManifestEnvelope; clean_tac
theorem clean_putManifestEnvelope (E : Env) (e : Envelope) : Clean (putManifestEnvelope E e) := by
  unfold putManifestEnvelope; clean_tac; exact clean_writeAsReadOnly _ _ _ trivial
theorem clean_mutateManifestEnvelope (E : Env) (f : Envelope → Envelope) : Clean (mutateManifestEnvelope E f) := by
  unfold mutateManifestEnvelope
  clean_tac <;> first
        | apply clean_getManifestEnvelope | apply clean_writeFile | apply clean_chmod
theorem clean_putPivot (E : Env) (b : Bytes) : Clean (putPivot E b) := by
  unfold putPivot
  clean_tac <;> first
        | apply clean_writeFile | apply clean_chmod
theorem clean_rotateEphemeralKey (E : Env) (k : P256.Pair) : Clean (rotateEphemeralKey E k) := by
  unfold rotateEphemeralKey
  clean_tac <;> first
        | apply clean_removeFile | exact clean_writeAsReadOnly _ _ _ trivial
theorem clean_describeNsm (E : Env) : Clean (describeNsm E) := by unfold describeNsm; clean_tac
theorem clean_describePcr (E : Env) (i : UInt16) : Clean (describePcr E i) := by unfold describePcr; clean_tac
theorem clean_extendCommitment (E : Env) (k : Attest.Kind) (m : UInt16) (l : List UInt16) (a b : Bytes) :
    Clean (extendCommitment E k m l a b) := by
  unfold extendCommitment; clean_tac; apply clean_describePcr
theorem clean_verifyLocked (E : Env) (k : Attest.Kind) (a : Bytes) : Clean (verifyLocked E k a) := by
  unfold verifyLocked; clean_tac; apply clean_describePcr
theorem clean_lockBank (E : Env) (r : UInt16) : Clean (lockBank E r) := by unfold lockBank; clean_tac
theorem clean_requireAllLocked (m : UInt16) (l : List UInt16) : Clean (requireAllLocked m l) := by
  unfold requireAllLocked; clean_tac
theorem clean_lockCommitmentBank (E : Env) (a b c : Bytes) : Clean (lockCommitmentBank E a b c) := by
  unfold lockCommitmentBank
  clean_tac <;> first
        | apply clean_describeNsm | apply clean_extendCommitment | apply clean_verifyLocked
        | apply clean_lockBank | apply clean_requireAllLocked

theorem clean_unique (p : Prims) (ms : List QuorumMember) : CleanResult (ensureUniqueMembers p ms) := by
  constructor
  intro e h
  rcases unique_members_error p ms e h with rfl | ⟨m, _, x, _, rfl⟩ <;> trivial

theorem clean_verify (p : Prims) (a : Approval) (m : Bytes) : CleanResult (a.verify p m) := by
  constructor
  intro e h
  unfold Approval.verify at h
  split at h
  · cases h; trivial
  · split at h
    · cases h
    · cases h; trivial

theorem clean_approvalLoop (p : Prims) (hash : Bytes) (members : List QuorumMember) (as : List Approval) :
    ∀ seen, CleanResult (approvalLoop p hash members seen as) := by
  induction as with
  | nil => intro seen; constructor; intro e h; cases h
  | cons a as ih =>
    intro seen
    constructor
    intro e h
    unfold approvalLoop at h
    split at h
    · cases h; trivial
    · split at h
      · cases h; trivial
      · split at h
        · split at h
          · cases h; trivial
          · exact (ih _).out e h
        · cases h; trivial

theorem clean_checkApprovals (p : Prims) (e : Envelope) : CleanResult (e.checkApprovals p) := by
  constructor
  intro x h
  unfold Envelope.checkApprovals at h
  split at h
  · rename_i y hy
    cases h
    exact (clean_unique p _).out _ hy
  · split at h
    · rename_i y hy
      cases h
      exact (clean_approvalLoop p _ _ _ _).out _ hy
    · split at h
      · cases h; trivial
      · cases h

theorem clean_bindE {x : Except ProtocolError α} {f : α → Except ProtocolError β} (hx : CleanResult x)
    (hf : ∀ a, CleanResult (f a)) : CleanResult (x >>= f) := by
  cases x with
  | ok a => exact hf a
  | error e => constructor; intro e' h; cases h; exact hx.out e rfl

theorem clean_okE (a : α) : CleanResult (.ok a) := ⟨fun _ h => nomatch h⟩
theorem clean_errorE {e : ProtocolError} (h : e.Service) : CleanResult (.error e : Except ProtocolError α) :=
  ⟨fun _ h' => by cases h'; exact h⟩

theorem clean_liftAttest (x : Except AttestError α) : CleanResult (liftAttest x) := by
  constructor
  intro e h
  cases x with
  | ok a => cases h
  | error x => cases h; trivial

theorem clean_refuse {c : Prop} [Decidable c] {e : ProtocolError} (h : e.Service) : CleanResult (refuse c e) := by
  unfold refuse
  split
  · exact clean_errorE h
  · exact clean_okE _

theorem clean_checkBoot (E : Env) (e : Envelope) (b : Bytes) : CleanResult (checkBoot E e b) :=
  clean_bindE (clean_checkApprovals _ _) fun _ => clean_bindE (clean_refuse trivial) fun _ => clean_refuse trivial

theorem clean_checkNonce (E : Env) (a b : VersionedManifest) : CleanResult (checkNonce E a b) := by
  unfold checkNonce
  repeat' first | exact clean_errorE trivial | exact clean_okE _ | split

theorem clean_validateManifest (E : Env) (a b : Envelope) (d : AttestationDoc) :
    CleanResult (validateManifest E a b d) :=
  clean_bindE (clean_checkApprovals _ _) fun _ => clean_bindE (clean_refuse trivial) fun _ =>
  clean_bindE (clean_refuse trivial) fun _ => clean_bindE (clean_refuse trivial) fun _ =>
  clean_bindE (clean_refuse trivial) fun _ => clean_bindE (clean_checkNonce _ _ _) fun _ =>
  clean_bindE (clean_liftAttest _) fun _ => clean_refuse trivial

theorem clean_putManifestAndPivot (E : Env) (e : Envelope) (b : Bytes) : Clean (putManifestAndPivot E e b) := by
  unfold putManifestAndPivot putEphemeralKey postBootAttestationDoc
  clean_tac <;> first
        | apply clean_checkBoot | apply clean_lockCommitmentBank
        | exact clean_writeAsReadOnly _ _ _ trivial | apply clean_putPivot | apply clean_putManifestEnvelope

theorem clean_takePending : Clean takePending := by unfold takePending; clean_tac
theorem clean_addShare (b : Bytes) : Clean (addShare b) := by unfold addShare; clean_tac
theorem clean_buildSecret (l : List Bytes) : CleanResult (buildSecret l) := by
  unfold buildSecret
  split
  · exact clean_errorE trivial
  · split
    · exact clean_errorE trivial
    · exact clean_okE _
theorem clean_provisionedPair (E : Env) (q b : Bytes) : CleanResult (provisionedPair E q b) := by
  unfold provisionedPair
  split
  · exact clean_errorE trivial
  · split
    · rename_i e he
      exact clean_errorE ((clean_liftP256 _).out e he)
    · split
      · exact clean_errorE trivial
      · exact clean_okE _
theorem clean_installQuorumKey (E : Env) (k : P256.Pair) : Clean (installQuorumKey E k) := by
  unfold installQuorumKey putQuorumKey
  clean_tac <;> first
        | apply clean_takePending | apply clean_rotateEphemeralKey
        | exact clean_writeAsReadOnly _ _ _ trivial
theorem clean_provision (E : Env) (b : Bytes) (a : Approval) : Clean (provision E b a) := by
  unfold provision getEphemeralKey
  clean_tac <;> first
        | apply clean_getManifestEnvelope | apply clean_verify | apply clean_mutateManifestEnvelope
        | exact clean_readPair _ _ (fun _ => trivial) | apply clean_addShare | apply clean_buildSecret
        | apply clean_provisionedPair | apply clean_installQuorumKey
theorem clean_injectedPair (E : Env) (q : P256.Public) (b : Bytes) : CleanResult (injectedPair E q b) := by
  unfold injectedPair
  repeat' first | split | (apply clean_errorE; trivial) | apply clean_okE
theorem clean_injectKey (E : Env) (a b : Bytes) : Clean (injectKey E a b) := by
  unfold injectKey getEphemeralKey
  clean_tac <;> first
        | apply clean_getManifestEnvelope | apply clean_liftP256
        | exact clean_readPair _ _ (fun _ => trivial) | apply clean_injectedPair | apply clean_installQuorumKey
theorem clean_exportKey (E : Env) (e : Envelope) (d : Bytes) : Clean (exportKey E e d) := by
  unfold exportKey extractAttestationDoc exportKeyInternal getQuorumKey
  clean_tac <;> first
        | apply clean_liftAttest | apply clean_getManifestEnvelope | apply clean_validateManifest
        | exact clean_readPair _ _ (fun _ => trivial)
theorem clean_liveAttestationDoc (E : Env) : Clean (liveAttestationDoc E) := by
  unfold liveAttestationDoc getEphemeralKey postBootAttestationDoc
  clean_tac <;> first
        | apply clean_getManifestEnvelope | exact clean_readPair _ _ (fun _ => trivial)

theorem clean_memberOutputs (E : Env) (l : List Bytes) (ms : List QuorumMember) : Clean (memberOutputs E l ms) := by
  induction l generalizing ms with
  | nil => unfold memberOutputs; clean_tac
  | cons b l ih =>
    cases ms with
    | nil => unfold memberOutputs; clean_tac
    | cons m ms =>
      have := ih ms
      unfold memberOutputs memberOutput; clean_tac; apply clean_liftP256
theorem clean_wrapForDr (E : Env) (k : Option Bytes) (b : Bytes) : Clean (wrapForDr E k b) := by
  unfold wrapForDr; clean_tac

/-- The result that `attempt` keeps is clean as well. -/
theorem clean_attempt_bind {m : M α} {f : Except ProtocolError α → M β} (hm : Clean m)
    (hf : ∀ r, CleanResult r → Clean (f r)) : Clean (attempt m >>= f) := by
  constructor
  intro s
  show CleanResult (M.bind (attempt m) f s).1
  unfold M.bind attempt
  have h := hm.run s
  match hms : m s with
  | (r, s') =>
    rw [hms] at h
    exact (hf r h).run s'

theorem clean_bootGenesis (E : Env) (g : GenesisSet) (k : Option Bytes) : Clean (bootGenesis E g k) := by
  unfold bootGenesis
  refine clean_bind (clean_lift (clean_unique _ _)) fun _ => ?_
  refine clean_bind (clean_generatePair E) fun _ => ?_
  refine clean_bind (clean_splitSecret _ _ _ _) fun _ => ?_
  refine clean_attempt_bind (clean_memberOutputs _ _ _) fun r hr => ?_
  clean_tac; apply clean_wrapForDr

end Qos
