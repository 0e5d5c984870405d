import Verif.Props.Lifecycle
import Verif.Spec.Toy
/-!
# Concrete lifecycles for C01–C04

Runs of the model that show the hypotheses of the lifecycle theorems are met and that the documented edges are
taken.
-/
namespace Qos.Lifecycle
open StateMachine

set_option maxRecDepth 100000

/-- An enclave that has just started. -/
def fresh : St := St.initial noFiles

-- A wrong pivot is fatal.
example : (handle toyEnv (.bootStandardRequest toyEnvelope [1, 2]) fresh).2.phase = .unrecoverableError := by
  decide +kernel
-- Genesis is a final phase.
example : (handle toyEnv (.bootGenesisRequest ⟨[toyMember 1, toyMember 2], 2⟩ none) fresh).2.phase =
    .genesisBooted := by decide +kernel
-- A share that does not verify is fatal (`read` of a missing file here).
example : (handle toyEnv (.provisionRequest [] (toyApproval 1 [])) { fresh with phase := .waitingForQuorumShards }).2.phase =
    .unrecoverableError := by decide +kernel

-- C03: not served before boot.
example : kind .liveAttestationDocRequest ∉ served fresh.phase := by decide
-- C02: a reachable final phase.
example : (after toyEnv fresh [.bootStandardRequest toyEnvelope [1, 2], .statusRequest]).phase ∈ final := by
  decide +kernel

-- C04: a read-only request that does something: it reaches the device.
example : kind .liveAttestationDocRequest ∈ readOnly := by decide

end Qos.Lifecycle
