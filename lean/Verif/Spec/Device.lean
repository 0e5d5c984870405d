import Verif.Spec.Boot
/-!
# The NSM model as the device of an enclave
-/
namespace Qos

/-- The NSM model as a device: it answers the next request from the state that the earlier ones led to. -/
def mockDevice (p : Prims) (pki : MockNsm.Pki) (start : MockNsm.State) (hist : List NsmRequest) (req : NsmRequest) :
    NsmResponse :=
  match MockNsm.run p pki start hist with
  | none => .error .internalError
  | some (s, _) => match MockNsm.process p pki s req with
    | none => .error .internalError
    | some (_, r) => r

/-- A device when the enclave starts: 32 registers of 48 bytes, none locked, the two commitment registers zero, the
others (measurements of image, role, ...) anything. -/
structure MockNsm.State.Started (d : MockNsm.State) : Prop where
  max : d.maxPcrs = 32
  unlocked : ∀ i, d.locked i = false
  setup : d.value 16 = zeroPcr
  live : d.value 17 = zeroPcr
  sized : ∀ i, (d.value i).length = 48

/-- The enclave talks to a device that behaves like the NSM model (`qos_nsm/src/mock.rs`), with `start` as its state
when the enclave starts. -/
structure HonestDevice (E : Env) (pki : MockNsm.Pki) (start : MockNsm.State) : Prop where
  started : start.Started
  nsm : E.nsm = mockDevice E.prims pki start

/-- A document issued by such a device: its measurement registers still have the values of the start, and it names a
hash and a key. -/
structure IssuedDoc (pki : MockNsm.Pki) (start : MockNsm.State) (doc : AttestationDoc) : Prop where
  issued : ∃ d hash key, doc = MockNsm.attestationDoc pki d (some hash) none (some key) ∧
    (∀ i : UInt16, i < 32 → i ≠ 16 → i ≠ 17 → d.value i = start.value i) ∧
    (∀ i : UInt16, i < 32 → (d.value i).length = 48) ∧ hash.length = 32 ∧ key.length = 130

/-- No file-system call fails. -/
def ReliableFiles (E : Env) : Prop := ∀ n, E.io n = .ok

/-- The device request of an event. -/
def Event.request : Event → Option NsmRequest
  | .nsm r _ => some r
  | .files _ => none

/-- The device response of an event. -/
def Event.response : Event → Option NsmResponse
  | .nsm _ a => some a
  | .files _ => none

end Qos
