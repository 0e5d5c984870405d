import Verif.Spec.Boot
import Verif.Spec.Quorum
/-!
# Moments, and what a boot request asks for

Vocabulary of the theorems about boots. A *moment* is a file state that exists at some time: at the start, between any
two steps of any file operation (a crash point), or now.
-/
namespace Qos

/-- The file states that exist at some time up to `s` when the enclave starts with `files`. -/
def Moment (files : Files) (s : St) (fs : Files) : Prop := fs = files ∨ Event.files fs ∈ s.trace ∨ fs = s.files

/-- `fs` exists at some time up to `s` and `fs'` at the same time or later. -/
def InOrder (files : Files) (s : St) (fs fs' : Files) : Prop :=
  (fs = files ∧ Moment files s fs') ∨
  (∃ l1 l2 l3, s.trace = l1 ++ .files fs :: l2 ++ .files fs' :: l3) ∨
  (Event.files fs ∈ s.trace ∧ fs' = s.files) ∨ fs = fs'

/-- The message is a request to boot this envelope with this pivot. -/
def Msg.BootsWith (m : Msg) (e : Envelope) (pivot : Bytes) : Prop :=
  m = .bootStandardRequest e pivot ∨ m = .bootStandardJsonEnvelopeRequest e pivot ∨ m = .bootKeyForwardRequest e pivot

/-- What the manifest set has approved: the envelope carries a quorum of approvals over the manifest hash, no share-set
approvals, and the pivot is the one named in the manifest. -/
structure ApprovedBoot (p : Prims) (e : Envelope) (pivot : Bytes) : Prop where
  quorum : Quorum p (e.manifest.hash p) e.manifest.manifestSet e.manifestSetApprovals
  noShares : e.shareSetApprovals = []
  pivotHash : p.sha256 pivot = e.manifest.pivotHash

end Qos
