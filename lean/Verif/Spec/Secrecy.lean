import Verif.Model.StateMachine
/-!
# What must not show: states that differ only in a secret

Two states of an enclave that agree on everything but the content of some files, and perhaps the shares and the key it holds in
memory. (The trace, which contains the contents of all files, is not compared; the device requests are: `nsmHist`.)
-/
namespace Qos
open StateMachine

/-- The states agree but for the contents of the `hidden` files and, if `mem`, for the shares collected so far and the pending key.
Which files exist, how many shares there are and whether there is a pending key is the same. -/
structure Alike (hidden : String → Prop) (mem : Bool) (s s' : St) : Prop where
  phase : s'.phase = s.phase
  nsmHist : s'.nsmHist = s.nsmHist
  seeds : s'.seeds = s.seeds
  rands : s'.rands = s.rands
  splits : s'.splits = s.splits
  ios : s'.ios = s.ios
  files : ∀ p, ¬ hidden p → s'.files p = s.files p
  present : ∀ p, (s'.files p).isSome = (s.files p).isSome
  count : s'.shares.length = s.shares.length
  shares : mem = false → s'.shares = s.shares
  holds : s'.pending.isSome = s.pending.isSome
  pending : mem = false → s'.pending = s.pending

/-- Different contents of the quorum-key file, and nothing else. -/
def SameButKey (E : Env) : St → St → Prop := Alike (· = E.paths.quorum) false

/-- Different shares collected so far, and a different pending key, and nothing else. -/
def SameButShares : St → St → Prop := Alike (fun _ => False) true

/-- The answers to a sequence of requests, and the state reached. -/
def answers (E : Env) : List Msg → St → List Msg × St
  | [], s => ([], s)
  | m :: ms, s => ((handle E m s).1 :: (answers E ms (handle E m s).2).1, (answers E ms (handle E m s).2).2)

/-- Not a request to export the quorum key. -/
def NotExport (m : Msg) : Prop := ∀ e der, m ≠ .exportKeyRequest e der

/-- Two answers to an export that may differ: both encrypt the enclave's own quorum key, to the same public key with the same
randomness, and sign the ciphertext with it. -/
def Exported (E : Env) (k k' : P256.Pair) (rand : P256.SealRandom) (target : P256.Public) (a a' : Msg) : Prop :=
  ∃ ct ct', target.encrypt E.prims rand k.seed = .ok ct ∧ target.encrypt E.prims rand k'.seed = .ok ct' ∧
    a = .exportKeyResponse ct (k.sign E.prims ct) ∧ a' = .exportKeyResponse ct' (k'.sign E.prims ct')

end Qos
