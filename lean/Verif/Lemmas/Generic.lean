import Verif.Lemmas.Frames
/-!
# Relations kept by every request

A preorder on states that is kept by the environment calls and does not look at phase, shares or pending key
is kept by `handle`.
-/
namespace Qos
open P256 Handles Services StateMachine

/-- The primitives keep `R`. -/
structure Prim (E : Env) (R : St → St → Prop) : Prop where
  pre : Preorderly R
  io : Keeps R (nextIo E)
  files : ∀ fs, Keeps R (setFiles fs)
  nsm : ∀ r, Keeps R (callNsm E r)
  gen : Keeps R (generatePair E)
  enc : ∀ k m, Keeps R (encryptTo E k m)
  split : ∀ b n k, Keeps R (splitSecret E b n k)
  mem : ∀ s sh pd ph, R s { s with shares := sh, pending := pd, phase := ph }

/-- Discharge `Keeps R` goals from a `Prim`. -/
syntax "prim_tac" term : tactic
macro_rules
  | `(tactic| prim_tac $p) => `(tactic| repeat' first
      | assumption
      | intro _
      | with_reducible apply keeps_bind (Prim.pre $p)
      | with_reducible apply keeps_pure (Prim.pre $p)
      | with_reducible apply keeps_mpure (Prim.pre $p)
      | with_reducible apply keeps_fail (Prim.pre $p)
      | with_reducible apply keeps_lift (Prim.pre $p)
      | with_reducible apply keeps_get (Prim.pre $p)
      | with_reducible apply keeps_ensure (Prim.pre $p)
      | with_reducible apply keeps_optional
      | with_reducible apply keeps_attempt
      | with_reducible apply Prim.io $p
      | with_reducible apply Prim.files $p
      | with_reducible apply Prim.nsm $p
      | with_reducible apply Prim.gen $p
      | with_reducible apply Prim.enc $p
      | with_reducible apply Prim.split $p
      | exact ⟨fun s => Prim.mem $p s _ _ _⟩
      | split)

section
variable {E : Env} {R : St → St → Prop} (p : Prim E R)
include p

theorem Prim.readFile (q : String) : Keeps R (readFile E q) := by unfold Qos.readFile; prim_tac p
theorem Prim.fileExists (q : String) : Keeps R (fileExists q) := by unfold Qos.fileExists; prim_tac p
theorem Prim.makeParent : Keeps R (makeParent E) := by unfold Qos.makeParent; prim_tac p
theorem Prim.writeUpTo (q : String) (b : Bytes) (k : Nat) : Keeps R (writeUpTo E q b k) := by
  induction k with
  | zero => unfold Qos.writeUpTo; prim_tac p
  | succ k ih => unfold Qos.writeUpTo; prim_tac p
theorem Prim.writeFile (q : String) (b : Bytes) : Keeps R (writeFile E q b) := by
  have := p.writeUpTo q b
  unfold Qos.writeFile; prim_tac p <;> apply this
theorem Prim.renameFile (q q' : String) : Keeps R (renameFile E q q') := by unfold Qos.renameFile; prim_tac p
theorem Prim.chmod (q : String) (m : Nat) : Keeps R (chmod E q m) := by unfold Qos.chmod; prim_tac p
theorem Prim.removeFile (q : String) : Keeps R (removeFile E q) := by unfold Qos.removeFile; prim_tac p
theorem Prim.writeAsReadOnly (q : String) (b : Bytes) (e : ProtocolError) : Keeps R (writeAsReadOnly E q b e) := by
  unfold Handles.writeAsReadOnly
  prim_tac p <;> first | apply p.fileExists | apply p.makeParent | apply p.writeFile | apply p.renameFile | apply p.chmod
theorem Prim.readPair (q : String) (w : P256Error → ProtocolError) : Keeps R (readPair E q w) := by
  unfold Handles.readPair; prim_tac p; apply p.readFile
theorem Prim.getManifestEnvelope : Keeps R (getManifestEnvelope E) := by
  unfold Handles.getManifestEnvelope; prim_tac p; apply p.readFile
theorem Prim.putManifestEnvelope (e : Envelope) : Keeps R (putManifestEnvelope E e) := by
  unfold Handles.putManifestEnvelope; prim_tac p; apply p.writeAsReadOnly
theorem Prim.mutate (f : Envelope → Envelope) : Keeps R (mutateManifestEnvelope E f) := by
  unfold mutateManifestEnvelope
  prim_tac p <;> first | apply p.getManifestEnvelope | apply p.chmod | apply p.writeFile
theorem Prim.putPivot (b : Bytes) : Keeps R (putPivot E b) := by
  unfold Handles.putPivot
  prim_tac p <;> first | apply p.fileExists | apply p.makeParent | apply p.writeFile | apply p.chmod
theorem Prim.rotate (k : Pair) : Keeps R (rotateEphemeralKey E k) := by
  unfold rotateEphemeralKey
  prim_tac p <;> first | apply p.fileExists | apply p.removeFile | apply p.writeAsReadOnly
theorem Prim.describeNsm : Keeps R (describeNsm E) := by unfold Services.describeNsm; prim_tac p
theorem Prim.describePcr (i : UInt16) : Keeps R (describePcr E i) := by unfold Services.describePcr; prim_tac p
theorem Prim.extendCommitment (k : Attest.Kind) (m : UInt16) (l : List UInt16) (a b : Bytes) :
    Keeps R (extendCommitment E k m l a b) := by
  unfold Services.extendCommitment; prim_tac p; apply p.describePcr
theorem Prim.verifyLocked (k : Attest.Kind) (a : Bytes) : Keeps R (verifyLocked E k a) := by
  unfold Services.verifyLocked; prim_tac p; apply p.describePcr
theorem Prim.lockBank (r : UInt16) : Keeps R (lockBank E r) := by unfold Services.lockBank; prim_tac p
theorem Prim.lockCommitmentBank (a b c : Bytes) : Keeps R (lockCommitmentBank E a b c) := by
  unfold Services.lockCommitmentBank requireAllLocked
  prim_tac p <;> first | apply p.describeNsm | apply p.extendCommitment | apply p.verifyLocked | apply p.lockBank
theorem Prim.putManifestAndPivot (e : Envelope) (b : Bytes) : Keeps R (putManifestAndPivot E e b) := by
  unfold Services.putManifestAndPivot putEphemeralKey postBootAttestationDoc
  prim_tac p <;> first | apply p.lockCommitmentBank | apply p.writeAsReadOnly | apply p.putPivot | apply p.putManifestEnvelope
theorem Prim.install (k : Pair) : Keeps R (installQuorumKey E k) := by
  unfold installQuorumKey takePending putQuorumKey
  prim_tac p <;> first | apply p.rotate | apply p.writeAsReadOnly
theorem Prim.provision (b : Bytes) (a : Approval) : Keeps R (provision E b a) := by
  unfold Services.provision addShare getEphemeralKey
  prim_tac p <;> first | apply p.getManifestEnvelope | apply p.mutate | apply p.readPair | apply p.install
theorem Prim.injectKey (a b : Bytes) : Keeps R (injectKey E a b) := by
  unfold Services.injectKey getEphemeralKey
  prim_tac p <;> first | apply p.getManifestEnvelope | apply p.readPair | apply p.install
theorem Prim.memberOutputs (l : List Bytes) (ms : List QuorumMember) : Keeps R (memberOutputs E l ms) := by
  induction l generalizing ms with
  | nil => unfold Services.memberOutputs; prim_tac p
  | cons b l ih =>
    cases ms with
    | nil => unfold Services.memberOutputs; prim_tac p
    | cons m ms =>
      have := ih ms
      unfold Services.memberOutputs memberOutput; prim_tac p
theorem Prim.bootGenesis (g : GenesisSet) (k : Option Bytes) : Keeps R (bootGenesis E g k) := by
  unfold Services.bootGenesis wrapForDr
  prim_tac p <;> apply p.memberOutputs
theorem Prim.live : Keeps R (liveAttestationDoc E) := by
  unfold liveAttestationDoc getEphemeralKey postBootAttestationDoc
  prim_tac p <;> first | apply p.getManifestEnvelope | apply p.readPair
theorem Prim.exportKey (e : Envelope) (d : Bytes) : Keeps R (exportKey E e d) := by
  unfold Services.exportKey extractAttestationDoc exportKeyInternal getQuorumKey
  prim_tac p <;> first | apply p.getManifestEnvelope | apply p.readPair

theorem Prim.afterHandler (r : Route) {m : M Msg} (hm : Keeps R m) (s : St) :
    R s (afterHandler r (m s)).2 := by
  have h := hm.run s
  have hfin : ∀ n a s', R s s' → R s (finish n a s').2 := by
    intro n a s' hs
    unfold finish transition
    by_cases h1 : s'.phase = n
    · rw [if_pos h1]; exact hs
    · rw [if_neg h1]
      by_cases h2 : (transitions s'.phase).contains n
      · rw [if_pos h2]; exact p.pre.trans _ _ _ hs (p.mem s' s'.shares s'.pending n)
      · rw [if_neg h2]; exact p.pre.trans _ _ _ hs (p.mem s' s'.shares s'.pending .unrecoverableError)
  match hx : m s with
  | (.error e, s') =>
    rw [hx] at h
    exact hfin _ _ _ h
  | (.ok a, s') =>
    rw [hx] at h
    unfold StateMachine.afterHandler
    split
    · rename_i heq; injection heq with _ h2; subst h2; exact h
    · rename_i heq; injection heq with _ h2; subst h2; exact hfin _ _ _ h
    · rename_i heq; cases heq

/-- Every handler of every route keeps `R`. -/
theorem Prim.handlers (msg : Msg) : ∀ f ∈ [status, version E, manifestEnvelope E, provisionHandler E, bootStandard E,
    bootGenesisHandler E, liveAttestation E, bootKeyForward E, exportKeyHandler E, injectKeyHandler E],
    ∀ m, f msg = some m → Keeps R m := by
  intro f hf m hm
  simp only [List.mem_cons, List.not_mem_nil, or_false] at hf
  rcases hf with rfl | rfl | rfl | rfl | rfl | rfl | rfl | rfl | rfl | rfl <;>
    cases msg <;> simp only [status, version, manifestEnvelope, provisionHandler, bootStandard, bootGenesisHandler,
      liveAttestation, bootKeyForward, exportKeyHandler, injectKeyHandler, reduceCtorEq, Option.some.injEq] at hm <;>
    subst hm <;> prim_tac p <;>
    first | apply p.getManifestEnvelope | apply p.provision | apply p.putManifestAndPivot | apply p.bootGenesis
          | apply p.live | apply p.exportKey | apply p.injectKey

/-- `handle` keeps `R`. -/
theorem Prim.handle (msg : Msg) (s : St) : R s (handle E msg s).2 := by
  have hd : ∀ rs : List Route, (∀ r ∈ rs, ∀ m, r.handler msg = some m → Keeps R m) →
      R s (dispatch msg rs s).2 := by
    intro rs
    induction rs with
    | nil => intro _; exact p.pre.refl s
    | cons r rs ih =>
      intro h
      unfold dispatch
      cases hr : r.handler msg with
      | none => exact ih fun r' hr' => h r' (List.mem_cons_of_mem _ hr')
      | some m => exact p.afterHandler r (h r List.mem_cons_self m hr) s
  unfold StateMachine.handle
  refine hd _ ?_
  intro r hr m hm
  refine p.handlers msg r.handler ?_ m hm
  have : ∀ ph : Phase, ∀ r ∈ routes E ph, r.handler ∈ [status, version E, manifestEnvelope E, provisionHandler E,
      bootStandard E, bootGenesisHandler E, liveAttestation E, bootKeyForward E, exportKeyHandler E,
      injectKeyHandler E] := by
    intro ph
    cases ph <;> simp [routes]
  exact this _ r hr

end

end Qos
