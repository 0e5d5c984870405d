import Verif.Lemmas.BootSteps
/-!
# The exchange with the device
-/
namespace Qos
open P256 Handles Services

variable {E : Env} {b : Boot} {reqs : List Msg}

/-- Only the device was used. -/
structure Device (s s' : St) : Prop where
  phase : s'.phase = s.phase
  files : s'.files = s.files
  shares : s'.shares = s.shares
  pending : s'.pending = s.pending
  seeds : s'.seeds = s.seeds
  trace : ∃ evs, s'.trace = s.trace ++ evs ∧ ∀ ev ∈ evs, ∃ r a, ev = .nsm r a

theorem device_pre : Preorderly Device where
  refl s := ⟨rfl, rfl, rfl, rfl, rfl, [], by simp, by simp⟩
  trans a b c h1 h2 := by
    obtain ⟨e1, h1t, h1a⟩ := h1.trace
    obtain ⟨e2, h2t, h2a⟩ := h2.trace
    refine ⟨h2.phase.trans h1.phase, h2.files.trans h1.files, h2.shares.trans h1.shares,
      h2.pending.trans h1.pending, h2.seeds.trans h1.seeds, e1 ++ e2, ?_, ?_⟩
    · rw [h2t, h1t, List.append_assoc]
    · intro ev hev
      rcases List.mem_append.1 hev with h | h
      · exact h1a _ h
      · exact h2a _ h

theorem device_callNsm (E : Env) (r : NsmRequest) : Keeps Device (callNsm E r) :=
  ⟨fun _ => ⟨rfl, rfl, rfl, rfl, rfl, _, rfl, by simp⟩⟩
theorem device_describeNsm (E : Env) : Keeps Device (describeNsm E) := by
  unfold describeNsm; keeps_tac device_pre; apply device_callNsm
theorem device_describePcr (E : Env) (i : UInt16) : Keeps Device (describePcr E i) := by
  unfold describePcr; keeps_tac device_pre; apply device_callNsm
theorem device_extendCommitment (E : Env) (k : Attest.Kind) (m : UInt16) (l : List UInt16) (a c : Bytes) :
    Keeps Device (extendCommitment E k m l a c) := by
  unfold extendCommitment; keeps_tac device_pre <;> first | apply device_describePcr | apply device_callNsm
theorem device_verifyLocked (E : Env) (k : Attest.Kind) (a : Bytes) : Keeps Device (verifyLocked E k a) := by
  unfold verifyLocked; keeps_tac device_pre; apply device_describePcr
theorem device_lockBank (E : Env) (r : UInt16) : Keeps Device (lockBank E r) := by
  unfold lockBank; keeps_tac device_pre; apply device_callNsm
theorem device_requireAllLocked (m : UInt16) (l : List UInt16) : Keeps Device (requireAllLocked m l) := by
  unfold requireAllLocked; keeps_tac device_pre
theorem device_lockCommitmentBank (E : Env) (a c d : Bytes) : Keeps Device (lockCommitmentBank E a c d) := by
  unfold lockCommitmentBank
  keeps_tac device_pre <;>
    first | apply device_describeNsm | apply device_extendCommitment | apply device_verifyLocked
          | apply device_lockBank | apply device_requireAllLocked

/-- Combine what always holds with what holds at the ends. -/
theorem ends_keeps {α : Type} {R : St → St → Prop} {m : M α} {s : St} {Q : α → St → Prop}
    {X : ProtocolError → St → Prop} (hk : Keeps R m) (h : Ends m s Q X) :
    Ends m s (fun a s' => Q a s' ∧ R s s') (fun e s' => X e s' ∧ R s s') := by
  have hr := hk.run s
  unfold Ends at h ⊢
  match hm : m s with
  | (.ok a, s') => rw [hm] at h hr; exact ⟨h, hr⟩
  | (.error e, s') => rw [hm] at h hr; exact ⟨h, hr⟩

/-- The state after a device request. -/
def ask (E : Env) (s : St) (r : NsmRequest) : St := (callNsm E r s).2

theorem ask_trace (s : St) (r : NsmRequest) : (ask E s r).trace = s.trace ++ [.nsm r (E.nsm s.nsmHist r)] := rfl

variable {X : ProtocolError → St → Prop}

theorem callNsm_ends {s : St} {r : NsmRequest} {Q : NsmResponse → St → Prop}
    (h : Q (E.nsm s.nsmHist r) (ask E s r)) : Ends (callNsm E r) s Q X := h

theorem describeNsm_ends {s : St} {Q : UInt16 × List UInt16 × NsmDigest → St → Prop}
    (h : ∀ v1 v2 v3 mod mx l d, E.nsm s.nsmHist .describeNSM = .describeNSM v1 v2 v3 mod mx l d →
      Q (mx, l, d) (ask E s .describeNSM)) (hX : ∀ e s, X e s) : Ends (describeNsm E) s Q X := by
  unfold describeNsm
  refine ends_bind (callNsm_ends ?_)
  split
  · exact ends_pure (h _ _ _ _ _ _ _ (by assumption))
  · exact ends_fail (hX _ _)

theorem describePcr_ends {s : St} {i : UInt16} {Q : Bool × Bytes → St → Prop}
    (h : ∀ l v, E.nsm s.nsmHist (.describePCR i) = .describePCR l v → Q (l, v) (ask E s (.describePCR i)))
    (hX : ∀ e s, X e s) : Ends (describePcr E i) s Q X := by
  unfold describePcr
  refine ends_bind (callNsm_ends ?_)
  split
  · exact ends_pure (h _ _ (by assumption))
  · exact ends_fail (hX _ _)

theorem extendCommitment_ends {s : St} {kind : Attest.Kind} {mx : UInt16} {l : List UInt16} {mh key : Bytes}
    {Q : Bytes → St → Prop}
    (h : UInt16.ofNat kind.pcrIndex ∉ l →
      E.nsm s.nsmHist (.describePCR (UInt16.ofNat kind.pcrIndex)) = .describePCR false zeroPcr →
      E.nsm (ask E s (.describePCR (UInt16.ofNat kind.pcrIndex))).nsmHist
        (.extendPCR (UInt16.ofNat kind.pcrIndex) (Attest.commitment E.prims kind mh key)) =
        .extendPCR (extended E.prims (Attest.commitment E.prims kind mh key)) →
      Q (extended E.prims (Attest.commitment E.prims kind mh key))
        (ask E (ask E s (.describePCR (UInt16.ofNat kind.pcrIndex)))
          (.extendPCR (UInt16.ofNat kind.pcrIndex) (Attest.commitment E.prims kind mh key))))
    (hX : ∀ e s, X e s) : Ends (extendCommitment E kind mx l mh key) s Q X := by
  unfold extendCommitment
  refine ends_bind (ends_ensure (fun _ => ?_) fun _ => hX _ _)
  refine ends_bind (ends_ensure (fun hl => ?_) fun _ => hX _ _)
  refine ends_bind (describePcr_ends (fun lk v hd => ?_) hX)
  refine ends_bind (ends_ensure (fun hlk => ?_) fun _ => hX _ _)
  refine ends_bind (ends_ensure (fun hz => ?_) fun _ => hX _ _)
  have hlk' : lk = false := by simpa using hlk
  have hz' : v = zeroPcr := by simpa using hz
  subst hlk' hz'
  have hp : pcrExtend E.prims zeroPcr (Attest.commitment E.prims kind mh key) =
      some (extended E.prims (Attest.commitment E.prims kind mh key)) := by
    simp [pcrExtend, extended, zeroPcr]
  simp only [hp]
  refine ends_bind (callNsm_ends ?_)
  split
  · rename_i data hx
    refine ends_bind (ends_ensure (fun hdata => ?_) fun _ => hX _ _)
    have hdata' : data = extended E.prims (Attest.commitment E.prims kind mh key) := by simpa using hdata
    subst hdata'
    exact ends_pure (h (by simpa using hl) hd hx)
  · exact ends_fail (hX _ _)

theorem verifyLocked_ends {s : St} {kind : Attest.Kind} {v : Bytes} {Q : Unit → St → Prop}
    (h : E.nsm s.nsmHist (.describePCR (UInt16.ofNat kind.pcrIndex)) = .describePCR true v →
      Q () (ask E s (.describePCR (UInt16.ofNat kind.pcrIndex))))
    (hX : ∀ e s, X e s) : Ends (verifyLocked E kind v) s Q X := by
  unfold verifyLocked
  refine ends_bind (describePcr_ends (fun lk v' hd => ?_) hX)
  refine ends_bind (ends_ensure (fun hlk => ?_) fun _ => hX _ _)
  refine ends_ensure (fun hv => ?_) fun _ => hX _ _
  have hlk' : lk = true := hlk
  have hv' : v' = v := by simpa using hv
  subst hlk' hv'
  exact h hd

theorem lockBank_ends {s : St} {r : UInt16} {Q : Unit → St → Prop}
    (h : E.nsm s.nsmHist (.lockPCRs r) = .lockPCRs → Q () (ask E s (.lockPCRs r)))
    (hX : ∀ e s, X e s) : Ends (lockBank E r) s Q X := by
  unfold lockBank
  refine ends_bind (callNsm_ends ?_)
  split
  · exact ends_pure (h (by assumption))
  · exact ends_fail (hX _ _)

/-- Success of the bank setup is exactly the committed exchange. -/
theorem lockCommitmentBank_ends (E : Env) (b : Boot) (s : St) :
    Ends (lockCommitmentBank E (b.hash E) (b.setupPublic E) (b.livePublic E)) s
      (fun _ s' => Device s s' ∧ ∃ evs, s'.trace = s.trace ++ evs ∧ Committed E b evs)
      (fun _ s' => Device s s') := by
  have key : Ends (lockCommitmentBank E (b.hash E) (b.setupPublic E) (b.livePublic E)) s
      (fun _ s' => ∃ evs, s'.trace = s.trace ++ evs ∧ Committed E b evs) (fun _ _ => True) := by
    have hX : ∀ (e : ProtocolError) (s : St), (fun (_ : ProtocolError) (_ : St) => True) e s := fun _ _ => trivial
    unfold lockCommitmentBank
    refine ends_bind (describeNsm_ends (fun v1 v2 v3 mod mx l d hd => ?_) hX)
    refine ends_bind (ends_ensure (fun hdig => ?_) fun _ => trivial)
    refine ends_bind (ends_ensure (fun hmx => ?_) fun _ => trivial)
    refine ends_bind (extendCommitment_ends (fun a1 a2 a3 => ?_) hX)
    refine ends_bind (extendCommitment_ends (fun c1 c2 c3 => ?_) hX)
    refine ends_bind (lockBank_ends (fun hlk => ?_) hX)
    refine ends_bind (describeNsm_ends (fun w1 w2 w3 mod' mx' l' d' hd' => ?_) hX)
    refine ends_bind (ends_ensure (fun hmm => ?_) fun _ => trivial)
    unfold requireAllLocked
    refine ends_bind (ends_ensure (fun hall => ?_) fun _ => trivial)
    refine ends_bind (verifyLocked_ends (fun f1 => ?_) hX)
    refine verifyLocked_ends (fun f2 => ?_) hX
    have hdig' : d = .sha384 := by simpa using hdig
    have hmm' : mx' = mx := by simpa using hmm
    subst hdig' hmm'
    refine ⟨_, ?_, v1, v2, v3, w1, w2, w3, mod, mod', mx', l, l', d', by simpa using hmx, ?_, a1, c1, rfl⟩
    · simp only [ask_trace, hd, hlk, hd', f1, f2, a2, a3, c2, c3, List.append_assoc, List.cons_append,
        List.nil_append]
      rfl
    · intro i hi
      have := List.all_eq_true.1 hall i.toNat (List.mem_range.2 (UInt16.lt_iff_toNat_lt.1 hi))
      simpa using this
  refine ends_mono (ends_keeps (device_lockCommitmentBank E _ _ _) key) ?_ ?_
  · intro _ s' ⟨h1, h2⟩; exact ⟨h2, h1⟩
  · intro _ s' ⟨_, h2⟩; exact h2

end Qos
