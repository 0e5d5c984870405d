import Verif.Lemmas.Secrecy
import Verif.Lemmas.Frames
import Verif.Lemmas.Served
import Verif.Props.Scenario
/-!
# C76: the enclave's answers do not depend on its secrets
-/
namespace Qos.Secrecy
open Qos StateMachine Services Handles P256

/-! ## The quorum key -/

theorem handlers_blind {E : Env} (S : Shows (· = E.paths.quorum) E.paths) {msg : Msg} (hm : NotExport msg) :
    ∀ ph, ∀ r ∈ routes E ph, ∀ m, r.handler msg = some m → Blind (· = E.paths.quorum) false m := by
  intro ph r hr m h
  have hin : r.handler ∈ [status, version E, manifestEnvelope E, provisionHandler E, bootStandard E, bootGenesisHandler E,
      liveAttestation E, bootKeyForward E, exportKeyHandler E, injectKeyHandler E] := by
    revert hr
    cases ph <;> simp only [routes, List.mem_cons, List.not_mem_nil, or_false] <;> intro hr <;>
      (rcases hr with rfl | rfl | rfl | rfl | rfl | rfl) <;> simp
  revert hin h
  generalize r.handler = f
  intro h hin
  have h1 := blind_getManifestEnvelope (mem := false) S
  have h2 := fun b a => blind_provision S b a
  have h3 := fun e b => blind_putManifestAndPivot (mem := false) S e b
  have h4 : ∀ g k, Blind (· = E.paths.quorum) false (bootGenesis E g k) := fun g k => blind_bootGenesis g k
  have h5 := blind_live (mem := false) S
  have h6 := fun a b => blind_injectKey S a b
  have h7 : Blind (· = E.paths.quorum) false (M.get >>= fun s => (pure (Msg.statusResponse s.phase) : M Msg)) :=
    blind_get (fun s s' h => by rw [h.phase]) fun s => blind_pure _
  simp only [List.mem_cons, List.not_mem_nil, or_false] at hin
  rcases hin with rfl | rfl | rfl | rfl | rfl | rfl | rfl | rfl | rfl | rfl <;>
    cases msg <;> simp only [status, version, manifestEnvelope, provisionHandler, bootStandard, bootGenesisHandler,
      liveAttestation, bootKeyForward, exportKeyHandler, injectKeyHandler, reduceCtorEq, Option.some.injEq] at h <;>
    subst h <;> first | exact h7 | exact absurd rfl (hm _ _) | skip
  all_goals blind <;> first | exact h2 _ _ | exact h3 _ _ | exact h4 _ _ | exact h6 _ _

/-- C76: for every request that is not an export, and every pair of states that differ in the quorum key alone: the answer is
the same, and so is everything the enclave does. -/
theorem key_not_used {E : Env} (hE : E.paths.Distinct) {msg : Msg} (hm : NotExport msg) {s s' : St} (h : SameButKey E s s') :
    (handle E msg s').1 = (handle E msg s).1 ∧ SameButKey E (handle E msg s).2 (handle E msg s').2 :=
  handle_alike h fun r hr m hrm => handlers_blind (shows_key hE) hm _ r hr m hrm

/-- C76: and for any sequence of such requests. -/
theorem answers_hide_key {E : Env} (hE : E.paths.Distinct) : ∀ (reqs : List Msg) (s s' : St), (∀ m ∈ reqs, NotExport m) →
    SameButKey E s s' → (answers E reqs s').1 = (answers E reqs s).1 ∧ SameButKey E (answers E reqs s).2 (answers E reqs s').2
  | [], _, _, _, h => ⟨rfl, h⟩
  | m :: ms, s, s', hr, h => by
    obtain ⟨h1, h2⟩ := key_not_used hE (hr m List.mem_cons_self) h
    obtain ⟨h3, h4⟩ := answers_hide_key hE ms _ _ (fun x hx => hr x (List.mem_cons_of_mem _ hx)) h2
    refine ⟨?_, h4⟩
    show (handle E m s').1 :: (answers E ms (handle E m s').2).1 = (handle E m s).1 :: (answers E ms (handle E m s).2).1
    rw [h1, h3]

/-! ## Exports -/

/-- The state holds this quorum key. -/
def HoldsKey (E : Env) (s : St) (k : Pair) : Prop :=
  ∃ f, s.files E.paths.quorum = some f ∧ Pair.fromHexContents E.prims f.data = .ok k

theorem split_blind {α β : Type} {hidden : String → Prop} {mem : Bool} {m : M α} {f : α → M β} (hm : Blind hidden mem m) {s s' : St}
    (h : Alike hidden mem s s') :
    (∃ er t t', Alike hidden mem t t' ∧ (m >>= f) s = (.error er, t) ∧ (m >>= f) s' = (.error er, t')) ∨
    ∃ a t t', Alike hidden mem t t' ∧ m s = (.ok a, t) ∧ m s' = (.ok a, t') ∧ (m >>= f) s = f a t ∧ (m >>= f) s' = f a t' := by
  obtain ⟨h1, h2⟩ := hm.run s s' h
  rw [bind_run, bind_run]
  rcases hx : m s with ⟨r, t⟩
  rcases hy : m s' with ⟨r', t'⟩
  rw [hx, hy] at h1 h2
  simp only at h1 h2
  subst h1
  cases r' with
  | ok a => exact .inr ⟨a, t, t', h2, rfl, rfl, rfl, rfl⟩
  | error e => exact .inl ⟨e, t, t', h2, rfl, rfl⟩

/-- What two runs of an export can give. -/
def Twin (E : Env) (k k' : Pair) (x x' : Except ProtocolError (Bytes × Bytes) × St) : Prop :=
  Alike (· = E.paths.quorum) false x.2 x'.2 ∧ (x'.1 = x.1 ∨ ∃ (n : Nat) (bytes : Bytes) (target : Public) (ct ct' : Bytes),
    Public.fromBytes E.prims bytes = .ok target ∧
    target.encrypt E.prims (E.randAt n) k.seed = .ok ct ∧ target.encrypt E.prims (E.randAt n) k'.seed = .ok ct' ∧
    x.1 = .ok (ct, k.sign E.prims ct) ∧ x'.1 = .ok (ct', k'.sign E.prims ct'))

theorem holds_of {E : Env} {s t : St} {k : Pair} (h : HoldsKey E s k) (hf : t.files = s.files) : HoldsKey E t k := by
  obtain ⟨f, h1, h2⟩ := h
  exact ⟨f, by rw [hf, h1], h2⟩

theorem readPair_run {E : Env} {s : St} {k : Pair} (h : HoldsKey E s k) :
    getQuorumKey E s = (if E.io s.ios = .ok then .ok k else .error (.failedToGetQuorumKey (.ioError "read failed")), bump s) := by
  obtain ⟨f, h1, h2⟩ := h
  unfold getQuorumKey readPair
  rw [bind_run, readFile_run]
  by_cases ho : E.io s.ios = .ok
  · simp only [ho, if_true, h1, Option.map_some]
    rw [h2]; rfl
  · simp only [ho, if_false]
    rfl

theorem seed_length {p : Prims} {c : Bytes} {k : Pair} (h : Pair.fromHexContents p c = .ok k) : k.seed.length = 32 := by
  obtain ⟨x, -, h2, -⟩ := hex_file_accepts p c k h
  exact JCodec.decodeToBuf_ok_length h2

theorem twin_bind {E : Env} {α : Type} {k k' : Pair} {m : M α} {f : α → M (Bytes × Bytes)}
    (hm : Blind (· = E.paths.quorum) false m) (hq : Keeps Quiet m)
    (hf : ∀ a t t', Alike (· = E.paths.quorum) false t t' → HoldsKey E t k → HoldsKey E t' k' → Twin E k k' (f a t) (f a t'))
    {s s' : St} (h : Alike (· = E.paths.quorum) false s s') (hk : HoldsKey E s k) (hk' : HoldsKey E s' k') :
    Twin E k k' ((m >>= f) s) ((m >>= f) s') := by
  rcases split_blind (f := f) hm h with ⟨er, t, t', ha, e1, e2⟩ | ⟨a, t, t', ha, m1, m2, e1, e2⟩
  · rw [e1, e2]; exact ⟨ha, .inl rfl⟩
  · rw [e1, e2]
    have h1 := (hq.run s).files
    have h2 := (hq.run s').files
    rw [m1] at h1
    rw [m2] at h2
    exact hf a t t' ha (holds_of hk h1) (holds_of hk' h2)

theorem export_twin {E : Env} (hE : E.Ok) (e : Envelope) (der : Bytes) {s s' : St} (h : SameButKey E s s') {k k' : Pair}
    (hk : HoldsKey E s k) (hk' : HoldsKey E s' k') : Twin E k k' (exportKey E e der s) (exportKey E e der s') := by
  have S := shows_key hE.paths
  have q : Keeps Quiet (extractAttestationDoc E der) := by
    unfold extractAttestationDoc
    keeps_tac quiet_pre <;> exact ⟨fun s => quiet_bump s⟩
  unfold exportKey exportKeyInternal
  refine twin_bind (blind_extract (E := E) der) q (fun doc t t' ha hk hk' => ?_) h hk hk'
  refine twin_bind (blind_getManifestEnvelope (mem := false) S) (quiet_getManifestEnvelope E) (fun oldE t t' ha hk hk' => ?_) ha hk hk'
  refine twin_bind (blind_lift _) (keeps_lift quiet_pre _) (fun _ u u' hb hk hk' => ?_) ha hk hk'
  rcases doc.publicKey with _ | bytes
  · exact ⟨hb, .inl rfl⟩
  simp only
  cases hp : Public.fromBytes E.prims bytes with
  | error er => exact ⟨hb, .inl rfl⟩
  | ok eph =>
    simp only
    rw [bind_run, bind_run, readPair_run hk, readPair_run hk', hb.ios]
    have hb2 : Alike (· = E.paths.quorum) false (bump u) (bump u') := { hb with ios := by simp only [bump]; rw [hb.ios] }
    by_cases ho : E.io u.ios = .ok
    · simp only [ho, if_true]
      obtain ⟨f, -, hf⟩ := hk
      obtain ⟨f', -, hf'⟩ := hk'
      obtain ⟨ct, hct⟩ := encrypt_total E.prims hE.laws bytes k.seed eph (E.randAt (bump u).rands) hp (hE.rands _)
        (by rw [seed_length hf]; decide)
      obtain ⟨ct', hct'⟩ := encrypt_total E.prims hE.laws bytes k'.seed eph (E.randAt (bump u).rands) hp (hE.rands _)
        (by rw [seed_length hf']; decide)
      refine ⟨?_, .inr ⟨(bump u).rands, bytes, eph, ct, ct', hp, hct, hct', ?_, ?_⟩⟩
      · rw [bind_run, bind_run]
        simp only [encryptTo, hb2.rands, hct, hct', liftP256]
        exact { hb2 with rands := rfl }
      · rw [bind_run]
        simp only [encryptTo, hct, liftP256]
        rfl
      · rw [bind_run]
        simp only [encryptTo, hb2.rands, hct', liftP256]
        rfl
    · simp only [ho, if_false]
      exact ⟨hb2, .inl rfl⟩

/-- C76: an export is refused with the same error whatever the key is; an export that is not refused answers with the enclave's
key encrypted to one and the same public key. Nothing else the enclave does differs. -/
theorem export_hides_key {E : Env} (hE : E.Ok) (e : Envelope) (der : Bytes) {s s' : St} (h : SameButKey E s s') {k k' : Pair}
    (hk : HoldsKey E s k) (hk' : HoldsKey E s' k') :
    SameButKey E (handle E (.exportKeyRequest e der) s).2 (handle E (.exportKeyRequest e der) s').2 ∧
    ((handle E (.exportKeyRequest e der) s').1 = (handle E (.exportKeyRequest e der) s).1 ∨
      ∃ (n : Nat) (bytes : Bytes) (target : Public), Public.fromBytes E.prims bytes = .ok target ∧
        Exported E k k' (E.randAt n) target (handle E (.exportKeyRequest e der) s).1 (handle E (.exportKeyRequest e der) s').1) := by
  by_cases hph : s.phase = .quorumKeyProvisioned
  · have run : ∀ t : St, t.phase = .quorumKeyProvisioned → handle E (.exportKeyRequest e der) t =
        afterHandler ⟨exportKeyHandler E, .quorumKeyProvisioned, .quorumKeyProvisioned⟩
          ((exportKey E e der >>= fun r => (pure (Msg.exportKeyResponse r.1 r.2) : M Msg)) t) := by
      intro t ht
      unfold handle
      rw [ht]
      rfl
    rw [run s hph, run s' (h.phase.trans hph), bind_run, bind_run]
    obtain ⟨ht, hx⟩ := export_twin hE e der h hk hk'
    rcases h1 : exportKey E e der s with ⟨x, t⟩
    rcases h2 : exportKey E e der s' with ⟨x', t'⟩
    rw [h1, h2] at ht hx
    simp only at ht hx
    rcases hx with rfl | ⟨n, bytes, target, ct, ct', hp, g1, g2, rfl, rfl⟩
    · cases x' with
      | error er =>
        obtain ⟨a1, a2⟩ := after_alike ⟨exportKeyHandler E, .quorumKeyProvisioned, .quorumKeyProvisioned⟩ (.error er) ht
        exact ⟨a2, .inl a1⟩
      | ok r =>
        obtain ⟨a1, a2⟩ := after_alike ⟨exportKeyHandler E, .quorumKeyProvisioned, .quorumKeyProvisioned⟩ (.ok (.exportKeyResponse r.1 r.2)) ht
        exact ⟨a2, .inl a1⟩
    · have q := quiet_exportKey E e der
      have p1 : t.phase = .quorumKeyProvisioned := by have := (q.run s).phase; rw [h1] at this; exact this.trans hph
      have p2 : t'.phase = .quorumKeyProvisioned := ht.phase.trans p1
      have fin : ∀ (c sg : Bytes) (u : St), u.phase = .quorumKeyProvisioned →
          afterHandler ⟨exportKeyHandler E, .quorumKeyProvisioned, .quorumKeyProvisioned⟩ (.ok (.exportKeyResponse c sg), u) =
            (.exportKeyResponse c sg, u) := by
        intro c sg u hu
        unfold afterHandler finish transition
        simp [hu]
      refine ⟨?_, .inr ⟨n, bytes, target, hp, ct, ct', g1, g2, ?_, ?_⟩⟩
      · show Alike _ _ (afterHandler _ (_, t)).2 (afterHandler _ (_, t')).2
        rw [fin _ _ t p1, fin _ _ t' p2]; exact ht
      · show (afterHandler _ (_, t)).1 = _
        rw [fin _ _ t p1]
      · show (afterHandler _ (_, t')).1 = _
        rw [fin _ _ t' p2]
  · obtain ⟨a1, a2⟩ := handle_alike (E := E) (msg := .exportKeyRequest e der) h (by
      intro r hr m hm
      exfalso
      revert hr hm
      cases hp : s.phase <;> simp only [routes, List.mem_cons, List.not_mem_nil, or_false] <;> intro hr hm <;>
        first | exact absurd hp hph | (rcases hr with rfl | rfl | rfl | rfl | rfl | rfl <;> cases hm))
    exact ⟨a2, .inl a1⟩

/-! ## The shares collected so far and the pending key -/

/-- Requests that use neither. -/
def UsesNoShares (m : Msg) : Prop := (∀ c sg, m ≠ .injectKeyRequest c sg) ∧ ∀ b a, m ≠ .provisionRequest b a

/-- A quorum of shares is not complete with one more: the stored manifest asks for more. -/
def NotYet (E : Env) (s : St) : Prop :=
  ∀ f e, s.files E.paths.manifest = some f → Envelope.tryFromSliceCompat f.data = some e →
    s.shares.length + 1 < e.manifest.shareSet.threshold.toNat

theorem others_blind {E : Env} {msg : Msg} (hm : UsesNoShares msg) :
    ∀ ph, ∀ r ∈ routes E ph, ∀ m, r.handler msg = some m → Blind (fun _ => False) true m := by
  intro ph r hr m h
  have S := shows_all E.paths
  have hin : r.handler ∈ [status, version E, manifestEnvelope E, provisionHandler E, bootStandard E, bootGenesisHandler E,
      liveAttestation E, bootKeyForward E, exportKeyHandler E, injectKeyHandler E] := by
    revert hr
    cases ph <;> simp only [routes, List.mem_cons, List.not_mem_nil, or_false] <;> intro hr <;>
      (rcases hr with rfl | rfl | rfl | rfl | rfl | rfl) <;> simp
  revert hin h
  generalize r.handler = f
  intro h hin
  have h1 := blind_getManifestEnvelope (mem := true) S
  have h3 := fun e b => blind_putManifestAndPivot (mem := true) S e b
  have h4 : ∀ g k, Blind (fun _ => False) true (bootGenesis E g k) := fun g k => blind_bootGenesis g k
  have h5 := blind_live (mem := true) S
  have h6 : ∀ der, Blind (fun _ => False) true (extractAttestationDoc E der) := fun der => blind_extract der
  have h8 : Blind (fun _ => False) true (readFile E E.paths.quorum) := blind_readFile E id
  have h7 : Blind (fun _ => False) true (M.get >>= fun s => (pure (Msg.statusResponse s.phase) : M Msg)) :=
    blind_get (fun s s' h => by rw [h.phase]) fun s => blind_pure _
  have h9 : ∀ e der, Blind (fun _ => False) true (exportKey E e der) := by
    intro e der
    unfold exportKey exportKeyInternal getQuorumKey readPair
    blind
    exact h6 der
  simp only [List.mem_cons, List.not_mem_nil, or_false] at hin
  rcases hin with rfl | rfl | rfl | rfl | rfl | rfl | rfl | rfl | rfl | rfl <;>
    cases msg <;> simp only [status, version, manifestEnvelope, provisionHandler, bootStandard, bootGenesisHandler,
      liveAttestation, bootKeyForward, exportKeyHandler, injectKeyHandler, reduceCtorEq, Option.some.injEq] at h <;>
    subst h <;> first | exact h7 | exact absurd rfl (hm.1 _ _) | exact absurd rfl (hm.2 _ _) | skip
  all_goals blind <;> first | exact h3 _ _ | exact h4 _ _ | exact h9 _ _

/-- C76: no request but a further share or an injected key is answered differently for other shares, or another pending key. -/
theorem shares_not_used {E : Env} {msg : Msg} (hm : UsesNoShares msg) {s s' : St} (h : SameButShares s s') :
    (handle E msg s').1 = (handle E msg s).1 ∧ SameButShares (handle E msg s).2 (handle E msg s').2 :=
  handle_alike h fun r hr m hrm => others_blind hm _ r hr m hrm

/-- The shares stay. -/
def SameShares (s s' : St) : Prop := s'.shares = s.shares

theorem sameShares_pre : Preorderly SameShares := ⟨fun _ => rfl, fun _ _ _ h1 h2 => h2.trans h1⟩

theorem mutate_shares (E : Env) (f : Envelope → Envelope) : Keeps SameShares (mutateManifestEnvelope E f) := by
  have hio : Keeps SameShares (nextIo E) := ⟨fun _ => rfl⟩
  have hset : ∀ fs, Keeps SameShares (setFiles fs) := fun _ => ⟨fun _ => rfl⟩
  have hw : ∀ p b k, Keeps SameShares (writeUpTo E p b k) := by
    intro p b k
    induction k with
    | zero => unfold writeUpTo; keeps_tac sameShares_pre; apply hset
    | succ k ih => unfold writeUpTo; keeps_tac sameShares_pre; apply hset
  have hr : ∀ p, Keeps SameShares (readFile E p) := by intro p; unfold readFile; keeps_tac sameShares_pre
  have hc : ∀ p m, Keeps SameShares (chmod E p m) := by intro p m; unfold chmod; keeps_tac sameShares_pre; apply hset
  have hwr : ∀ p b, Keeps SameShares (writeFile E p b) := by
    intro p b; unfold writeFile; keeps_tac sameShares_pre <;> apply hw
  unfold mutateManifestEnvelope getManifestEnvelope
  keeps_tac sameShares_pre <;> first | apply hr | apply hc | apply hwr

theorem manifest_of {E : Env} {s t : St} {e : Envelope} (h : getManifestEnvelope E s = (.ok e, t)) :
    ∃ f, s.files E.paths.manifest = some f ∧ Envelope.tryFromSliceCompat f.data = some e := by
  unfold getManifestEnvelope at h
  rw [bind_run, readFile_run] at h
  by_cases ho : E.io s.ios = .ok
  · simp only [ho, if_true] at h
    cases hf : s.files E.paths.manifest with
    | none => rw [hf] at h; cases h
    | some f =>
      rw [hf] at h
      simp only [Option.map_some] at h
      cases hd : Envelope.tryFromSliceCompat f.data with
      | none => rw [hd] at h; cases h
      | some e' =>
        rw [hd] at h
        cases h
        exact ⟨f, rfl, hd⟩
  · simp only [ho, if_false] at h
    cases h

/-- Both runs fail alike or go on alike. -/
theorem step_bind {α β : Type} {m : M α} {f : α → M β} (hm : Blind (fun _ => False) true m) {n : Nat} {s s' : St}
    (hq : ∀ t : St, (m t).2.shares.length = t.shares.length)
    (hf : ∀ a t t', m s = (.ok a, t) → SameButShares t t' → t.shares.length = n → (f a t').1 = (f a t).1 ∧ SameButShares (f a t).2 (f a t').2)
    (h : SameButShares s s') (hn : s.shares.length = n) :
    ((m >>= f) s').1 = ((m >>= f) s).1 ∧ SameButShares ((m >>= f) s).2 ((m >>= f) s').2 := by
  rcases split_blind (f := f) hm h with ⟨er, t, t', ha, e1, e2⟩ | ⟨a, t, t', ha, m1, m2, e1, e2⟩
  · rw [e1, e2]; exact ⟨rfl, ha⟩
  · rw [e1, e2]
    refine hf a t t' m1 ha ?_
    have := hq s
    rw [m1] at this
    exact this.trans hn

theorem provision_below {E : Env} (b : Bytes) (a : Approval) {s s' : St} (h : SameButShares s s') (hy : NotYet E s) :
    (provision E b a s').1 = (provision E b a s).1 ∧ SameButShares (provision E b a s).2 (provision E b a s').2 := by
  have S := shows_all E.paths
  unfold provision
  refine step_bind (n := s.shares.length) (blind_getManifestEnvelope S) (fun t => by rw [((quiet_getManifestEnvelope E).run t).shares])
    (fun e t t' m1 ha hn => ?_) h rfl
  obtain ⟨f, hf, hd⟩ := manifest_of m1
  have hlt := hy f e hf hd
  refine step_bind (blind_lift _) (fun t => by rw [((keeps_lift sameShares_pre _).run t : SameShares _ _)]) (fun _ t t' _ ha hn => ?_) ha hn
  refine step_bind (blind_ensure _ _) (fun t => by rw [((keeps_ensure sameShares_pre _ _).run t : SameShares _ _)]) (fun _ t t' _ ha hn => ?_) ha hn
  refine step_bind (blind_mutate S _) (fun t => by rw [((mutate_shares E _).run t : SameShares _ _)]) (fun _ t t' _ ha hn => ?_) ha hn
  refine step_bind (blind_getEphemeralKey S) (fun t => congrArg List.length ((quiet_readPair E E.paths.ephemeral .failedToGetEphemeralKey).run t).shares) (fun k t t' _ ha hn => ?_) ha hn
  cases k.decrypt E.prims b with
  | error er => exact ⟨rfl, ha⟩
  | ok share =>
    simp only
    have hadd := (blind_addShare (hidden := fun _ => False) (mem := true) share).run t t' ha
    rw [bind_run, bind_run]
    rcases hx : addShare share t with ⟨r, u⟩
    rcases hz : addShare share t' with ⟨r', u'⟩
    rw [hx, hz] at hadd
    simp only at hadd
    obtain ⟨rfl, hu⟩ := hadd
    cases r' with
    | error er => exact ⟨rfl, hu⟩
    | ok _ =>
      have hl : u.shares.length = s.shares.length + 1 := by
        unfold addShare at hx
        rw [bind_run] at hx
        unfold M.ensure at hx
        cases hs : share.isEmpty <;> rw [hs] at hx
        · cases hx
          show (t.shares ++ [share]).length = _
          rw [List.length_append, hn]; rfl
        · cases hx
      have run : ∀ w : St, w.shares.length = s.shares.length + 1 →
          ((M.get >>= fun s => if s.shares.length < e.manifest.shareSet.threshold.toNat then return false
            else do
              let secret ← M.lift (buildSecret s.shares)
              M.modify fun s => { s with shares := [] }
              let pair ← M.lift (provisionedPair E e.manifest.namespaceOf.quorumKey secret)
              installQuorumKey E pair
              return true : M Bool) w) = (.ok false, w) := by
        intro w hw
        show (if w.shares.length < _ then _ else _ : M Bool) w = _
        rw [if_pos (by omega)]
        rfl
      have r1 := run u hl
      have r2 := run u' (hu.count.trans hl)
      simp only
      rw [r1, r2]
      exact ⟨rfl, hu⟩

/-- C76: before a quorum is complete, a further share is answered in the same way whatever the earlier shares are. -/
theorem earlier_shares_not_used {E : Env} (b : Bytes) (a : Approval) {s s' : St} (h : SameButShares s s') (hy : NotYet E s) :
    (handle E (.provisionRequest b a) s').1 = (handle E (.provisionRequest b a) s).1 ∧
      SameButShares (handle E (.provisionRequest b a) s).2 (handle E (.provisionRequest b a) s').2 := by
  by_cases hph : s.phase = .waitingForQuorumShards
  · have run : ∀ t : St, t.phase = .waitingForQuorumShards → handle E (.provisionRequest b a) t =
        afterHandler ⟨provisionHandler E, .quorumKeyProvisioned, .unrecoverableError⟩
          ((provision E b a >>= fun r => (pure (Msg.provisionResponse r) : M Msg)) t) := by
      intro t ht
      unfold handle
      rw [ht]
      rfl
    rw [run s hph, run s' (h.phase.trans hph), bind_run, bind_run]
    obtain ⟨h1, h2⟩ := provision_below b a h hy
    rcases hx : provision E b a s with ⟨x, t⟩
    rcases hz : provision E b a s' with ⟨x', t'⟩
    rw [hx, hz] at h1 h2
    simp only at h1 h2
    subst h1
    cases x' with
    | error er => exact after_alike ⟨provisionHandler E, .quorumKeyProvisioned, .unrecoverableError⟩ (.error er) h2
    | ok r => exact after_alike ⟨provisionHandler E, .quorumKeyProvisioned, .unrecoverableError⟩ (.ok (.provisionResponse r)) h2
  · exact handle_alike h (by
      intro r hr m hm
      exfalso
      revert hr hm
      cases hp : s.phase <;> simp only [routes, List.mem_cons, List.not_mem_nil, or_false] <;> intro hr hm <;>
        first | exact absurd hp hph | (rcases hr with rfl | rfl | rfl | rfl | rfl | rfl <;> cases hm))

/-! ## Concrete cases -/

/-- A provisioned enclave with another quorum key in its place. -/
theorem other_key {E : Env} {s : St} (hp : ∃ f, s.files E.paths.quorum = some f) (f : File) :
    SameButKey E s { s with files := s.files.set E.paths.quorum (some f) } := by
  obtain ⟨f0, h0⟩ := hp
  refine ⟨rfl, rfl, rfl, rfl, rfl, rfl, ?_, ?_, rfl, fun _ => rfl, rfl, fun _ => rfl⟩
  · intro p hne
    exact if_neg hne
  · intro p
    show (if p = E.paths.quorum then some f else s.files p).isSome = _
    by_cases e : p = E.paths.quorum
    · rw [if_pos e, e, h0]; rfl
    · rw [if_neg e]

/-- A provisioned enclave holds a key. -/
theorem provisioned_holds {E : Env} {fs0 : Files} {h : List (Msg × Msg)} {s : St} (H : History E fs0 h s)
    (hs : s.phase = .quorumKeyProvisioned) : ∃ k, HoldsKey E s k := by
  obtain ⟨b, key, hw, _⟩ := H.provisioned hs
  obtain ⟨f, hf, hd⟩ := hw.quorum
  exact ⟨key, f, hf, by rw [hd, hex_file_roundtrip _ _ hw.complete.seed.1]; exact hw.complete.seed.2⟩

/-- C76: a provisioned enclave, whatever its history, would give the same answers with any other key in the key's place. -/
theorem provisioned_hides_key {E : Env} {fs0 : Files} {h : List (Msg × Msg)} {s : St} (hE : E.paths.Distinct) (H : History E fs0 h s)
    (hs : s.phase = .quorumKeyProvisioned) (f : File) (reqs : List Msg) (hr : ∀ m ∈ reqs, NotExport m) :
    (answers E reqs { s with files := s.files.set E.paths.quorum (some f) }).1 = (answers E reqs s).1 := by
  obtain ⟨k, g, hg, -⟩ := provisioned_holds H hs
  exact (answers_hide_key hE reqs _ _ hr (other_key ⟨g, hg⟩ f)).1

/-- The provisioned enclave of `Props/Scenario`, with its own key and with another: both hold a key, and the keys differ. -/
example : ∃ (h : List (Msg × Msg)) (s s' : St) (k k' : Pair), History toyEnv noFiles h s ∧ s.phase = .quorumKeyProvisioned ∧
    SameButKey toyEnv s s' ∧ HoldsKey toyEnv s k ∧ HoldsKey toyEnv s' k' ∧ k'.seed ≠ k.seed := by
  obtain ⟨setup, h0, H, ⟨doc, hdoc⟩, hph, hin, heph⟩ := toy_boot (m := .bootStandardRequest toyEnvelope [1, 2, 3]) (.inl rfl)
  obtain ⟨h, s, q1, q2, q3, q4⟩ := toy_provision (a := toyApproval 4 toyHash) H hph
    (by rcases hdoc with hd | hd <;> rw [hd] <;> rfl) h0 hin heph List.mem_cons_self
    ((approval_verify_iff ..).1 toy_share_approval)
  obtain ⟨b, key, hw, _⟩ := q1.provisioned q2
  obtain ⟨f, hf, hd⟩ := hw.quorum
  obtain ⟨other, hne, hl, hother⟩ : ∃ other : Pair, other.seed ≠ key.seed ∧ other.seed.length = 32 ∧
      Pair.fromMasterSeed toyEnv.prims other.seed = .ok other := by
    obtain ⟨x, hx⟩ := toy_pair (List.replicate 32 33)
    obtain ⟨y, hy⟩ := toy_pair (List.replicate 32 34)
    have sx := pair_seed _ _ _ hx
    have sy := pair_seed _ _ _ hy
    by_cases e : x.seed = key.seed
    · refine ⟨y, ?_, by rw [sy]; rfl, by rw [sy]; exact hy⟩
      rw [← e, sx, sy]
      decide
    · exact ⟨x, e, by rw [sx]; rfl, by rw [sx]; exact hx⟩
  refine ⟨h, s, { s with files := s.files.set toyEnv.paths.quorum (some ⟨other.toMasterSeedHex, 0o444⟩) }, key, other, q1, q2,
    other_key ⟨f, hf⟩ _, ⟨f, hf, by rw [hd, hex_file_roundtrip _ _ hw.complete.seed.1]; exact hw.complete.seed.2⟩,
    ⟨⟨other.toMasterSeedHex, 0o444⟩, by simp [Files.set], by rw [hex_file_roundtrip _ _ hl]; exact hother⟩, hne⟩

/-- While the first of two shares is awaited, with another pending key; and a state with other shares. -/
example {s : St} {pending other : Pair} {a b : Bytes} (hp : s.pending = some pending) (hs : s.shares = [a]) :
    SameButShares s { s with shares := [b], pending := some other } :=
  ⟨rfl, rfl, rfl, rfl, rfl, rfl, fun _ _ => rfl, fun _ => rfl, by rw [hs]; rfl, fun h => (nomatch h), by rw [hp]; rfl,
    fun h => (nomatch h)⟩

/-- Just after the boot of `Props/Scenario`, whose share set asks for two shares, one more share does not make a quorum. -/
example : ∃ (h : List (Msg × Msg)) (s : St), History toyEnv noFiles h s ∧ s.phase = .waitingForQuorumShards ∧ NotYet toyEnv s := by
  obtain ⟨setup, h0, H, ⟨doc, hdoc⟩, hph, hin, heph⟩ := toy_boot (m := .bootStandardRequest toyEnvelope [1, 2, 3]) (.inl rfl)
  refine ⟨_, _, H, hph, ?_⟩
  intro f e hf hd
  obtain ⟨buf, hb1, g, hg, hgd⟩ := hin.manifest
  obtain ⟨buf', r1, r2⟩ := hin.readable
  rw [hb1] at r1
  injection r1 with r1
  rw [hf] at hg
  injection hg with hg
  rw [hg, hgd, r1, r2] at hd
  injection hd with hd
  subst hd
  have hzero : (handle toyEnv (.bootStandardRequest toyEnvelope [1, 2, 3]) (St.initial noFiles)).2.shares.length = 0 := by
    obtain ⟨b, hw⟩ := H.booted (by rw [hph]; decide)
    cases hw with
    | waiting _ w =>
      have := List.Forall₂.length_eq w.decrypted
      rw [show posted [(Msg.bootStandardRequest toyEnvelope [1, 2, 3], (handle toyEnv (.bootStandardRequest toyEnvelope [1, 2, 3])
        (St.initial noFiles)).1)] = [] by rcases hdoc with hd | hd <;> rw [hd] <;> rfl] at this
      exact this.symm
    | provisioned key hp => rw [hph] at hp; cases hp
    | broken hp => rw [hph] at hp; cases hp
  rw [hzero]
  decide

end Qos.Secrecy
