import Verif.Spec.Genesis
import Verif.Spec.Device
import Verif.Spec.Moments
import Verif.Lemmas.Served
import Verif.Lemmas.Progress
import Verif.Props.Shamir
import Verif.Props.Completes
import Verif.Props.Scenario
import Verif.Props.P256
import Verif.Props.Approvals
/-!
# C19: the key ceremony
-/
namespace Qos
open P256 Services StateMachine

variable {E : Env}

/-- Encrypting to a key that decodes from bytes: the owner of these bytes reads the message. -/
theorem encryptTo_opened (hE : E.Ok) {pub : Bytes} {key : Public} (hk : Public.fromBytes E.prims pub = .ok key)
    (msg : Bytes) (s : St) :
    Ends (encryptTo E key msg) s
      (fun ct s' => s' = { s with rands := s.rands + 1 } ∧ (∀ k, Owns E.prims k pub → k.decrypt E.prims ct = .ok msg) ∧
        (msg.length < 2 ^ 31 → ct.length = msg.length + 97))
      (fun _ _ => 2 ^ 31 ≤ msg.length) := by
  apply ends_of_run
  intro r s' hr
  unfold encryptTo at hr
  simp only [Prod.mk.injEq] at hr
  obtain ⟨h1, h2⟩ := hr
  cases r with
  | ok ct =>
    refine ⟨h2.symm, ?_, fun hm => P256.encrypt_length _ hE.laws _ _ _ _ _ hk (hE.rands _) hm (liftP256_ok h1)⟩
    rintro k ⟨⟨seed, hs⟩, rfl⟩
    have := (public_of_pair _ hE.laws _ _ hs).1
    rw [hk, Except.ok.injEq] at this
    subst this
    exact decrypt_encrypt _ hE.laws seed _ _ k _ hs (hE.rands _) (liftP256_ok h1)
  | error e =>
    by_contra hlt
    obtain ⟨ct, hct⟩ := encrypt_total E.prims hE.laws pub msg key (E.randAt s.rands) hk (hE.rands _) (by omega)
    rw [hct] at h1
    simp [liftP256] at h1

/-- Only the counters of random numbers differ. -/
structure SameWorld (s s' : St) : Prop where
  phase : s'.phase = s.phase
  files : s'.files = s.files
  trace : s'.trace = s.trace
  nsmHist : s'.nsmHist = s.nsmHist

theorem SameWorld.rfl {s : St} : SameWorld s s := ⟨.refl _, .refl _, .refl _, .refl _⟩

theorem SameWorld.trans {a b c : St} (h : SameWorld a b) (h' : SameWorld b c) : SameWorld a c :=
  ⟨h'.phase.trans h.phase, h'.files.trans h.files, h'.trace.trans h.trace, h'.nsmHist.trans h.nsmHist⟩

theorem memberOutputs_ends (hE : E.Ok) (shares : List Bytes) (ms : List QuorumMember) (s : St)
    (hl : shares.length = ms.length) :
    Ends (memberOutputs E shares ms) s
      (fun outs s' => SameWorld s s' ∧ outs.map (·.member) = ms ∧ outs.map (·.shareHash) = shares.map E.prims.sha512 ∧
        (∀ (i : Nat) (o : MemberOutput) (x : Bytes) (k : Pair), outs[i]? = some o → shares[i]? = some x →
          Owns E.prims k o.member.pubKey → k.decrypt E.prims o.encryptedShare = .ok x) ∧
        (∀ n, n < 2 ^ 31 → (∀ x ∈ shares, x.length = n) → ∀ o ∈ outs, o.encryptedShare.length = n + 97))
      (fun _ _ => (∃ x ∈ shares, 2 ^ 31 ≤ x.length) ∨ ∃ m ∈ ms, ¬ m.KeyOk E.prims) := by
  induction shares generalizing ms s with
  | nil =>
    cases ms with
    | nil => exact ends_pure ⟨.rfl, rfl, rfl, by simp, by simp⟩
    | cons m ms => simp at hl
  | cons x xs ih =>
    cases ms with
    | nil => simp at hl
    | cons m ms =>
      unfold memberOutputs memberOutput
      refine ends_bind (ends_bind (ends_lift ?_ ?_))
      · intro key hkey
        have hkey := liftP256_ok hkey
        refine ends_bind (ends_mono (encryptTo_opened hE hkey x s) ?_ ?_)
        · rintro ct s1 ⟨rfl, hopen, hlen⟩
          refine ends_pure (ends_bind (ends_mono (ih ms _ (by simpa using hl)) ?_ ?_))
          · rintro outs s2 ⟨hw, hm, hh, ho, hl'⟩
            refine ends_pure ⟨⟨hw.phase, hw.files, hw.trace, hw.nsmHist⟩, by simp [hm], by simp [hh], ?_, ?_⟩
            case refine_2 =>
              intro n hn hx o hom
              rcases List.mem_cons.1 hom with rfl | hom
              · have h0 := hx x List.mem_cons_self
                rw [← h0]
                exact hlen (by omega)
              · exact hl' n hn (fun y hy => hx y (List.mem_cons_of_mem _ hy)) o hom
            intro i o y k hi hy hk
            cases i with
            | zero =>
              simp only [List.getElem?_cons_zero, Option.some.injEq] at hi hy
              subst hi hy
              exact hopen k hk
            | succ i => exact ho i o y k (by simpa using hi) (by simpa using hy) hk
          · rintro e s2 h
            rcases h with ⟨y, hy, hb⟩ | ⟨m', hm, hb⟩
            · exact .inl ⟨y, List.mem_cons_of_mem _ hy, hb⟩
            · exact .inr ⟨m', List.mem_cons_of_mem _ hm, hb⟩
        · intro e s1 h
          exact .inl ⟨x, List.mem_cons_self, h⟩
      · intro e he
        refine .inr ⟨m, List.mem_cons_self, fun hk => ?_⟩
        rw [keyOk_iff] at hk
        rw [hk] at he
        simp [liftP256] at he

theorem wrapForDr_ends (hE : E.Ok) (drKey : Option Bytes) (seed : Bytes) (hs : seed.length = 32) (s : St) :
    Ends (wrapForDr E drKey seed) s
      (fun w s' => SameWorld s s' ∧ DrCopy E.prims seed drKey w ∧ (∀ ct, w = some ct → ct.length = 129) ∧
        ∀ k, drKey = some k → k.length = 130 ∧ E.prims.pointOk (k.take 65) ∧ E.prims.pointOk (k.drop 65))
      (fun _ s' => SameWorld s s' ∧
        ∃ k, drKey = some k ∧ ¬ (k.length = 130 ∧ E.prims.pointOk (k.take 65) ∧ E.prims.pointOk (k.drop 65))) := by
  unfold wrapForDr
  cases drKey with
  | none => exact ends_pure ⟨.rfl, trivial, by simp, by simp⟩
  | some k =>
    simp only
    cases hk : Public.fromBytes E.prims k with
    | error e =>
      refine ends_fail ⟨.rfl, k, rfl, fun ⟨h1, h2, h3⟩ => ?_⟩
      rw [(public_fromBytes_iff E.prims k ⟨k.take 65, k.drop 65⟩).2 ⟨h1, h2, h3, rfl, rfl⟩] at hk
      cases hk
    | ok pub =>
      obtain ⟨h1, h2, h3, _, _⟩ := (public_fromBytes_iff ..).1 hk
      refine ends_bind (ends_mono (encryptTo_opened hE hk seed s) ?_ ?_)
      · rintro ct s1 ⟨rfl, ho, hl⟩
        refine ends_pure ⟨⟨rfl, rfl, rfl, rfl⟩, ho, ?_, ?_⟩
        · rintro _ ⟨⟩
          have := hl (by omega)
          omega
        rintro k' h
        cases h
        exact ⟨h1, h2, h3⟩
      · intro e s1 h
        omega

/-- What a ceremony does, whatever its outcome. -/
theorem bootGenesis_ends (hE : E.Ok) (set : GenesisSet) (drKey : Option Bytes) (s : St) :
    Ends (bootGenesis E set drKey) s
      (fun r s' => s'.phase = s.phase ∧ s'.files = s.files ∧
        s'.trace = s.trace ++ [.nsm (.attestation (some (E.prims.sha256 (genesisOutputCodec.enc r.1))) none none) r.2] ∧
        r.2 = E.nsm s.nsmHist (.attestation (some (E.prims.sha256 (genesisOutputCodec.enc r.1))) none none) ∧
        CeremonyRequest E.prims set drKey ∧ (genesisSetCodec.ok set → genesisOutputCodec.ok r.1) ∧
        ∃ quorum shares, Pair.fromMasterSeed E.prims (E.seedAt s.seeds) = .ok quorum ∧
          Ceremony E.prims set drKey r.1 quorum shares)
      (fun _ s' => SameWorld s s' ∧ ¬ (CeremonyRequest E.prims set drKey ∧
        ∃ quorum, Pair.fromMasterSeed E.prims (E.seedAt s.seeds) = .ok quorum)) := by
  unfold bootGenesis
  refine ends_bind (ends_lift ?_ ?_)
  case refine_2 =>
    intro e he
    refine ⟨.rfl, fun ⟨h, _⟩ => ?_⟩
    rw [(unique_members_iff _ _).2 h.members] at he
    cases he
  rintro _ hu
  have hu := (unique_members_iff _ _).1 hu
  refine ends_bind (ends_of_run ?_)
  intro r s1 hr
  unfold generatePair at hr
  simp only [Prod.mk.injEq] at hr
  obtain ⟨hr, rfl⟩ := hr
  cases r with
  | error e =>
    refine ⟨⟨rfl, rfl, rfl, rfl⟩, fun ⟨_, q, hq⟩ => ?_⟩
    rw [hq] at hr
    simp [liftP256] at hr
  | ok quorum =>
  have hq := liftP256_ok hr
  have hseed := pair_seed _ _ _ hq
  have hlen : quorum.seed.length = 32 := by rw [hseed]; exact hE.seeds _
  refine ends_bind (ends_of_run ?_)
  intro r s2 hr
  unfold splitSecret at hr
  simp only [Prod.mk.injEq] at hr
  obtain ⟨hr, rfl⟩ := hr
  cases hg : Shamir.sharesGenerate quorum.seed set.members.length set.threshold.toNat (E.coeffsAt s.splits) with
  | error e =>
    rw [hg] at hr
    subst hr
    refine ⟨⟨rfl, rfl, rfl, rfl⟩, fun ⟨h, _⟩ => ?_⟩
    obtain ⟨all, ha⟩ := (Shamir.generate_iff quorum.seed set.members.length set.threshold.toNat (E.coeffsAt s.splits)).2
      ⟨by intro h0; rw [h0] at hlen; simp at hlen, h.two, h.enough, h.limit⟩
    rw [hg] at ha
    cases ha
  | ok shares =>
  rw [hg] at hr
  subst hr
  obtain ⟨_, g2, g3, g4⟩ := (Shamir.generate_iff _ _ _ _).1 ⟨_, hg⟩
  obtain ⟨hcount, hids, hshape⟩ := Shamir.shares_shape hg
  have hopen := memberOutputs_ends hE shares set.members { s with seeds := s.seeds + 1, splits := s.splits + 1 } hcount
  show Ends _ { s with seeds := s.seeds + 1, splits := s.splits + 1 } _ _
  refine ends_bind (ends_of_run ?_)
  intro r s3 hr
  unfold attempt at hr
  match hrun : memberOutputs E shares set.members { s with seeds := s.seeds + 1, splits := s.splits + 1 } with
  | (.error e, s3') =>
    exfalso
    have h := ends_error hopen hrun
    rcases h with ⟨x, hx, hb⟩ | ⟨m, hm, hb⟩
    · have := (hshape x hx).1
      omega
    · exact hb (hu.keys m hm)
  | (.ok outs, s3') =>
  rw [hrun] at hr
  simp only [Prod.mk.injEq] at hr
  obtain ⟨rfl, rfl⟩ := hr
  obtain ⟨hw3, hm, hh, ho, hol⟩ := ends_ok hopen hrun
  have hw3 : SameWorld s s3' := ⟨hw3.phase, hw3.files, hw3.trace, hw3.nsmHist⟩
  refine ends_bind (ends_mono (wrapForDr_ends hE drKey quorum.seed hlen s3') ?_ ?_)
  case refine_2 =>
    rintro e s4 ⟨hw4, k, hk, hbad⟩
    exact ⟨hw3.trans hw4, fun ⟨h, _⟩ => hbad (h.dr k hk)⟩
  rintro wrapped s4 ⟨hw4, hdr, hdrl, hdrok⟩
  have hw4 := hw3.trans hw4
  refine ends_bind (ends_mpure ?_)
  have hpub := (public_of_pair _ hE.laws _ _ hq).1
  refine ends_bind (ends_mono (encryptTo_opened hE hpub testMessage s4) ?_ ?_)
  case refine_2 =>
    intro e s5 h
    exact absurd h (by decide +kernel)
  rintro ct s5 ⟨rfl, htest, htl⟩
  refine ends_bind ?_
  refine ends_run (by unfold callNsm; rfl) (ends_pure ?_)
  have hsizes : ∀ o ∈ outs, o.encryptedShare.length = 130 :=
    hol 33 (by omega) fun x hx => by have := (hshape x hx).1; omega
  have htl : ct.length = 113 := by
    have := htl (by decide +kernel)
    rw [this]
    decide +kernel
  refine ⟨hw4.phase, hw4.files, by show s4.trace ++ _ = _; rw [hw4.trace], by simp only [hw4.nsmHist],
    ⟨hu, g2, g3, g4, hdrok⟩, fun hset => ?_, quorum, shares, hq, ?_⟩
  case refine_1 =>
    have hpl := (public_of_pair _ hE.laws _ _ hq).2
    have hout : ∀ o ∈ outs, memberOutputCodec.ok o := by
      intro o hmem
      have h1 : o.member ∈ set.members := by rw [← hm]; exact List.mem_map_of_mem hmem
      have h2 : o.shareHash ∈ shares.map E.prims.sha512 := by rw [← hh]; exact List.mem_map_of_mem hmem
      obtain ⟨x, _, h2⟩ := List.mem_map.1 h2
      refine ⟨hset.1.2 _ h1, ?_, ?_⟩
      · have := hsizes o hmem
        show o.encryptedShare.length < 2 ^ 32
        omega
      · show o.shareHash.length = 64
        rw [← h2]; exact hE.laws.sha512_length _
    have hlo : outs.length < 2 ^ 32 := by
      have := congrArg List.length hm
      rw [List.length_map] at this
      omega
    refine ⟨hset, ?_, ?_, ⟨hlo, hout⟩, ⟨(by decide : 0 < 2 ^ 32), by simp⟩, ?_, hE.laws.sha512_length _, ?_, ?_,
      (by decide +kernel : testMessage.length < 2 ^ 32)⟩
    · show (Borsh.option Borsh.bytes).ok drKey
      cases drKey with
      | none => trivial
      | some k =>
        have := (hdrok k rfl).1
        show k.length < 2 ^ 32
        omega
    · show (Pair.publicKey E.prims quorum).toBytes.length < 2 ^ 32
      omega
    · show (Borsh.option Borsh.bytes).ok wrapped
      cases wrapped with
      | none => trivial
      | some k =>
        have := hdrl k rfl
        show k.length < 2 ^ 32
        omega
    · show ct.length < 2 ^ 32
      omega
    · show (quorum.sign E.prims testMessage).length < 2 ^ 32
      have := hE.laws.sig_length _ (hE.laws.sign_ok _ testMessage (pair_scalars _ _ _ hq).2)
      unfold Pair.sign
      omega
  exact
    { echoSet := rfl
      echoDr := rfl
      key := ⟨⟨_, hq⟩, rfl⟩
      seed := hlen
      keyHash := rfl
      members := hm
      count := hcount
      distinct := (List.Nodup.of_map _ hids)
      shareSize := fun x hx => by
        have := (hshape x hx).1
        omega
      threshold := ⟨g2, by omega⟩
      hashes := hh
      opened := ho
      recover := fun l h1 h2 h3 => Shamir.threshold_shares_reconstruct hg h1 h2 h3
      dr := hdr
      test := htest _ ⟨⟨_, hq⟩, rfl⟩
      testSigned := rfl
      testSig := pair_sign_verifies _ hE.laws _ _ _ hq
      message := rfl
      noShards := rfl
      sizes := ⟨hsizes, hdrl, htl⟩ }

theorem bootGenesis_handled (hE : E.Ok) {s : St} (hp : s.phase = .waitingForBootInstruction) (set : GenesisSet)
    (drKey : Option Bytes) :
    (∃ out resp quorum shares, (handle E (.bootGenesisRequest set drKey) s).1 = .bootGenesisResponse resp out ∧
      (handle E (.bootGenesisRequest set drKey) s).2.phase = .genesisBooted ∧
      (handle E (.bootGenesisRequest set drKey) s).2.files = s.files ∧
      (handle E (.bootGenesisRequest set drKey) s).2.trace = s.trace ++
        [.nsm (.attestation (some (E.prims.sha256 (genesisOutputCodec.enc out))) none none) resp] ∧
      resp = E.nsm s.nsmHist (.attestation (some (E.prims.sha256 (genesisOutputCodec.enc out))) none none) ∧
      CeremonyRequest E.prims set drKey ∧ (genesisSetCodec.ok set → genesisOutputCodec.ok out) ∧
      Pair.fromMasterSeed E.prims (E.seedAt s.seeds) = .ok quorum ∧ Ceremony E.prims set drKey out quorum shares) ∨
    ((∃ e, (handle E (.bootGenesisRequest set drKey) s).1 = .protocolErrorResponse e) ∧
      (handle E (.bootGenesisRequest set drKey) s).2.phase = .unrecoverableError ∧
      (handle E (.bootGenesisRequest set drKey) s).2.files = s.files ∧
      (handle E (.bootGenesisRequest set drKey) s).2.trace = s.trace ∧
      ¬ (CeremonyRequest E.prims set drKey ∧ ∃ quorum, Pair.fromMasterSeed E.prims (E.seedAt s.seeds) = .ok quorum)) := by
  have h := bootGenesis_ends hE set drKey s
  rw [handle_genesis hp]
  match hr : bootGenesis E set drKey s with
  | (.ok r, s') =>
    obtain ⟨_, h2, h3, h4, h5, h6, quorum, shares, h7, h8⟩ := ends_ok h hr
    exact .inl ⟨r.1, r.2, quorum, shares, rfl, rfl, h2, h3, h4, h5, h6, h7, h8⟩
  | (.error e, s') =>
    obtain ⟨h1, h2⟩ := ends_error h hr
    exact .inr ⟨⟨e, rfl⟩, rfl, h1.files, h1.trace, h2⟩

/-! ## Property theorems -/

/-- C19: a ceremony is held for exactly the well-formed requests (if the random seed yields a key pair); the others
are refused without touching a file or asking the device. -/
theorem genesis_iff (hE : E.Ok) {s : St} (hp : s.phase = .waitingForBootInstruction) (set : GenesisSet)
    (drKey : Option Bytes) :
    ((∃ resp out, (handle E (.bootGenesisRequest set drKey) s).1 = .bootGenesisResponse resp out) ↔
      CeremonyRequest E.prims set drKey ∧ ∃ quorum, Pair.fromMasterSeed E.prims (E.seedAt s.seeds) = .ok quorum) ∧
    ((∀ resp out, (handle E (.bootGenesisRequest set drKey) s).1 ≠ .bootGenesisResponse resp out) →
      (handle E (.bootGenesisRequest set drKey) s).2.files = s.files ∧
      (handle E (.bootGenesisRequest set drKey) s).2.trace = s.trace) := by
  rcases bootGenesis_handled hE hp set drKey with ⟨out, resp, q, sh, h1, _, _, _, _, h5, _, h6, _⟩ | ⟨⟨e, h1⟩, _, h3, h4, h5⟩
  · exact ⟨⟨fun _ => ⟨h5, q, h6⟩, fun _ => ⟨resp, out, h1⟩⟩, fun h => absurd h1 (h resp out)⟩
  · refine ⟨⟨fun ⟨resp, out, h⟩ => ?_, fun h => absurd h h5⟩, fun _ => ⟨h3, h4⟩⟩
    rw [h1] at h
    cases h

/-- C19: the output of a ceremony: shares, hashes, DR copy and test message fit the quorum key, and threshold many
shares recover it; no file is written and the only device request attests the hash of the whole output. -/
theorem genesis_recovers (hE : E.Ok) {s : St} (hp : s.phase = .waitingForBootInstruction) {set : GenesisSet}
    {drKey : Option Bytes} {resp : NsmResponse} {out : GenesisOutput}
    (h : (handle E (.bootGenesisRequest set drKey) s).1 = .bootGenesisResponse resp out) :
    (∃ quorum shares, Pair.fromMasterSeed E.prims (E.seedAt s.seeds) = .ok quorum ∧
      Ceremony E.prims set drKey out quorum shares) ∧
    (handle E (.bootGenesisRequest set drKey) s).2.phase = .genesisBooted ∧
    (handle E (.bootGenesisRequest set drKey) s).2.files = s.files ∧
    (handle E (.bootGenesisRequest set drKey) s).2.trace = s.trace ++
      [.nsm (.attestation (some (E.prims.sha256 (genesisOutputCodec.enc out))) none none) resp] := by
  rcases bootGenesis_handled hE hp set drKey with ⟨out', resp', q, sh, h1, h2, h3, h4, _, _, _, h6, h7⟩ | ⟨⟨e, h1⟩, _⟩
  · rw [h1] at h
    cases h
    exact ⟨⟨q, sh, h6, h7⟩, h2, h3, h4⟩
  · rw [h1] at h
    cases h

/-- C19: on the NSM model the response is an attestation document whose user data is the hash of the whole output and
whose registers are those the device started with. -/
theorem genesis_attested {fs0 : Files} {h : List (Msg × Msg)} {s : St} {pki : MockNsm.Pki} {start : MockNsm.State}
    (H : History E fs0 h s)
    (hd : HonestDevice E pki start) (hp : s.phase = .waitingForBootInstruction) {set : GenesisSet} {drKey : Option Bytes}
    {resp : NsmResponse} {out : GenesisOutput}
    (hr : (handle E (.bootGenesisRequest set drKey) s).1 = .bootGenesisResponse resp out) :
    ∃ doc : AttestationDoc, resp = .attestation (pki.signDoc doc) ∧
      doc.userData = some (E.prims.sha256 (genesisOutputCodec.enc out)) ∧
      ∀ i, i < 32 → doc.pcr i = some (start.value (UInt16.ofNat i)) := by
  rcases bootGenesis_handled H.env hp set drKey with ⟨out', resp', q, sh, h1, _, _, _, h4, _⟩ | ⟨⟨e, h1⟩, _⟩
  · rw [h1] at hr
    cases hr
    rw [Idle.nsmHist H (H.idle hp), hd.nsm] at h4
    exact ⟨_, h4, rfl, fun i hi => MockNsm.doc_pcr _ _ _ _ i hi⟩
  · rw [h1] at hr
    cases hr

theorem lawful_genesisOutput : Borsh.Lawful genesisOutputCodec := by
  have hm : Borsh.Lawful memberOutputCodec :=
    Borsh.lawful_imap (Borsh.lawful_pair Borsh.lawful_quorumMember (Borsh.lawful_pair Borsh.lawful_bytes
      (Borsh.lawful_fixed _))) (fun _ => rfl) (fun _ _ => rfl)
  have hs : Borsh.Lawful memberShardCodec :=
    Borsh.lawful_imap (Borsh.lawful_pair Borsh.lawful_quorumMember Borsh.lawful_bytes) (fun _ => rfl) (fun _ _ => rfl)
  have hg : Borsh.Lawful genesisSetCodec :=
    Borsh.lawful_imap (Borsh.lawful_pair (Borsh.lawful_vec Borsh.lawful_quorumMember) Borsh.lawful_u32) (fun _ => rfl)
      (fun _ _ => rfl)
  have ho := Borsh.lawful_option Borsh.lawful_bytes
  exact Borsh.lawful_imap (Borsh.lawful_pair hg (Borsh.lawful_pair ho (Borsh.lawful_pair Borsh.lawful_bytes
    (Borsh.lawful_pair (Borsh.lawful_vec hm) (Borsh.lawful_pair (Borsh.lawful_vec (Borsh.lawful_vec hs))
      (Borsh.lawful_pair ho (Borsh.lawful_pair (Borsh.lawful_fixed _) (Borsh.lawful_pair Borsh.lawful_bytes
        (Borsh.lawful_pair Borsh.lawful_bytes Borsh.lawful_bytes))))))))) (fun _ => rfl) (fun _ _ => rfl)

/-- C19: the attested hash determines the whole output: two ceremonies (of possibly different enclaves, for requests
whose strings and lists are shorter than `2^32`) with the same hash have the same output, or SHA-256 has a collision. -/
theorem genesis_hash_binds {E' : Env} (hE : E.Ok) (hE' : E'.Ok) {s s' : St} (hp : s.phase = .waitingForBootInstruction)
    (hp' : s'.phase = .waitingForBootInstruction) (hprims : E'.prims = E.prims) {set set' : GenesisSet}
    {drKey drKey' : Option Bytes} {resp resp' : NsmResponse} {out out' : GenesisOutput}
    (hset : genesisSetCodec.ok set) (hset' : genesisSetCodec.ok set')
    (hr : (handle E (.bootGenesisRequest set drKey) s).1 = .bootGenesisResponse resp out)
    (hr' : (handle E' (.bootGenesisRequest set' drKey') s').1 = .bootGenesisResponse resp' out')
    (hh : E.prims.sha256 (genesisOutputCodec.enc out) = E.prims.sha256 (genesisOutputCodec.enc out')) :
    out = out' ∨ ∃ x y, x ≠ y ∧ E.prims.sha256 x = E.prims.sha256 y := by
  have ok : genesisOutputCodec.ok out := by
    rcases bootGenesis_handled hE hp set drKey with ⟨o, r, q, sh, h1, _, _, _, _, _, h6, _⟩ | ⟨⟨e, h1⟩, _⟩
    · rw [h1] at hr; cases hr; exact h6 hset
    · rw [h1] at hr; cases hr
  have ok' : genesisOutputCodec.ok out' := by
    rcases bootGenesis_handled hE' hp' set' drKey' with ⟨o, r, q, sh, h1, _, _, _, _, _, h6, _⟩ | ⟨⟨e, h1⟩, _⟩
    · rw [h1] at hr'; cases hr'; exact h6 hset'
    · rw [h1] at hr'; cases hr'
  by_cases he : genesisOutputCodec.enc out = genesisOutputCodec.enc out'
  · exact .inl (Borsh.enc_prefix_free lawful_genesisOutput ok ok' (r := []) (s := []) (by simpa using he)).1
  · exact .inr ⟨_, _, he, hh⟩

/-- C19, C42: the shares of a ceremony provision an enclave whose manifest names the ceremony's key: if threshold many
different ones are posted (encrypted to the enclave's setup key, with good approvals), the enclave stores that key. -/
theorem genesis_shares_provision {fs0 : Files} {h : List (Msg × Msg)} {s : St} {set : GenesisSet} {drKey : Option Bytes}
    {out : GenesisOutput} {quorum : Pair} {shares : List Bytes} (hc : Ceremony E.prims set drKey out quorum shares)
    (H : History E fs0 h s) (hs : s.phase = .waitingForQuorumShards) (hp : posted h = [])
    (hio : ReliableFiles E) {e : Envelope} {pivot : Bytes} (he : Installed E e pivot s.files) {setup : Pair}
    (hk : Pair.fromMasterSeed E.prims setup.seed = .ok setup)
    (hh : Holds s.files E.paths.ephemeral (Hex.encode setup.seed))
    (hname : e.manifest.namespaceOf.quorumKey = out.quorumKey)
    (hthr : e.manifest.shareSet.threshold = set.threshold)
    {posts : List (Bytes × Approval)}
    (ha : ∀ x ∈ posts, x.2.member.Signed E.prims (e.manifest.hash E.prims) x.2.signature ∧
      x.2.member ∈ e.manifest.shareSet.members) {used : List Bytes} (hu : used.Nodup) (hused : ∀ x ∈ used, x ∈ shares)
    (hsh : List.Forall₂ (fun x sh => setup.decrypt E.prims x.1 = .ok sh) posts used)
    (hlen : used.length = set.threshold.toNat) :
    let s' := Lifecycle.after E s (posts.map fun x => .provisionRequest x.1 x.2)
    s'.phase = .quorumKeyProvisioned ∧ Holds s'.files E.paths.quorum (Hex.encode quorum.seed) := by
  obtain ⟨⟨seed, hseed⟩, hpub⟩ := hc.key
  have := pair_seed _ _ _ hseed
  rw [← this] at hseed
  have hl := hsh.length_eq
  obtain ⟨r1, r2, _⟩ := enough_shares_provision H hs hp hio he hk hh ha (shares := used) (seed := quorum.seed) (key := quorum)
    (by
      clear hlen hl hu
      induction hsh with
      | nil => exact .nil
      | cons h1 h2 ih =>
        exact .cons ⟨h1, (fun h0 => by have := hc.shareSize _ (hused _ List.mem_cons_self); rw [h0] at this; cases this)⟩
          (ih (fun x hx => ha x (List.mem_cons_of_mem _ hx)) fun x hx => hused x (List.mem_cons_of_mem _ hx)))
    (by rw [hthr]; have := hc.threshold.1; omega) (hc.recover _ hu hused (by omega)) hc.seed hseed (by rw [hpub, hname])
  exact ⟨r1, r2⟩

/-! ## A concrete ceremony -/

/-- Two of three members, with a DR key. -/
def toySet : GenesisSet := ⟨[toyMember 1, toyMember 2, toyMember 3], 2⟩

theorem toySet_request : CeremonyRequest toyEnv.prims toySet (some (toyMember 9).pubKey) where
  members := (unique_members_iff toyPrims toySet.members).1 (by decide +kernel)
  two := by decide
  enough := by decide
  limit := by decide
  dr k h := by
    cases h
    exact ⟨by decide +kernel, by decide +kernel, by decide +kernel⟩

/-- The hypotheses of the theorems above are met: a fresh enclave holds a ceremony. -/
theorem toy_ceremony : ∃ resp out quorum shares,
    (handle toyEnv (.bootGenesisRequest toySet (some (toyMember 9).pubKey)) (St.initial noFiles)).1 =
      .bootGenesisResponse resp out ∧ Ceremony toyEnv.prims toySet (some (toyMember 9).pubKey) out quorum shares ∧
    shares.length = 3 ∧ out.memberOutputs.length = 3 := by
  obtain ⟨resp, out, h⟩ := (genesis_iff toyEnv_ok (s := St.initial noFiles) rfl toySet (some (toyMember 9).pubKey)).1.2
    ⟨toySet_request, toy_pair _⟩
  obtain ⟨⟨quorum, shares, _, hc⟩, _⟩ := genesis_recovers toyEnv_ok (s := St.initial noFiles) rfl h
  refine ⟨resp, out, quorum, shares, h, hc, hc.count, ?_⟩
  have := congrArg List.length hc.members
  rw [List.length_map] at this
  exact this

end Qos
