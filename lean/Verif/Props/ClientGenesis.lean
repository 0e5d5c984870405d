import Verif.Props.ClientProxy
import Verif.Props.Genesis
/-!
# C48: the operators' side of a key ceremony

Concrete cases: `toy_after_ceremony` and `toy_ceremony_provisions` in `Props/ClientCeremonyToy.lean`.
-/
namespace Qos.Client
open P256 (Pair Public)
open Services (GenesisSet GenesisOutput MemberOutput)
variable {S : Type}

theorem readDrKey_ok {C : Setting S} {path : Option String} {k : Option Bytes} :
    readDrKey C path = .ok k ↔ DrKeyIn C.prims C.disk path k := by
  cases path with
  | none => simp [readDrKey, DrKeyIn, eq_comm]
  | some path =>
    simp only [readDrKey, DrKeyIn, ← publicFromFile_iff]
    cases h : publicFromFile C.prims C.disk path with
    | none => simp
    | some key =>
      simp only [Except.ok.injEq]
      constructor
      · rintro rfl
        exact ⟨_, rfl, key, rfl, rfl⟩
      · rintro ⟨_, rfl, k', hk, rfl⟩
        cases hk
        rfl

theorem verifyUserInput_ok {d : AttestationDoc} {u p0 p1 p2 p3 : Bytes} {x : Unit} :
    Attest.verifyUserInput d u p0 p1 p2 p3 = .ok x ↔
      d.userData = some u ∧ d.nonce = none ∧ d.pcr 0 = some p0 ∧ d.pcr 1 = some p1 ∧ d.pcr 2 = some p2 ∧
        d.pcr 3 = some p3 := Attest.verifyUserInput_iff d u p0 p1 p2 p3

theorem checkGenesisDoc_ok {C : Setting S} {doc : AttestationDoc} {out : GenesisOutput} {q : QosPcrs} {path : String}
    {u : Unit} : checkGenesisDoc C false doc out q path = .ok u ↔ ∃ role, RoleIn C.disk path role ∧
      doc.userData = some (C.prims.sha256 (Services.genesisOutputCodec.enc out)) ∧ doc.nonce = none ∧
      doc.pcr 0 = some q.pcr0 ∧ doc.pcr 1 = some q.pcr1 ∧ doc.pcr 2 = some q.pcr2 ∧
      doc.pcr 3 = some (rolePcr3 C.prims role) := by
  unfold checkGenesisDoc extractPcr3
  simp only [Bool.false_eq_true, if_false, ebind_ok, epure_ok, role_exact, mapStop_ok, verifyUserInput_ok]
  constructor
  · rintro ⟨_, ⟨role, hr, rfl⟩, h⟩
    exact ⟨role, hr, h⟩
  · rintro ⟨role, hr, h⟩
    exact ⟨_, ⟨role, hr, rfl⟩, h⟩

/-- The answer is accepted exactly when it answers the request and the document vouches for it. -/
theorem checkBootGenesis_ok {C : Setting S} {a : BootGenesisArgs} (hs : a.unsafeSkip = false) {set : GenesisSet}
    {drKey : Option Bytes} {cose : Bytes} {out : GenesisOutput} {k : Public} :
    checkBootGenesis C a set drKey cose out = .ok k ↔
      Answers C.prims set drKey out ∧ GenesisDoc C cose C.now a.releaseDir a.pcr3Path out ∧ k.toBytes = out.quorumKey ∧
      Public.fromBytes C.prims out.quorumKey = .ok k := by
  unfold checkBootGenesis
  rw [hs]
  simp only [ebind_ok, epure_ok, guardStop_ok, mapStop_ok, decide_eq_true_eq, extractDoc_safe, release_pcrs_exact,
    checkGenesisDoc_ok, Option.getD_none, List.all_eq_true, List.contains_iff_mem, Attest.fromDer_exact]
  constructor
  · rintro ⟨_, ⟨h1, h2⟩, k', hk, doc, ⟨d1, d2, d3, d4⟩, q, hq, _, hl, _, hm, _, ⟨role, hr, g⟩, rfl⟩
    have hb := P256.public_reencode _ _ _ hk
    obtain ⟨b1, b2, b3, _, _⟩ := (P256.public_fromBytes_iff _ _ _).mp hk
    exact ⟨⟨h1, h2, ⟨b1, b2, b3⟩, hl.symm, hm⟩, ⟨⟨doc, _, _, _, role, d1, d2, d3, d4, hq, hr, g⟩⟩, hb, hk⟩
  · rintro ⟨ha, ⟨⟨doc, p0, p1, p2, role, d1, d2, d3, d4, hq, hr, g⟩⟩, hb, hk⟩
    exact ⟨(), ⟨ha.sameSet, ha.sameDr⟩, k, hk, doc, ⟨d1, d2, d3, d4⟩, ⟨p0, p1, p2⟩, hq, (), ha.count.symm, (), ha.members, (),
      ⟨role, hr, g⟩, rfl⟩

/-- The seed file is accepted with this pair exactly when it holds the hexadecimal text of the pair's seed. -/
theorem readSeed_exact {C : Setting S} {path : String} {t : Bytes} {pair : Pair} :
    readSeed C path = .ok (t, pair) ↔ C.disk.file path = some t ∧ (∃ u, utf8Decode t = some u) ∧
      Pair.fromHexContents C.prims t = .ok pair := by
  unfold readSeed
  simp only [ebind_ok, orStop_ok, mapStop_ok, epure_ok]
  constructor
  · rintro ⟨t', ht, u, hu, pair', hp, he⟩
    cases he
    exact ⟨ht, ⟨u, hu⟩, hp⟩
  · rintro ⟨ht, ⟨u, hu⟩, hp⟩
    exact ⟨t, ht, u, hu, pair, hp, rfl⟩

theorem verifySeed_exact {C : Setting S} {out : GenesisOutput} {t : Bytes} {pair : Pair} {x : Unit} :
    verifySeed C out t pair = .ok x ↔ pair.toMasterSeedHex = t ∧ C.prims.sha512 t = out.quorumKeyHash ∧
      Public.verify C.prims (pair.publicKey C.prims) out.testMessage out.testMessageSignature = .ok () ∧
      pair.sign C.prims out.testMessage = out.testMessageSignature ∧
      pair.decrypt C.prims out.testMessageCiphertext = .ok out.testMessage := by
  unfold verifySeed
  simp only [ebind_ok, mapStop_ok, guardStop_ok, decide_eq_true_eq]
  constructor
  · rintro ⟨_, h1, _, h2, _, h3, _, h4, pt, h5, rfl⟩
    exact ⟨h1, h2, h3, h4, h5⟩
  · rintro ⟨h1, h2, h3, h4, h5⟩
    exact ⟨(), h1, (), h2, (), h3, (), h4, _, h5, rfl⟩

/-! ## Property theorems -/

/-- C48: what `boot-genesis` stores is an answer to the request it sent, for the members in the local directory and the
local DR key, vouched for by a genuine attestation document of the local release. -/
theorem boot_genesis_safe (C : Setting S) (a : BootGenesisArgs) (hs : a.unsafeSkip = false) (s : S) (path : String)
    (c : Bytes) (h : .wrote path c ∈ (bootGenesis C a s).events) :
    ∃ set drKey cose out body w, SetIn C.prims C.disk a.shareSetDir ⟨set.threshold, set.members⟩ ∧
      DrKeyIn C.prims C.disk a.drKeyPath drKey ∧ Wire.toWire (.bootGenesisRequest set drKey) .json = .ok body ∧
      readAnswer (C.net s body).2 = some (.bootGenesisResponse (.attestation cose) out) ∧
      Answers C.prims set drKey out ∧ GenesisDoc C cose C.now a.releaseDir a.pcr3Path out ∧
      (bootGenesis C a s).events = .sent body :: w ∧ w <+: genesisFiles a.namespaceDir cose out ∧
      ((bootGenesis C a s).result = .ok () → w = genesisFiles a.namespaceDir cose out) := by
  unfold bootGenesis at h ⊢
  rcases Run.lift_cases (getSet C.prims C.disk a.shareSetDir) _ s with ⟨e, he, hr⟩ | ⟨qset, hq, hr⟩
  · rw [hr] at h; cases h
  rw [hr] at h ⊢
  simp only at h ⊢
  rcases Run.lift_cases (readDrKey C a.drKeyPath) _ s with ⟨e, he, hr⟩ | ⟨drKey, hd, hr⟩
  · rw [hr] at h; cases h
  rw [hr] at h ⊢
  rcases postWire_cases C (.bootGenesisRequest ⟨qset.members, qset.threshold⟩ drKey) .json _ s with ⟨_, hr⟩ | ⟨body, hb, hr⟩
  · rw [hr, Run.lift_error (e := .panic) (by rfl)] at h; cases h
  rw [hr] at h ⊢
  generalize hs' : (C.net s body).1 = s' at h ⊢
  rcases Run.lift_cases (orStop (genesisAnswer (readAnswer (C.net s body).2)) .panic) _ s' with ⟨e, he, hr⟩ | ⟨⟨cose, out⟩, ha, hr⟩
  · rw [hr] at h; simp at h
  rw [hr] at h ⊢
  have hans : readAnswer (C.net s body).2 = some (.bootGenesisResponse (.attestation cose) out) := by
    rw [orStop_ok] at ha
    unfold genesisAnswer at ha
    split at ha
    · simp only [Option.some.injEq, Prod.mk.injEq] at ha
      obtain ⟨rfl, rfl⟩ := ha
      assumption
    · cases ha
  simp only at h ⊢
  rcases Run.lift_cases (checkBootGenesis C a ⟨qset.members, qset.threshold⟩ drKey cose out) _ s' with ⟨e, he, hr⟩ | ⟨k, hk, hr⟩
  · rw [hr] at h; simp at h
  rw [hr] at h ⊢
  obtain ⟨g1, g2, g3, _⟩ := (checkBootGenesis_ok hs).mp hk
  refine ⟨⟨qset.members, qset.threshold⟩, drKey, cose, out, body, _, (set_exact _ _ _ _).mp hq, readDrKey_ok.mp hd, hb, hans, g1, g2, rfl, ?_⟩
  have e1 : drArtifacts out = (ascii "quorum_key_hash " ++ Hex.encode out.quorumKeyHash ++ ascii "\ntest_message_ciphertext " ++
       Hex.encode out.testMessageCiphertext ++ ascii "\ntest_message_signature " ++ Hex.encode out.testMessageSignature ++
       ascii "\ntest_message " ++ Hex.encode out.testMessage) := by
    unfold drArtifacts
    have a1 : ascii "\ntest_message_ciphertext " = ascii "\n" ++ ascii "test_message_ciphertext " := by decide
    have a2 : ascii "\ntest_message_signature " = ascii "\n" ++ ascii "test_message_signature " := by decide
    have a3 : ascii "\ntest_message " = ascii "\n" ++ ascii "test_message " := by decide
    rw [a1, a2, a3]
    simp only [List.append_assoc]
  unfold genesisFiles
  rw [← e1, ← g3]
  simp only [write_bind]
  by_cases w1 : C.disk.writable (pathJoin a.namespaceDir "genesis_dr_artifacts") = true
  · by_cases w2 : C.disk.writable (pathJoin a.namespaceDir "genesis_attestation_doc") = true
    · by_cases w3 : C.disk.writable (pathJoin a.namespaceDir "genesis_output") = true
      · by_cases w4 : C.disk.writable (pathJoin a.namespaceDir "quorum_key.pub") = true
        · cases hw : out.drKeyWrappedQuorumKey with
          | none => simp [w1, w2, w3, w4, hw, writeOptional, pure, Run.pure]
          | some b =>
            by_cases w5 : C.disk.writable (pathJoin a.namespaceDir "dr_wrapped_quorum_key") = true
            · simp [w1, w2, w3, w4, w5, hw, writeOptional, write]
            · simp [w1, w2, w3, w4, w5, hw, writeOptional, write]
        · simp [w1, w2, w3, w4]
      · simp [w1, w2, w3]
    · simp [w1, w2]
  · simp [w1]

/-- C48: `verify-genesis` accepts a seed exactly when the file is the plain hexadecimal text of a master seed whose
hash is the recorded one and whose key reproduces the test signature and opens the test ciphertext. -/
theorem verify_genesis_exact (C : Setting S) (hp : C.prims.Laws) (dir seedPath : String) (s : S) :
    (verifyGenesis C dir seedPath s).result = .ok () ↔ ∃ out seed quorum, OutputIn C.disk dir out ∧
      C.disk.file seedPath = some (Hex.encode seed) ∧ seed.length = 32 ∧ Pair.fromMasterSeed C.prims seed = .ok quorum ∧
      C.prims.sha512 (Hex.encode seed) = out.quorumKeyHash ∧ quorum.sign C.prims out.testMessage = out.testMessageSignature ∧
      quorum.decrypt C.prims out.testMessageCiphertext = .ok out.testMessage := by
  unfold verifyGenesis Run.lift readGenesisOutput
  simp only [ebind_ok, orStop_ok]
  constructor
  · rintro ⟨out, ⟨c, hc, ho⟩, ⟨t, pair⟩, hsd, hv⟩
    obtain ⟨ht, _, hpair⟩ := readSeed_exact.mp hsd
    obtain ⟨h1, h2, _, h4, h5⟩ := verifySeed_exact.mp hv
    have hm : pair.seed.length = 32 ∧ Pair.fromMasterSeed C.prims pair.seed = .ok pair := by
      unfold Pair.fromHexContents at hpair
      split at hpair
      · cases hpair
      · split at hpair
        · cases hpair
        · rename_i hx
          rw [P256.pair_seed _ _ _ hpair]
          exact ⟨JCodec.decodeToBuf_ok_length hx, hpair⟩
    have h1 : Hex.encode pair.seed = t := h1
    subst h1
    exact ⟨out, pair.seed, pair, ⟨c, hc, ho⟩, ht, hm.1, hm.2, h2, h4, h5⟩
  · rintro ⟨out, seed, quorum, ⟨c, hc, ho⟩, ht, hlen, hm, h2, h4, h5⟩
    have hse := P256.pair_seed _ _ _ hm
    have hx := P256.hex_file_roundtrip C.prims quorum (by rw [hse]; exact hlen)
    have hh : quorum.toMasterSeedHex = Hex.encode seed := by unfold Pair.toMasterSeedHex; rw [hse]
    rw [hh, hse, hm] at hx
    have hv := P256.pair_sign_verifies C.prims hp seed out.testMessage quorum hm
    rw [h4] at hv
    have hu : ∃ u, utf8Decode (Hex.encode seed) = some u := by
      unfold Pair.fromHexContents at hx
      cases hd : utf8Decode (Hex.encode seed) with
      | none => rw [hd] at hx; cases hx
      | some u => exact ⟨u, rfl⟩
    have k1 : readSeed C seedPath = .ok (Hex.encode seed, quorum) := readSeed_exact.mpr ⟨ht, hu, hx⟩
    have k2 : verifySeed C out (Hex.encode seed) quorum = .ok () := verifySeed_exact.mpr ⟨hh, h2, hv, h4, h5⟩
    refine ⟨out, ⟨c, hc, ho⟩, (Hex.encode seed, quorum), k1, k2⟩

/-- What `after-genesis` accepts: a genuine document for the stored output, in which the member's own entry opens with
the member's key to a share with the recorded hash. -/
theorem checkAfterGenesis_ok {C : Setting S} {pair : Pair} {a : AfterGenesisArgs} (hs : a.unsafeSkip = false) {share : Bytes} :
    checkAfterGenesis C pair a = .ok share ↔ ∃ cose out own plain,
      C.disk.file (pathJoin a.namespaceDir "genesis_attestation_doc") = some cose ∧ OutputIn C.disk a.namespaceDir out ∧
      GenesisDoc C cose (a.timeOverride.getD C.now) a.releaseDir a.pcr3Path out ∧
      ownOutput out (pair.publicKey C.prims).toBytes a.memberAlias = some own ∧
      pair.decrypt C.prims own.encryptedShare = .ok plain ∧ C.prims.sha512 plain = own.shareHash ∧
      share = own.encryptedShare := by
  unfold checkAfterGenesis readGenesisOutput
  rw [hs]
  simp only [ebind_ok, epure_ok, guardStop_ok, mapStop_ok, orStop_ok, decide_eq_true_eq, extractDoc_safe, release_pcrs_exact,
    checkGenesisDoc_ok, Attest.fromDer_exact]
  constructor
  · rintro ⟨q, hq, cose, hc, doc, ⟨d1, d2, d3, d4⟩, out, ⟨c, ho, hd⟩, _, ⟨role, hr, g⟩, own, hown, plain, hpl, _, hh, rfl⟩
    exact ⟨cose, out, own, plain, hc, ⟨c, ho, hd⟩, ⟨⟨doc, _, _, _, role, d1, d2, d3, d4, hq, hr, g⟩⟩, hown, hpl, hh, rfl⟩
  · rintro ⟨cose, out, own, plain, hc, ⟨c, ho, hd⟩, ⟨⟨doc, p0, p1, p2, role, d1, d2, d3, d4, hq, hr, g⟩⟩, hown, hpl, hh, rfl⟩
    exact ⟨⟨p0, p1, p2⟩, hq, cose, hc, doc, ⟨d1, d2, d3, d4⟩, out, ⟨c, ho, hd⟩, (), ⟨role, hr, g⟩, own, hown, plain, hpl, (), hh, rfl⟩

theorem ownOutput_mem {out : GenesisOutput} {key : Bytes} {name : String} {own : MemberOutput}
    (h : ownOutput out key name = some own) : own ∈ out.memberOutputs ∧ own.member.pubKey = key ∧ own.member.aliasName = name := by
  unfold ownOutput at h
  have h2 := List.find?_some h
  simp only [decide_eq_true_eq] at h2
  exact ⟨List.mem_of_find?_eq_some h, h2.1, h2.2⟩

/-- C48: the only thing `after-genesis` ever writes is the encrypted share of the entry made out to this member's own
key and alias in an output that a genuine attestation document of the release vouches for, and that the member's key
opened to a share with the recorded hash. -/
theorem after_genesis_safe (C : Setting S) (pair : Pair) (a : AfterGenesisArgs) (hs : a.unsafeSkip = false) (s : S) (ev : Event)
    (h : ev ∈ (afterGenesis C pair a s).events) :
    ∃ cose out own plain, C.disk.file (pathJoin a.namespaceDir "genesis_attestation_doc") = some cose ∧
      OutputIn C.disk a.namespaceDir out ∧
      GenesisDoc C cose (a.timeOverride.getD C.now) a.releaseDir a.pcr3Path out ∧
      own ∈ out.memberOutputs ∧ own.member = ⟨a.memberAlias, (pair.publicKey C.prims).toBytes⟩ ∧
      pair.decrypt C.prims own.encryptedShare = .ok plain ∧ C.prims.sha512 plain = own.shareHash ∧
      ev = .wrote a.sharePath own.encryptedShare := by
  unfold afterGenesis at h
  rcases Run.lift_cases (checkAfterGenesis C pair a) (fun share => write C a.sharePath share) s with ⟨e, he, hr⟩ | ⟨share, hk, hr⟩
  · rw [hr] at h; cases h
  rw [hr] at h
  obtain ⟨cose, out, own, plain, hc, ho, hd, hown, hpl, hh, rfl⟩ := (checkAfterGenesis_ok hs).mp hk
  obtain ⟨m1, m2, m3⟩ := ownOutput_mem hown
  refine ⟨cose, out, own, plain, hc, ho, hd, m1, ?_, hpl, hh, ?_⟩
  · cases hm : own.member with
    | mk n k => rw [hm] at m2 m3; rw [← m2, ← m3]
  · unfold write at h
    split at h
    · simpa using h
    · cases h

/-- C48: after a correct ceremony, every member whose name and key are in the request can collect its share: given the
stored output and a genuine document for it, `after-genesis` writes the member's encrypted share. -/
theorem after_genesis_complete (C : Setting S) (pair : Pair) (a : AfterGenesisArgs) (hs : a.unsafeSkip = false) (s : S)
    {set : GenesisSet} {drKey : Option Bytes} {out : GenesisOutput} {quorum : Pair} {shares : List Bytes}
    (hcer : Ceremony C.prims set drKey out quorum shares) {pub : Bytes} (hpair : Owns C.prims pair pub)
    (hm : (⟨a.memberAlias, pub⟩ : QuorumMember) ∈ set.members) {cose : Bytes}
    (hc : C.disk.file (pathJoin a.namespaceDir "genesis_attestation_doc") = some cose)
    (ho : OutputIn C.disk a.namespaceDir out)
    (hd : GenesisDoc C cose (a.timeOverride.getD C.now) a.releaseDir a.pcr3Path out)
    (hw : C.disk.writable a.sharePath = true) :
    ∃ (i : Nat) (own : MemberOutput) (x : Bytes), out.memberOutputs[i]? = some own ∧ own.member = ⟨a.memberAlias, pub⟩ ∧ shares[i]? = some x ∧
      pair.decrypt C.prims own.encryptedShare = .ok x ∧
      afterGenesis C pair a s = ⟨.ok (), s, [.wrote a.sharePath own.encryptedShare]⟩ := by
  have hex : ∃ own, ownOutput out (pair.publicKey C.prims).toBytes a.memberAlias = some own := by
    rw [← hcer.members] at hm
    obtain ⟨o, ho, he⟩ := List.mem_map.mp hm
    cases hf : ownOutput out (pair.publicKey C.prims).toBytes a.memberAlias with
    | some own => exact ⟨own, rfl⟩
    | none =>
      unfold ownOutput at hf
      have := List.find?_eq_none.mp hf o ho
      simp [he, hpair.pub] at this
  obtain ⟨own, hown⟩ := hex
  obtain ⟨m1, m2, m3⟩ := ownOutput_mem hown
  obtain ⟨i, hi⟩ := List.mem_iff_getElem?.mp m1
  have hlen : out.memberOutputs.length = shares.length := by
    have := congrArg List.length hcer.members
    rw [List.length_map] at this
    rw [this, hcer.count]
  have hlt : i < shares.length := by
    rw [← hlen]
    exact (List.getElem?_eq_some_iff.mp hi).1
  have hx : shares[i]? = some shares[i] := List.getElem?_eq_getElem hlt
  have hopen := hcer.opened i own shares[i] pair hi hx ⟨hpair.pair, m2.symm⟩
  have hhash : C.prims.sha512 shares[i] = own.shareHash := by
    have := congrArg (·[i]?) hcer.hashes
    simp only [List.getElem?_map, hi, hx, Option.map_some, Option.some.injEq] at this
    exact this.symm
  have hmem : own.member = ⟨a.memberAlias, pub⟩ := by
    rw [hpair.pub] at m2
    cases hm : own.member with
    | mk n k => rw [hm] at m2 m3; simp only at m2 m3; rw [m2, m3]
  refine ⟨i, own, shares[i], hi, hmem, hx, hopen, ?_⟩
  have hk := (checkAfterGenesis_ok (C := C) (pair := pair) hs).mpr ⟨cose, out, own, _, hc, ho, hd, hown, hopen, hhash, rfl⟩
  unfold afterGenesis
  rcases Run.lift_cases (checkAfterGenesis C pair a) (fun share => write C a.sharePath share) s with ⟨e, he, hr⟩ | ⟨share, hk', hr⟩
  · rw [hk] at he; cases he
  rw [hk] at hk'
  cases hk'
  rw [hr]
  simp [write, hw]

/-- C48: after a correct ceremony, `verify-genesis` accepts the master seed that any threshold of the shares gives back,
and a file with anything else is accepted only if its contents and the true ones are a collision of SHA-512. -/
theorem verify_after_ceremony (C : Setting S) (hp : C.prims.Laws) (dir seedPath : String) (s : S)
    {set : GenesisSet} {drKey : Option Bytes} {out : GenesisOutput} {quorum : Pair} {shares : List Bytes}
    (hcer : Ceremony C.prims set drKey out quorum shares) (ho : OutputIn C.disk dir out) {t : Bytes}
    (ht : C.disk.file seedPath = some t) :
    (∀ l : List Bytes, l.Nodup → (∀ x ∈ l, x ∈ shares) → set.threshold.toNat ≤ l.length → ∀ seed,
      Shamir.sharesReconstruct l = .ok seed → t = Hex.encode seed → (verifyGenesis C dir seedPath s).result = .ok ()) ∧
    ((verifyGenesis C dir seedPath s).result = .ok () →
      t = Hex.encode quorum.seed ∨ (t ≠ Hex.encode quorum.seed ∧ C.prims.sha512 t = C.prims.sha512 (Hex.encode quorum.seed))) := by
  constructor
  · intro l h1 h2 h3 seed h4 h5
    rw [hcer.recover l h1 h2 h3] at h4
    cases h4
    subst h5
    obtain ⟨sd, hsd⟩ := hcer.key.pair
    have hse := P256.pair_seed _ _ _ hsd
    subst hse
    exact (verify_genesis_exact C hp dir seedPath s).mpr
      ⟨out, quorum.seed, quorum, ho, ht, hcer.seed, hsd, hcer.keyHash.symm, hcer.testSigned.symm, hcer.test⟩
  · intro h
    obtain ⟨out', seed, q', ho', ht', _, _, hh, _⟩ := (verify_genesis_exact C hp dir seedPath s).mp h
    obtain ⟨c, hc, hd⟩ := ho
    obtain ⟨c', hc', hd'⟩ := ho'
    rw [hc] at hc'
    cases hc'
    rw [hd] at hd'
    cases hd'
    rw [ht] at ht'
    cases ht'
    by_cases heq : Hex.encode seed = Hex.encode quorum.seed
    · exact .inl heq
    · exact .inr ⟨heq, by rw [hh, hcer.keyHash]⟩

end Qos.Client
