import Verif.Props.FormatMsgBytes
/-!
# C74: the protocol messages on the wire
-/
namespace Qos.Format
open Json Services Wire

/-! ### Reading Borsh -/

theorem setOf_nil : SetOf [] [] := ⟨List.Pairwise.nil, fun _ => Iff.rfl⟩

theorem exact_describe (r : Bytes) : Exact (Borsh.pair Borsh.bool Borsh.bytes)
    (fun b x => b = flagBytes x.1 ++ sized x.2 ∧ Short x.2) r := by
  refine exact_congr ?_ (exact_pair exact_bool (exact_bytes r))
  rintro b ⟨x, y⟩
  constructor
  · rintro ⟨_, _, rfl, ⟨rfl, h1⟩, rfl, h2⟩; exact ⟨rfl, h2⟩
  · rintro ⟨rfl, h2⟩; exact ⟨_, _, rfl, ⟨rfl, trivial⟩, rfl, h2⟩

theorem exact_config (r : Bytes) : Exact (Borsh.pair Borsh.u16 (Borsh.pair Borsh.u16 (Borsh.pair Borsh.u16
    (Borsh.pair Borsh.string (Borsh.pair Borsh.u16 (Borsh.pair Borsh.setU16 Borsh.nsmDigest))))))
    (fun b x => ∃ given, b = two x.1.toNat ++ two x.2.1.toNat ++ two x.2.2.1.toNat ++ text x.2.2.2.1 ++ two x.2.2.2.2.1.toNat ++
        many (fun (n : UInt16) => two n.toNat) given ++ tagged (digestKind x.2.2.2.2.2.2).2 [] ∧ SetOf given x.2.2.2.2.2.1 ∧
        given.length < 2 ^ 32 ∧ ShortText x.2.2.2.1) r := by
  refine exact_congr ?_ (exact_pair exact_u16 (exact_pair exact_u16 (exact_pair exact_u16 (exact_pair exact_string
    (exact_pair exact_u16 (exact_pair exact_numbers (exact_digest r)))))))
  rintro b ⟨x1, x2, x3, x4, x5, x6, x7⟩
  constructor
  · rintro ⟨_, _, rfl, ⟨rfl, -⟩, _, _, rfl, ⟨rfl, -⟩, _, _, rfl, ⟨rfl, -⟩, _, _, rfl, ⟨rfl, h4⟩, _, _, rfl, ⟨rfl, -⟩, _, _, rfl,
      ⟨given, rfl, h6, h7⟩, rfl⟩
    exact ⟨given, by simp only [List.append_assoc], h7, h6, h4⟩
  · rintro ⟨given, rfl, h7, h6, h4⟩
    exact ⟨_, _, by simp only [List.append_assoc], ⟨rfl, trivial⟩, _, _, rfl, ⟨rfl, trivial⟩, _, _, rfl, ⟨rfl, trivial⟩, _, _, rfl,
      ⟨rfl, h4⟩, _, _, rfl, ⟨rfl, trivial⟩, _, _, rfl, ⟨given, rfl, h6, h7⟩, rfl⟩

theorem exact_nsm (r : Bytes) : Exact Borsh.nsmResponse NsmForm r := by
  refine exact_congr ?_ (exact_enum (pos := fun p => (nsmKind p).2) (F := fun b x => ∃ given, b = nsmBody given x ∧
    SetOf given (lockedPcrs x) ∧ given.length < 2 ^ 32 ∧ ShortNsm x) ?_ ?_ (by decide))
  · intro b a
    constructor
    · rintro ⟨_, rfl, given, rfl, h⟩; exact ⟨given, rfl, h⟩
    · rintro ⟨given, rfl, h⟩; exact ⟨_, rfl, given, rfl, h⟩
  · refine ⟨?_, ?_, ?_, ?_, ?_, ?_, ?_, ?_, trivial⟩
    · exact givesB_data (exact_describe r) (fun _ => rfl) fun _ _ h => ⟨[], h.1, setOf_nil, by decide, h.2⟩
    · exact givesB_data (exact_bytes r) (fun _ => rfl) fun _ _ h => ⟨[], h.1, setOf_nil, by decide, h.2⟩
    · exact givesB_unit rfl ⟨[], rfl, setOf_nil, by decide, trivial⟩
    · exact givesB_unit rfl ⟨[], rfl, setOf_nil, by decide, trivial⟩
    · exact givesB_data (exact_config r) (fun _ => rfl) fun _ _ h => h
    · exact givesB_data (exact_bytes r) (fun _ => rfl) fun _ _ h => ⟨[], h.1, setOf_nil, by decide, h.2⟩
    · exact givesB_data (exact_bytes r) (fun _ => rfl) fun _ _ h => ⟨[], h.1, setOf_nil, by decide, h.2⟩
    · exact givesB_data (exact_nsmError r) (fun _ => rfl) fun _ _ h => ⟨[], h, setOf_nil, by decide, trivial⟩
  · intro a
    cases a with
    | describePCR l d => exact ⟨_, rfl, takesB_data (exact_describe r) (l, d) rfl fun _ ⟨_, h1, _, _, h⟩ => ⟨h1, h⟩⟩
    | extendPCR d => exact ⟨_, rfl, takesB_data (exact_bytes r) d rfl fun _ ⟨_, h1, _, _, h⟩ => ⟨h1, h⟩⟩
    | lockPCR => exact ⟨_, rfl, takesB_unit fun _ ⟨_, h1, _⟩ => h1⟩
    | lockPCRs => exact ⟨_, rfl, takesB_unit fun _ ⟨_, h1, _⟩ => h1⟩
    | describeNSM a b c d e f g => exact ⟨_, rfl, takesB_data (exact_config r) (a, b, c, d, e, f, g) rfl fun _ h => h⟩
    | attestation d => exact ⟨_, rfl, takesB_data (exact_bytes r) d rfl fun _ ⟨_, h1, _, _, h⟩ => ⟨h1, h⟩⟩
    | getRandom d => exact ⟨_, rfl, takesB_data (exact_bytes r) d rfl fun _ ⟨_, h1, _, _, h⟩ => ⟨h1, h⟩⟩
    | error e => exact ⟨_, rfl, takesB_data (exact_nsmError r) e rfl fun _ ⟨_, h1, _⟩ => h1⟩

theorem option_enc {α : Type} {c : Borsh.Codec α} {f : α → Bytes} (h : ∀ a, c.enc a = f a) (o : Option α) :
    (Borsh.option c).enc o = optional f o := by
  cases o <;> simp [Borsh.option, optional, h]

theorem option_ok {α : Type} {c : Borsh.Codec α} {P : α → Prop} (h : ∀ a, c.ok a ↔ P a) (o : Option α) :
    (Borsh.option c).ok o ↔ ShortMay P o := by
  cases o <;> simp [Borsh.option, ShortMay, h]

theorem genesisSet_enc (s : GenesisSet) : genesisSetCodec.enc s = genesisSetBytes s := by
  simp [genesisSetCodec, Borsh.imap, Borsh.pair, vec_enc member_enc, u32_enc, genesisSetBytes]

theorem genesisSet_ok (s : GenesisSet) : genesisSetCodec.ok s ↔ ShortList ShortMember s.members := by
  simp [genesisSetCodec, Borsh.imap, Borsh.pair, vec_ok member_ok, u32_ok]

theorem memberOutput_enc (o : MemberOutput) : memberOutputCodec.enc o = memberBytes o.member ++ sized o.encryptedShare ++ o.shareHash := by
  simp [memberOutputCodec, Borsh.imap, Borsh.pair, member_enc, bytes_enc, Borsh.fixed]

theorem memberOutput_ok (o : MemberOutput) : memberOutputCodec.ok o ↔
    ShortMember o.member ∧ Short o.encryptedShare ∧ o.shareHash.length = 64 := by
  simp [memberOutputCodec, Borsh.imap, Borsh.pair, member_ok, bytes_ok, Borsh.fixed]

theorem shard_enc (o : MemberShard) : memberShardCodec.enc o = memberBytes o.member ++ sized o.shard := by
  simp [memberShardCodec, Borsh.imap, Borsh.pair, member_enc, bytes_enc]

theorem shard_ok (o : MemberShard) : memberShardCodec.ok o ↔ ShortMember o.member ∧ Short o.shard := by
  simp [memberShardCodec, Borsh.imap, Borsh.pair, member_ok, bytes_ok]

/-- C74: the bytes of the output of a key ceremony, of which the attestation carries the SHA-256. -/
theorem genesis_enc (o : GenesisOutput) : genesisOutputCodec.enc o = genesisBytes o := by
  simp [genesisOutputCodec, Borsh.imap, Borsh.pair, genesisSet_enc, option_enc bytes_enc, bytes_enc, vec_enc memberOutput_enc,
    vec_enc (vec_enc shard_enc), Borsh.fixed, genesisBytes]

theorem genesis_ok (o : GenesisOutput) : genesisOutputCodec.ok o ↔ ShortGenesis o := by
  simp only [genesisOutputCodec, Borsh.imap, Borsh.pair, genesisSet_ok, option_ok bytes_ok, bytes_ok, vec_ok memberOutput_ok,
    vec_ok (vec_ok shard_ok), Borsh.fixed, ShortGenesis]

theorem exact_request (r : Bytes) : Exact (Borsh.pair genesisSetCodec (Borsh.option Borsh.bytes))
    (fun b x => b = genesisSetBytes x.1 ++ optional sized x.2 ∧ ShortList ShortMember x.1.members ∧ ShortMay Short x.2) r :=
  exact_lawful (Borsh.lawful_pair lawful_genesisSetCodec (Borsh.lawful_option Borsh.lawful_bytes))
    (fun a => by simp [Borsh.pair, genesisSet_enc, option_enc bytes_enc])
    (fun a => by simp [Borsh.pair, genesisSet_ok, option_ok bytes_ok]) r

theorem exact_genesis (r : Bytes) : Exact genesisOutputCodec (fun b o => b = genesisBytes o ∧ ShortGenesis o) r :=
  exact_lawful Qos.lawful_genesisOutput genesis_enc genesis_ok r

theorem exact_provision (r : Bytes) : Exact (Borsh.pair Borsh.bytes Borsh.approval)
    (fun b x => b = sized x.1 ++ approvalBytes x.2 ∧ Short x.1 ∧ ShortApproval x.2) r := by
  refine exact_congr ?_ (exact_pair exact_bytes (exact_approval r))
  rintro b ⟨x, y⟩
  constructor
  · rintro ⟨_, _, rfl, ⟨rfl, h1⟩, rfl, h2⟩; exact ⟨rfl, h1, h2⟩
  · rintro ⟨rfl, h1, h2⟩; exact ⟨_, _, rfl, ⟨rfl, h1⟩, rfl, h2⟩

theorem exact_envelope : Exact Borsh.envelope EnvelopeForm [] := by
  intro bs e
  have h : Borsh.decodeEnvelope bs = some e ↔ _ :=
    decodeBorsh_iff (f := Envelope.v1) (g := .v0) (x := e) (borsh_envelope_v1_read bs) (borsh_envelope_v0_read bs)
  have : Borsh.envelope.dec bs = some (e, []) ↔ Borsh.decodeEnvelope bs = some e := by simp [Borsh.envelope]
  rw [this, h]
  cases e <;> simp [EnvelopeForm]

theorem exact_jsonEnvelope (r : Bytes) : Exact Borsh.jsonEnvelope (fun b e => ∃ j, b = sized j ∧ Short j ∧ JsonOf EnvelopeSays j e) r := by
  have hj : ∀ j e, fromJsonSlice JCodec.envelope j = some e ↔ JsonOf EnvelopeSays j e := fun j e =>
    json_iff (c := JCodec.envelope) (fun v a => envelope_in_request v a)
  intro bs e
  simp only [Borsh.jsonEnvelope]
  constructor
  · intro h
    cases h1 : Borsh.bytes.dec bs with
    | none => rw [h1] at h; cases h
    | some jr =>
      obtain ⟨j, r'⟩ := jr
      rw [h1] at h
      simp only at h
      cases h2 : fromJsonSlice JCodec.envelope j with
      | none => rw [h2] at h; cases h
      | some e' =>
        rw [h2] at h
        cases h
        obtain ⟨b, rfl, rfl, h3⟩ := (exact_bytes _ bs j).mp h1
        exact ⟨_, rfl, j, rfl, h3, (hj j e).mp h2⟩
  · rintro ⟨_, rfl, j, rfl, h1, h2⟩
    have h3 : Borsh.bytes.dec (sized j ++ r) = some (j, r) := (exact_bytes r _ j).mpr ⟨_, rfl, rfl, h1⟩
    rw [h3]
    simp only [(hj j e).mpr h2]

theorem exact_never (r : Bytes) : Exact (Borsh.pair Borsh.envelope Borsh.bytes) (fun _ _ => False) r := by
  intro bs a
  rw [Borsh.pair_envelope_dec]
  simp

/-- C74: bytes are the Borsh form of a message exactly if they are its position and its fields, in the documented order and
widths. -/
theorem borsh_message_read (bs : Bytes) (m : Msg) : Borsh.tryFromSlice Borsh.msg bs = some m ↔ MsgForm bs m := by
  have hout : Exact (Borsh.pair Borsh.nsmResponse genesisOutputCodec)
      (fun b x => ∃ y, b = y ++ genesisBytes x.2 ∧ NsmForm y x.1 ∧ ShortGenesis x.2) [] := by
    refine exact_congr ?_ (exact_pair exact_nsm (exact_genesis []))
    rintro b ⟨x, y⟩
    constructor
    · rintro ⟨_, _, rfl, h1, rfl, h2⟩; exact ⟨_, rfl, h1, h2⟩
    · rintro ⟨_, rfl, h1, h2⟩; exact ⟨_, _, rfl, h1, rfl, h2⟩
  have hlive : Exact (Borsh.pair Borsh.nsmResponse (Borsh.option Borsh.envelope))
      (fun b x => ∃ y z, b = y ++ z ∧ NsmForm y x.1 ∧ MayEnvelopeForm z x.2) [] := exact_pair exact_nsm (exact_option exact_envelope)
  have hjson : Exact (Borsh.pair Borsh.jsonEnvelope Borsh.bytes)
      (fun b x => ∃ j, b = sized j ++ sized x.2 ∧ Short j ∧ Short x.2 ∧ JsonOf EnvelopeSays j x.1) [] := by
    refine exact_congr ?_ (exact_pair exact_jsonEnvelope (exact_bytes []))
    rintro b ⟨x, y⟩
    constructor
    · rintro ⟨_, _, rfl, ⟨j, rfl, h1, h2⟩, rfl, h3⟩; exact ⟨j, rfl, h1, h3, h2⟩
    · rintro ⟨j, rfl, h1, h3, h2⟩; exact ⟨_, _, rfl, ⟨j, rfl, h1, h2⟩, rfl, h3⟩
  refine whole_iff (exact_enum (pos := fun m : Msg => m.kind.2) (F := BodyForm) ?_ ?_ (by decide))
  · refine ⟨?_, ?_, ?_, ?_, ?_, ?_, ?_, ?_, ?_, ?_, ?_, ?_, ?_, ?_, ?_, ?_, ?_, ?_, ?_, ?_, ?_, ?_, ?_, ?_, trivial⟩
    · exact givesB_data (exact_error []) (fun _ => rfl) fun _ _ h => h
    · exact givesB_unit rfl ⟨rfl, trivial⟩
    · exact givesB_data (exact_phase []) (fun _ => rfl) fun _ _ h => ⟨h, trivial⟩
    · exact givesB_data (exact_never []) (fun _ => rfl) fun _ _ h => h
    · exact givesB_data (exact_nsm []) (fun _ => rfl) fun _ _ h => h
    · exact givesB_data (exact_request []) (fun _ => rfl) fun _ _ h => h
    · exact givesB_data hout (fun _ => rfl) fun _ _ h => h
    · exact givesB_data (exact_provision []) (fun _ => rfl) fun _ _ h => h
    · exact givesB_data (exact_bool []) (fun _ => rfl) fun _ _ h => h
    · exact givesB_data (exact_bytes []) (fun _ => rfl) fun _ _ h => h
    · exact givesB_data (exact_bytes []) (fun _ => rfl) fun _ _ h => h
    · exact givesB_unit rfl ⟨rfl, trivial⟩
    · exact givesB_data hlive (fun _ => rfl) fun _ _ h => h
    · exact givesB_data (exact_never []) (fun _ => rfl) fun _ _ h => h
    · exact givesB_data (exact_nsm []) (fun _ => rfl) fun _ _ h => h
    · exact givesB_data (exact_never []) (fun _ => rfl) fun _ _ h => h
    · exact givesB_data (exact_blobs []) (fun _ => rfl) fun _ _ h => h
    · exact givesB_data (exact_blobs []) (fun _ => rfl) fun _ _ h => h
    · exact givesB_unit rfl ⟨rfl, trivial⟩
    · exact givesB_unit rfl ⟨rfl, trivial⟩
    · exact givesB_data (exact_option exact_envelope) (fun _ => rfl) fun _ _ h => h
    · exact givesB_unit rfl ⟨rfl, trivial⟩
    · exact givesB_data (exact_texts []) (fun _ => rfl) fun _ _ h => h
    · exact givesB_data hjson (fun _ => rfl) fun _ _ h => h
  · intro a
    cases a with
    | protocolErrorResponse e => exact ⟨_, rfl, takesB_data (exact_error []) e rfl fun _ h => h⟩
    | statusResponse p => exact ⟨_, rfl, takesB_data (exact_phase []) p rfl fun _ h => h.1⟩
    | bootStandardRequest e p => exact ⟨_, rfl, takesB_data (exact_never []) (e, p) rfl fun _ h => h⟩
    | bootStandardResponse e => exact ⟨_, rfl, takesB_data (exact_nsm []) e rfl fun _ h => h⟩
    | bootGenesisRequest e p => exact ⟨_, rfl, takesB_data (exact_request []) (e, p) rfl fun _ h => h⟩
    | bootGenesisResponse e p => exact ⟨_, rfl, takesB_data hout (e, p) rfl fun _ h => h⟩
    | provisionRequest e p => exact ⟨_, rfl, takesB_data (exact_provision []) (e, p) rfl fun _ h => h⟩
    | provisionResponse e => exact ⟨_, rfl, takesB_data (exact_bool []) e rfl fun _ h => h⟩
    | proxyRequest e => exact ⟨_, rfl, takesB_data (exact_bytes []) e rfl fun _ h => h⟩
    | proxyResponse e => exact ⟨_, rfl, takesB_data (exact_bytes []) e rfl fun _ h => h⟩
    | liveAttestationDocResponse e p => exact ⟨_, rfl, takesB_data hlive (e, p) rfl fun _ h => h⟩
    | bootKeyForwardRequest e p => exact ⟨_, rfl, takesB_data (exact_never []) (e, p) rfl fun _ h => h⟩
    | bootKeyForwardResponse e => exact ⟨_, rfl, takesB_data (exact_nsm []) e rfl fun _ h => h⟩
    | exportKeyRequest e p => exact ⟨_, rfl, takesB_data (exact_never []) (e, p) rfl fun _ h => h⟩
    | exportKeyResponse e p => exact ⟨_, rfl, takesB_data (exact_blobs []) (e, p) rfl fun _ h => h⟩
    | injectKeyRequest e p => exact ⟨_, rfl, takesB_data (exact_blobs []) (e, p) rfl fun _ h => h⟩
    | manifestEnvelopeResponse e => exact ⟨_, rfl, takesB_data (exact_option exact_envelope) e rfl fun _ h => h⟩
    | versionResponse e p => exact ⟨_, rfl, takesB_data (exact_texts []) (e, p) rfl fun _ h => h⟩
    | bootStandardJsonEnvelopeRequest e p => exact ⟨_, rfl, takesB_data hjson (e, p) rfl fun _ h => h⟩
    | _ => exact ⟨_, rfl, takesB_unit fun _ h => h.1⟩

/-! ### Reading -/

theorem json_message {bs : Bytes} {m : Msg} : fromJsonSlice JCodec.msg bs = some m ↔ JsonOf MsgDoc bs m := json_iff message_document

/-- C74: the exact condition for reading bytes as a message in JSON. -/
theorem message_read_json (bs : Bytes) (m : Msg) : fromWire bs = .ok (m, .json) ↔ JsonOf MsgDoc bs m := by
  rw [← json_message]
  rcases fromWire_cases bs with ⟨m', h1, h2⟩ | ⟨h1, m', h2, h3, h4⟩ | ⟨h1, h2, h3⟩ | ⟨h1, h2, h3⟩
  · rw [h2, h1]; simp
  · rw [h4, h1]; simp
  · rw [h3, h1]; simp
  · rw [h3, h1]; simp

/-- C74: the exact condition for reading bytes as a message in Borsh: they are not JSON of a message, they are its bytes, and it
is not about a key ceremony. -/
theorem message_read_borsh (bs : Bytes) (m : Msg) : fromWire bs = .ok (m, .borsh) ↔
    (¬ ∃ m', JsonOf MsgDoc bs m') ∧ MsgForm bs m ∧ ¬ m.Genesis := by
  simp only [← json_message, ← borsh_message_read]
  rcases fromWire_cases bs with ⟨m', h1, h2⟩ | ⟨h1, m', h2, h3, h4⟩ | ⟨h1, ⟨m', h2, h3⟩, h4⟩ | ⟨h1, h2, h3⟩
  · rw [h2, h1]; simp
  · rw [h4, h1, h2]
    constructor
    · intro h; cases h; exact ⟨by simp, rfl, h3⟩
    · rintro ⟨-, h, -⟩; cases h; rfl
  · rw [h4, h1, h2]
    constructor
    · intro h; cases h
    · rintro ⟨-, h, h5⟩; cases h; exact absurd h3 h5
  · rw [h3, h1, h2]; simp

/-- C74: the exact condition for each refusal. -/
theorem message_refused (bs : Bytes) (e : ProtocolError) : fromWire bs = .error e ↔
    (¬ ∃ m, JsonOf MsgDoc bs m) ∧ ((e = .legacyGenesisNotSupported ∧ ∃ m, MsgForm bs m ∧ m.Genesis) ∨
      (e = .protocolMsgDeserialization ∧ ¬ ∃ m, MsgForm bs m)) := by
  simp only [← json_message, ← borsh_message_read]
  rcases fromWire_cases bs with ⟨m', h1, h2⟩ | ⟨h1, m', h2, h3, h4⟩ | ⟨h1, ⟨m', h2, h3⟩, h4⟩ | ⟨h1, h2, h3⟩
  · rw [h2, h1]; simp
  · rw [h4, h1, h2]
    constructor
    · intro h; cases h
    · rintro ⟨-, ⟨-, m, h, h5⟩ | ⟨-, h⟩⟩
      · cases h; exact absurd h5 h3
      · exact absurd ⟨m', rfl⟩ h
  · rw [h4, h1, h2]
    constructor
    · intro h; cases h; exact ⟨by simp, .inl ⟨rfl, m', rfl, h3⟩⟩
    · rintro ⟨-, ⟨rfl, -⟩ | ⟨-, h⟩⟩
      · rfl
      · exact absurd ⟨m', rfl⟩ h
  · rw [h3, h1, h2]; simp [eq_comm]

/-! ### Writing -/

/-- C74: a message is written in JSON as the canonical text of its document; the boot request with a JSON envelope is not. -/
theorem json_message_written (m : Msg) (b : Bytes) : toWire m .json = .ok b ↔
    (∀ e p, m ≠ .bootStandardJsonEnvelopeRequest e p) ∧ Json.canonBytes (msgJson m) = some b := by
  by_cases hm : ∃ e p, m = .bootStandardJsonEnvelopeRequest e p
  · obtain ⟨e, p, rfl⟩ := hm
    constructor
    · intro h; cases h
    · rintro ⟨h, -⟩; exact absurd rfl (h e p)
  · have hm' : ∀ e p, m ≠ .bootStandardJsonEnvelopeRequest e p := fun e p h => hm ⟨e, p, h⟩
    rw [← message_written m hm']
    have ht : toJson m = Json.canonBytes (JCodec.msg.enc m) := by
      cases m <;> first | rfl | exact absurd rfl (hm' _ _)
    simp only [toWire, ht, orErr]
    cases Json.canonBytes (JCodec.msg.enc m) <;> simp [hm']

theorem phase_enc (p : Phase) : Borsh.phase.enc p = phaseBytes p := by cases p <;> rfl
theorem phase_ok (p : Phase) : Borsh.phase.ok p := by cases p <;> trivial
theorem keyError_enc (e : P256Error) : Borsh.p256Error.enc e = keyErrorBytes e := by
  cases e with
  | qosHex s =>
    show _ :: Borsh.string.enc s = _
    rw [string_enc]; rfl
  | ioError s =>
    show _ :: Borsh.string.enc s = _
    rw [string_enc]; rfl
  | _ => rfl
theorem keyError_ok (e : P256Error) : Borsh.p256Error.ok e ↔ ShortKeyError e := by cases e <;> rfl

theorem texts_enc (x y : String) : (Borsh.pair Borsh.string Borsh.string).enc (x, y) = text x ++ text y := by
  simp [Borsh.pair, string_enc]

theorem error_enc (e : ProtocolError) : Borsh.protocolError.enc e = errorBytes e := by
  cases e with
  | invalidManifestApproval a => exact congrArg (List.cons _) (approval_enc a)
  | noMatchingRoute p => exact congrArg (List.cons _) (phase_enc p)
  | invalidPivotHash x y => exact congrArg (List.cons _) (texts_enc x y)
  | failedToGetEphemeralKey a => exact congrArg (List.cons _) (keyError_enc a)
  | cannotDeleteEphemeralKey a => exact congrArg (List.cons _) (string_enc a)
  | failedToGetQuorumKey a => exact congrArg (List.cons _) (keyError_enc a)
  | appClientConnectError a => exact congrArg (List.cons _) (string_enc a)
  | appClientSendError a => exact congrArg (List.cons _) (string_enc a)
  | appClientError a => exact congrArg (List.cons _) (string_enc a)
  | p256Error a => exact congrArg (List.cons _) (keyError_enc a)
  | invalidP256DRKey a => exact congrArg (List.cons _) (keyError_enc a)
  | qosAttestError a => exact congrArg (List.cons _) (string_enc a)
  | differentQuorumKey x y => exact congrArg (List.cons _) (texts_enc x y)
  | differentManifestSet x y => exact congrArg (List.cons _) (texts_enc x y)
  | differentNamespaceName x y => exact congrArg (List.cons _) (texts_enc x y)
  | lowNonce x y =>
    refine congrArg (List.cons _) ?_
    show Borsh.u32.enc x ++ Borsh.u32.enc y = _
    rw [u32_enc, u32_enc]; rfl
  | differentPcr3 x y => exact congrArg (List.cons _) (texts_enc x y)
  | invalidStateTransition x y =>
    refine congrArg (List.cons _) ?_
    show Borsh.phase.enc x ++ Borsh.phase.enc y = _
    rw [phase_enc, phase_enc]; rfl
  | differentManifest x y => exact congrArg (List.cons _) (texts_enc x y)
  | qosCrypto a => exact congrArg (List.cons _) (string_enc a)
  | invalidPivotEnv a => exact congrArg (List.cons _) (string_enc a)
  | _ => rfl

theorem error_ok (e : ProtocolError) : Borsh.protocolError.ok e ↔ ShortError e := by
  cases e with
  | noMatchingRoute p => exact iff_of_true (phase_ok p) trivial
  | failedToGetEphemeralKey a => exact keyError_ok a
  | failedToGetQuorumKey a => exact keyError_ok a
  | p256Error a => exact keyError_ok a
  | invalidP256DRKey a => exact keyError_ok a
  | lowNonce x y => exact iff_of_true ⟨u32_ok x, u32_ok y⟩ trivial
  | invalidStateTransition x y => exact iff_of_true ⟨phase_ok x, phase_ok y⟩ trivial
  | _ => rfl

theorem numbers_enc (l : List UInt16) : Borsh.setU16.enc l = many (fun (n : UInt16) => two n.toNat) l := vec_enc u16_enc l

theorem digest_enc (e : NsmDigest) : Borsh.nsmDigest.enc e = tagged (digestKind e).2 [] := by cases e <;> rfl
theorem digest_ok (e : NsmDigest) : Borsh.nsmDigest.ok e := by cases e <;> trivial
theorem nsmError_enc (e : NsmErrorCode) : Borsh.nsmErrorCode.enc e = tagged (nsmErrorKind e).2 [] := by cases e <;> rfl
theorem nsmError_ok (e : NsmErrorCode) : Borsh.nsmErrorCode.ok e := by cases e <;> trivial

theorem nsm_enc (x : NsmResponse) : Borsh.nsmResponse.enc x = nsmBytes x := by
  cases x with
  | describePCR l d =>
    refine congrArg (List.cons _) ?_
    show Borsh.bool.enc l ++ Borsh.bytes.enc d = _
    rw [bytes_enc]; rfl
  | extendPCR d => exact congrArg (List.cons _) (bytes_enc d)
  | lockPCR => rfl
  | lockPCRs => rfl
  | describeNSM a b c d e f g =>
    refine congrArg (List.cons _) ?_
    show Borsh.u16.enc a ++ (Borsh.u16.enc b ++ (Borsh.u16.enc c ++ (Borsh.string.enc d ++ (Borsh.u16.enc e ++
      (Borsh.setU16.enc f ++ Borsh.nsmDigest.enc g))))) = nsmBody _ _
    simp only [u16_enc, string_enc, numbers_enc, digest_enc, nsmBody, lockedPcrs, List.append_assoc]
  | attestation d => exact congrArg (List.cons _) (bytes_enc d)
  | getRandom d => exact congrArg (List.cons _) (bytes_enc d)
  | error e => exact congrArg (List.cons _) (nsmError_enc e)

theorem nsm_ok (x : NsmResponse) : Borsh.nsmResponse.ok x ↔ ShortNsmSet x := by
  unfold ShortNsmSet
  cases x with
  | describePCR l d =>
    show (Borsh.bool.ok l ∧ Borsh.bytes.ok d) ↔ _
    simp [bool_ok, bytes_ok, ShortNsm, lockedPcrs]
  | extendPCR d =>
    show Borsh.bytes.ok d ↔ _
    simp [bytes_ok, ShortNsm, lockedPcrs]
  | lockPCR => simp [ShortNsm, lockedPcrs]; trivial
  | lockPCRs => simp [ShortNsm, lockedPcrs]; trivial
  | describeNSM a b c d e f g =>
    show (Borsh.u16.ok a ∧ Borsh.u16.ok b ∧ Borsh.u16.ok c ∧ Borsh.string.ok d ∧ Borsh.u16.ok e ∧
      ((Borsh.vec Borsh.u16).ok f ∧ Borsh.IsSet f) ∧ Borsh.nsmDigest.ok g) ↔ _
    simp only [u16_ok, string_ok, vec_ok (P := fun _ => True) (fun a => iff_of_true (u16_ok a) trivial), digest_ok, ShortNsm, lockedPcrs,
      Borsh.IsSet, ShortList]
    tauto
  | attestation d =>
    show Borsh.bytes.ok d ↔ _
    simp [bytes_ok, ShortNsm, lockedPcrs]
  | getRandom d =>
    show Borsh.bytes.ok d ↔ _
    simp [bytes_ok, ShortNsm, lockedPcrs]
  | error e =>
    show Borsh.nsmErrorCode.ok e ↔ _
    simp [nsmError_ok, ShortNsm, lockedPcrs]

end Qos.Format
