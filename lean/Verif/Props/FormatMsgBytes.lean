import Verif.Props.FormatMsg
/-!
# C74: the bytes of the protocol messages
-/
namespace Qos.Format
open Json Services Wire

/-! ### Written JSON -/

theorem phase_write (p : Phase) : JCodec.phase.enc p = phaseJson p := by cases p <;> rfl
theorem nsmError_write (e : NsmErrorCode) : JCodec.nsmErrorCode.enc e = .str (nsmErrorKind e).1 := by cases e <;> rfl
theorem digest_write (e : NsmDigest) : JCodec.nsmDigest.enc e = .str (digestKind e).1 := by cases e <;> rfl
theorem numbers_write (l : List UInt16) : JCodec.setU16.enc l = list (fun (n : UInt16) => .int n.toNat) l := rfl
theorem longDigest_write (b : Bytes) : (JCodec.hexArray 64).enc b = hex b := by simp only [JCodec.hexArray, hex, hex_text]

theorem nsm_write (r : NsmResponse) : JCodec.nsmResponse.enc r = nsmJson r := by
  cases r with
  | describePCR l d =>
    show Json.obj [("describePCR", _)] = Json.obj [("describePCR", _)]
    simp [JCodec.struct, Fields.both, Fields.req, JCodec.bool, hexVec_enc]
  | extendPCR d =>
    show Json.obj [("extendPCR", _)] = Json.obj [("extendPCR", _)]
    simp [JCodec.struct, Fields.req, hexVec_enc]
  | lockPCR => rfl
  | lockPCRs => rfl
  | describeNSM a b c d e f g =>
    show Json.obj [("describeNSM", _)] = Json.obj [("describeNSM", _)]
    simp [JCodec.struct, Fields.both, Fields.req, digest_write, numbers_write, JCodec.string, JCodec.u16, JCodec.imap, JCodec.stringOrNumeric]
  | attestation d =>
    show Json.obj [("attestation", _)] = Json.obj [("attestation", _)]
    simp [JCodec.struct, Fields.req, hexVec_enc]
  | getRandom d =>
    show Json.obj [("getRandom", _)] = Json.obj [("getRandom", _)]
    simp [JCodec.struct, Fields.req, hexVec_enc]
  | error e =>
    show Json.obj [("error", _)] = Json.obj [("error", _)]
    simp [nsmError_write]

theorem keyError_write (e : P256Error) : JCodec.p256Error.enc e = keyErrorJson e := by cases e <;> rfl

theorem error_write (e : ProtocolError) : JCodec.protocolError.enc e = errorJson e := by
  cases e with
  | invalidManifestApproval a =>
    show Json.obj [("InvalidManifestApproval", _)] = Json.obj [("InvalidManifestApproval", _)]
    rw [approval_write]
  | noMatchingRoute p =>
    show Json.obj [("NoMatchingRoute", _)] = Json.obj [("NoMatchingRoute", _)]
    rw [phase_write]
  | failedToGetEphemeralKey p =>
    show Json.obj [("FailedToGetEphemeralKey", _)] = Json.obj [("FailedToGetEphemeralKey", _)]
    rw [keyError_write]
  | failedToGetQuorumKey p =>
    show Json.obj [("FailedToGetQuorumKey", _)] = Json.obj [("FailedToGetQuorumKey", _)]
    rw [keyError_write]
  | p256Error p =>
    show Json.obj [("P256Error", _)] = Json.obj [("P256Error", _)]
    rw [keyError_write]
  | invalidP256DRKey p =>
    show Json.obj [("InvalidP256DRKey", _)] = Json.obj [("InvalidP256DRKey", _)]
    rw [keyError_write]
  | invalidStateTransition p q =>
    show Json.obj [("InvalidStateTransition", .arr [JCodec.phase.enc p, JCodec.phase.enc q])] =
      Json.obj [("InvalidStateTransition", _)]
    rw [phase_write, phase_write]
  | _ => rfl

theorem genesisSet_write (s : GenesisSet) : JCodec.genesisSet.enc s = genesisSetJson s := by
  simp [JCodec.genesisSet, JCodec.struct, Fields.imap, Fields.both, Fields.req, u32_write, vec_write member_write, genesisSetJson]

theorem memberOutput_write (o : MemberOutput) : JCodec.memberOutput.enc o = memberOutputJson o := by
  simp [JCodec.memberOutput, JCodec.struct, Fields.imap, Fields.both, Fields.req, member_write, hexVec_enc, longDigest_write,
    memberOutputJson]

theorem shard_write (o : MemberShard) : JCodec.memberShard.enc o = shardJson o := by
  simp [JCodec.memberShard, JCodec.struct, Fields.imap, Fields.both, Fields.req, member_write, hexVec_enc, shardJson]

theorem may_write {α : Type} {k : String} {c : JCodec α} {f : α → Json} (h : ∀ a, c.enc a = f a) (o : Option α) :
    (Fields.opt k c).enc o = may k f o := by
  cases o <;> simp [Fields.opt, may, h]

theorem genesis_write (o : GenesisOutput) : JCodec.genesisOutput.enc o = genesisJson o := by
  simp [JCodec.genesisOutput, JCodec.struct, Fields.imap, Fields.both, Fields.req, genesisSet_write, may_write hexVec_enc,
    hexVec_enc, vec_write memberOutput_write, vec_write (vec_write shard_write), longDigest_write, genesisJson]

theorem envelope_write (e : Envelope) : JCodec.envelope.enc e = envelopeJson e := envelope_document e

/-- C74: the document a message is written as. -/
theorem message_written (m : Msg) (hm : ∀ e p, m ≠ .bootStandardJsonEnvelopeRequest e p) : JCodec.msg.enc m = msgJson m := by
  cases m with
  | protocolErrorResponse e =>
    show Json.obj [("protocolErrorResponse", _)] = Json.obj [("protocolErrorResponse", _)]
    rw [error_write]
  | statusResponse p =>
    show Json.obj [("statusResponse", _)] = Json.obj [("statusResponse", _)]
    rw [phase_write]
  | bootStandardRequest e p =>
    show Json.obj [("bootStandardRequest", _)] = Json.obj [("bootStandardRequest", _)]
    simp [JCodec.struct, Fields.both, Fields.req, hexVec_enc, envelope_write]
  | bootStandardResponse r =>
    show Json.obj [("bootStandardResponse", _)] = Json.obj [("bootStandardResponse", _)]
    simp [JCodec.struct, Fields.req, nsm_write]
  | bootGenesisRequest s k =>
    show Json.obj [("bootGenesisRequest", _)] = Json.obj [("bootGenesisRequest", _)]
    simp [JCodec.struct, Fields.both, Fields.req, genesisSet_write, may_write hexVec_enc]
  | bootGenesisResponse r o =>
    show Json.obj [("bootGenesisResponse", _)] = Json.obj [("bootGenesisResponse", _)]
    simp [JCodec.struct, Fields.both, Fields.req, nsm_write, genesis_write]
  | provisionRequest s a =>
    show Json.obj [("provisionRequest", _)] = Json.obj [("provisionRequest", _)]
    simp [JCodec.struct, Fields.both, Fields.req, hexVec_enc, approval_write]
  | provisionResponse b => rfl
  | proxyRequest d =>
    show Json.obj [("proxyRequest", _)] = Json.obj [("proxyRequest", _)]
    simp [JCodec.struct, Fields.req, hexVec_enc]
  | proxyResponse d =>
    show Json.obj [("proxyResponse", _)] = Json.obj [("proxyResponse", _)]
    simp [JCodec.struct, Fields.req, hexVec_enc]
  | liveAttestationDocResponse r e =>
    show Json.obj [("liveAttestationDocResponse", _)] = Json.obj [("liveAttestationDocResponse", _)]
    simp [JCodec.struct, Fields.both, Fields.req, nsm_write, may_write envelope_write]
  | bootKeyForwardRequest e p =>
    show Json.obj [("bootKeyForwardRequest", _)] = Json.obj [("bootKeyForwardRequest", _)]
    simp [JCodec.struct, Fields.both, Fields.req, hexVec_enc, envelope_write]
  | bootKeyForwardResponse r =>
    show Json.obj [("bootKeyForwardResponse", _)] = Json.obj [("bootKeyForwardResponse", _)]
    simp [JCodec.struct, Fields.req, nsm_write]
  | exportKeyRequest e p =>
    show Json.obj [("exportKeyRequest", _)] = Json.obj [("exportKeyRequest", _)]
    simp [JCodec.struct, Fields.both, Fields.req, hexVec_enc, envelope_write]
  | exportKeyResponse e p =>
    show Json.obj [("exportKeyResponse", _)] = Json.obj [("exportKeyResponse", _)]
    simp [JCodec.struct, Fields.both, Fields.req, hexVec_enc]
  | injectKeyRequest e p =>
    show Json.obj [("injectKeyRequest", _)] = Json.obj [("injectKeyRequest", _)]
    simp [JCodec.struct, Fields.both, Fields.req, hexVec_enc]
  | manifestEnvelopeResponse e =>
    show Json.obj [("manifestEnvelopeResponse", _)] = Json.obj [("manifestEnvelopeResponse", _)]
    simp [JCodec.struct, may_write envelope_write]
  | versionResponse a b => rfl
  | bootStandardJsonEnvelopeRequest e p => exact absurd rfl (hm e p)
  | _ => rfl

/-! ### Borsh -/

theorem exact_string (r : Bytes) : Exact Borsh.string (fun b s => b = text s ∧ ShortText s) r :=
  exact_lawful Borsh.lawful_string string_enc string_ok r
theorem exact_bytes (r : Bytes) : Exact Borsh.bytes (fun b s => b = sized s ∧ Short s) r :=
  exact_lawful Borsh.lawful_bytes bytes_enc bytes_ok r
theorem exact_u16 (r : Bytes) : Exact Borsh.u16 (fun b n => b = two n.toNat ∧ True) r :=
  exact_lawful Borsh.lawful_u16 u16_enc (fun n => iff_true_intro (u16_ok n)) r
theorem exact_u32 (r : Bytes) : Exact Borsh.u32 (fun b n => b = four n.toNat ∧ True) r :=
  exact_lawful Borsh.lawful_u32 u32_enc (fun n => iff_true_intro (u32_ok n)) r
theorem exact_bool (r : Bytes) : Exact Borsh.bool (fun b n => b = flagBytes n ∧ True) r :=
  exact_lawful Borsh.lawful_bool (fun _ => rfl) (fun n => iff_true_intro (bool_ok n)) r
theorem exact_approval (r : Bytes) : Exact Borsh.approval (fun b a => b = approvalBytes a ∧ ShortApproval a) r :=
  exact_lawful Borsh.lawful_approval approval_enc (fun _ => Iff.rfl) r

theorem exact_numbers (r : Bytes) : Exact Borsh.setU16 (fun b set =>
    ∃ given, b = many (fun (n : UInt16) => two n.toNat) given ∧ given.length < 2 ^ 32 ∧ SetOf given set) r := by
  have h := exact_lawful (Borsh.lawful_vec Borsh.lawful_u16) (vec_enc u16_enc)
    (vec_ok (P := fun _ => True) fun n => iff_true_intro (u16_ok n)) r
  intro bs set
  simp only [Borsh.setU16]
  constructor
  · intro hd
    cases h1 : (Borsh.vec Borsh.u16).dec bs with
    | none => rw [h1] at hd; cases hd
    | some lr =>
      rw [h1] at hd
      simp only [Option.some.injEq, Prod.mk.injEq] at hd
      obtain ⟨l, r'⟩ := lr
      obtain ⟨h2, rfl⟩ := hd
      obtain ⟨b, rfl, h3, h4⟩ := (h bs l).mp h1
      exact ⟨b, rfl, l, h3, h4.1, sortSet_iff.mp h2⟩
  · rintro ⟨b, rfl, given, rfl, h2, h3⟩
    rw [(h _ given).mpr ⟨_, rfl, rfl, h2, by simp⟩]
    simp only [sortSet_iff.mpr h3]

theorem exact_phase (r : Bytes) : Exact Borsh.phase (fun b p => b = phaseBytes p) r := by
  refine exact_congr ?_ (exact_enum (pos := fun p => (phaseKind p).2) (F := fun b _ => b = []) ?_ ?_ (by decide))
  · intro b a; simp [phaseBytes]
  · refine ⟨?_, ?_, ?_, ?_, ?_, ?_, trivial⟩ <;> exact givesB_unit rfl rfl
  · intro a
    cases a <;> exact ⟨_, rfl, takesB_unit fun _ h => h⟩

theorem exact_nsmError (r : Bytes) : Exact Borsh.nsmErrorCode (fun b e => b = tagged (nsmErrorKind e).2 []) r := by
  refine exact_congr ?_ (exact_enum (pos := fun p => (nsmErrorKind p).2) (F := fun b _ => b = []) ?_ ?_ (by decide))
  · intro b a; simp
  · refine ⟨?_, ?_, ?_, ?_, ?_, ?_, ?_, ?_, ?_, trivial⟩ <;> exact givesB_unit rfl rfl
  · intro a
    cases a <;> exact ⟨_, rfl, takesB_unit fun _ h => h⟩

theorem exact_digest (r : Bytes) : Exact Borsh.nsmDigest (fun b e => b = tagged (digestKind e).2 []) r := by
  refine exact_congr ?_ (exact_enum (pos := fun p => (digestKind p).2) (F := fun b _ => b = []) ?_ ?_ (by decide))
  · intro b a; simp
  · refine ⟨?_, ?_, ?_, trivial⟩ <;> exact givesB_unit rfl rfl
  · intro a
    cases a <;> exact ⟨_, rfl, takesB_unit fun _ h => h⟩

theorem exact_keyError (r : Bytes) : Exact Borsh.p256Error (fun b e => b = keyErrorBytes e ∧ ShortKeyError e) r := by
  refine exact_congr ?_ (exact_enum (pos := fun p => (keyErrorKind p).2)
    (F := fun b e => tagged (keyErrorKind e).2 b = keyErrorBytes e ∧ ShortKeyError e) ?_ ?_ (by decide))
  · intro b a
    constructor
    · rintro ⟨x, rfl, h⟩; exact h
    · rintro ⟨rfl, h⟩; exact ⟨_, rfl, rfl, h⟩
  · repeat' (first | exact trivial | exact givesB_unit rfl ⟨rfl, trivial⟩ | (refine givesB_data (exact_string r) (fun _ => rfl) ?_; rintro x b ⟨rfl, h⟩; exact ⟨rfl, h⟩) | refine And.intro ?_ ?_)
  · intro a
    cases a with
    | qosHex s =>
      refine ⟨_, rfl, takesB_data (exact_string r) s rfl ?_⟩
      rintro x ⟨h, h2⟩
      exact ⟨(List.cons.inj h).2, h2⟩
    | ioError s =>
      refine ⟨_, rfl, takesB_data (exact_string r) s rfl ?_⟩
      rintro x ⟨h, h2⟩
      exact ⟨(List.cons.inj h).2, h2⟩
    | _ => exact ⟨_, rfl, takesB_unit fun _ h => (List.cons.inj h.1).2⟩

theorem exact_texts (r : Bytes) : Exact (Borsh.pair Borsh.string Borsh.string)
    (fun b x => b = text x.1 ++ text x.2 ∧ ShortText x.1 ∧ ShortText x.2) r := by
  refine exact_congr ?_ (exact_pair exact_string (exact_string r))
  rintro b ⟨x, y⟩
  constructor
  · rintro ⟨_, _, rfl, ⟨rfl, h1⟩, rfl, h2⟩; exact ⟨rfl, h1, h2⟩
  · rintro ⟨rfl, h1, h2⟩; exact ⟨_, _, rfl, ⟨rfl, h1⟩, rfl, h2⟩

theorem exact_nonces (r : Bytes) : Exact (Borsh.pair Borsh.u32 Borsh.u32) (fun b x => b = four x.1.toNat ++ four x.2.toNat) r := by
  refine exact_congr ?_ (exact_pair exact_u32 (exact_u32 r))
  rintro b ⟨x, y⟩
  constructor
  · rintro ⟨_, _, rfl, ⟨rfl, h1⟩, rfl, h2⟩; rfl
  · rintro rfl; exact ⟨_, _, rfl, ⟨rfl, trivial⟩, rfl, trivial⟩

theorem exact_phases (r : Bytes) : Exact (Borsh.pair Borsh.phase Borsh.phase) (fun b x => b = phaseBytes x.1 ++ phaseBytes x.2) r := by
  refine exact_congr ?_ (exact_pair exact_phase (exact_phase r))
  rintro b ⟨x, y⟩
  constructor
  · rintro ⟨_, _, rfl, rfl, rfl⟩; rfl
  · rintro rfl; exact ⟨_, _, rfl, rfl, rfl⟩

theorem exact_blobs (r : Bytes) : Exact (Borsh.pair Borsh.bytes Borsh.bytes)
    (fun b x => b = sized x.1 ++ sized x.2 ∧ Short x.1 ∧ Short x.2) r := by
  refine exact_congr ?_ (exact_pair exact_bytes (exact_bytes r))
  rintro b ⟨x, y⟩
  constructor
  · rintro ⟨_, _, rfl, ⟨rfl, h1⟩, rfl, h2⟩; exact ⟨rfl, h1, h2⟩
  · rintro ⟨rfl, h1, h2⟩; exact ⟨_, _, rfl, ⟨rfl, h1⟩, rfl, h2⟩

theorem exact_error (r : Bytes) : Exact Borsh.protocolError (fun b e => b = errorBytes e ∧ ShortError e) r := by
  refine exact_congr ?_ (exact_enum (pos := fun p => (errorKind p).2) (F := fun b e => b = errorBody e ∧ ShortError e) ?_ ?_
    (by decide))
  · intro b a
    constructor
    · rintro ⟨x, rfl, rfl, h⟩; exact ⟨rfl, h⟩
    · rintro ⟨rfl, h⟩; exact ⟨_, rfl, rfl, h⟩
  · repeat' (first | exact trivial | exact givesB_unit rfl ⟨rfl, trivial⟩ | exact givesB_data (exact_string r) (fun _ => rfl) (fun _ _ h => h) | exact givesB_data (exact_keyError r) (fun _ => rfl) (fun _ _ h => h) | exact givesB_data (exact_texts r) (fun _ => rfl) (fun _ _ h => h) | exact givesB_data (exact_approval r) (fun _ => rfl) (fun _ _ h => h) | exact givesB_data (exact_phase r) (fun _ => rfl) (fun _ _ h => ⟨h, trivial⟩) | exact givesB_data (exact_nonces r) (fun _ => rfl) (fun _ _ h => ⟨h, trivial⟩) | exact givesB_data (exact_phases r) (fun _ => rfl) (fun _ _ h => ⟨h, trivial⟩) | refine And.intro ?_ ?_)
  · intro a
    cases a with
    | invalidManifestApproval x => exact ⟨_, rfl, takesB_data (exact_approval r) x rfl fun _ h => h⟩
    | noMatchingRoute x => exact ⟨_, rfl, takesB_data (exact_phase r) x rfl fun _ h => h.1⟩
    | invalidPivotHash x y => exact ⟨_, rfl, takesB_data (exact_texts r) (x, y) rfl fun _ h => h⟩
    | failedToGetEphemeralKey x => exact ⟨_, rfl, takesB_data (exact_keyError r) x rfl fun _ h => h⟩
    | cannotDeleteEphemeralKey x => exact ⟨_, rfl, takesB_data (exact_string r) x rfl fun _ h => h⟩
    | failedToGetQuorumKey x => exact ⟨_, rfl, takesB_data (exact_keyError r) x rfl fun _ h => h⟩
    | appClientConnectError x => exact ⟨_, rfl, takesB_data (exact_string r) x rfl fun _ h => h⟩
    | appClientSendError x => exact ⟨_, rfl, takesB_data (exact_string r) x rfl fun _ h => h⟩
    | appClientError x => exact ⟨_, rfl, takesB_data (exact_string r) x rfl fun _ h => h⟩
    | p256Error x => exact ⟨_, rfl, takesB_data (exact_keyError r) x rfl fun _ h => h⟩
    | invalidP256DRKey x => exact ⟨_, rfl, takesB_data (exact_keyError r) x rfl fun _ h => h⟩
    | qosAttestError x => exact ⟨_, rfl, takesB_data (exact_string r) x rfl fun _ h => h⟩
    | differentQuorumKey x y => exact ⟨_, rfl, takesB_data (exact_texts r) (x, y) rfl fun _ h => h⟩
    | differentManifestSet x y => exact ⟨_, rfl, takesB_data (exact_texts r) (x, y) rfl fun _ h => h⟩
    | differentNamespaceName x y => exact ⟨_, rfl, takesB_data (exact_texts r) (x, y) rfl fun _ h => h⟩
    | lowNonce x y => exact ⟨_, rfl, takesB_data (exact_nonces r) (x, y) rfl fun _ h => h.1⟩
    | differentPcr3 x y => exact ⟨_, rfl, takesB_data (exact_texts r) (x, y) rfl fun _ h => h⟩
    | invalidStateTransition x y => exact ⟨_, rfl, takesB_data (exact_phases r) (x, y) rfl fun _ h => h.1⟩
    | differentManifest x y => exact ⟨_, rfl, takesB_data (exact_texts r) (x, y) rfl fun _ h => h⟩
    | qosCrypto x => exact ⟨_, rfl, takesB_data (exact_string r) x rfl fun _ h => h⟩
    | invalidPivotEnv x => exact ⟨_, rfl, takesB_data (exact_string r) x rfl fun _ h => h⟩
    | _ => exact ⟨_, rfl, takesB_unit fun _ h => h.1⟩

end Qos.Format
