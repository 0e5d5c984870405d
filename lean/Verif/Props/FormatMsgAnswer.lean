import Verif.Props.FormatMsgWire
import Verif.Props.Genesis
import Verif.Props.Scenario
import Verif.Props.Lifecycle
/-!
# C74: messages as Borsh bytes, and the answer to a request
-/
namespace Qos.Format
open Json Services Wire StateMachine

theorem legacy_enc (e : Envelope) : Borsh.envelope.enc e = legacyBytes e := by
  cases e with
  | v2 e => rfl
  | v1 e => exact envelope_enc manifestV1_enc e
  | v0 e => exact envelope_enc manifestV0_enc e

theorem legacy_ok (e : Envelope) : Borsh.envelope.ok e ↔ ShortEnvelope e := by
  cases e with
  | v2 e => exact Iff.rfl
  | v1 e => exact envelope_ok manifestV1_ok e
  | v0 e => exact envelope_ok manifestV0_ok e

theorem jsonEnvelope_enc (e : Envelope) : Borsh.jsonEnvelope.enc e = sized (Json.writeBytes (envelopeJson e)) := by
  rw [← envelope_document e, ← bytes_enc]; rfl

theorem jsonEnvelope_ok (e : Envelope) : Borsh.jsonEnvelope.ok e ↔ e.Ok ∧ Short (Json.writeBytes (envelopeJson e)) := by
  rw [← envelope_document e]; exact Iff.rfl

theorem message_bytes (m : Msg) : Borsh.msg.enc m = msgBytes m := by
  cases m with
  | protocolErrorResponse e => exact congrArg (List.cons _) (error_enc e)
  | statusResponse p => exact congrArg (List.cons _) (phase_enc p)
  | bootStandardRequest e p => exact congrArg (List.cons _) (congrArg₂ (· ++ ·) (legacy_enc e) (bytes_enc p))
  | bootStandardResponse r => exact congrArg (List.cons _) (nsm_enc r)
  | bootGenesisRequest s d => exact congrArg (List.cons _) (congrArg₂ (· ++ ·) (genesisSet_enc s) (option_enc bytes_enc d))
  | bootGenesisResponse r o => exact congrArg (List.cons _) (congrArg₂ (· ++ ·) (nsm_enc r) (genesis_enc o))
  | provisionRequest s a => exact congrArg (List.cons _) (congrArg₂ (· ++ ·) (bytes_enc s) (approval_enc a))
  | provisionResponse b => cases b <;> rfl
  | proxyRequest d => exact congrArg (List.cons _) (bytes_enc d)
  | proxyResponse d => exact congrArg (List.cons _) (bytes_enc d)
  | liveAttestationDocResponse r e => exact congrArg (List.cons _) (congrArg₂ (· ++ ·) (nsm_enc r) (option_enc legacy_enc e))
  | bootKeyForwardRequest e p => exact congrArg (List.cons _) (congrArg₂ (· ++ ·) (legacy_enc e) (bytes_enc p))
  | bootKeyForwardResponse r => exact congrArg (List.cons _) (nsm_enc r)
  | exportKeyRequest e p => exact congrArg (List.cons _) (congrArg₂ (· ++ ·) (legacy_enc e) (bytes_enc p))
  | exportKeyResponse k s => exact congrArg (List.cons _) (congrArg₂ (· ++ ·) (bytes_enc k) (bytes_enc s))
  | injectKeyRequest k s => exact congrArg (List.cons _) (congrArg₂ (· ++ ·) (bytes_enc k) (bytes_enc s))
  | manifestEnvelopeResponse e => exact congrArg (List.cons _) (option_enc legacy_enc e)
  | versionResponse v c => exact congrArg (List.cons _) (texts_enc v c)
  | bootStandardJsonEnvelopeRequest e p => exact congrArg (List.cons _) (congrArg₂ (· ++ ·) (jsonEnvelope_enc e) (bytes_enc p))
  | _ => rfl

theorem message_ok (m : Msg) : Borsh.msg.ok m ↔ ShortMsg m := by
  cases m with
  | protocolErrorResponse e => exact error_ok e
  | statusResponse p => exact iff_of_true (phase_ok p) trivial
  | bootStandardRequest e p => exact and_congr (legacy_ok e) (bytes_ok p)
  | bootStandardResponse r => exact nsm_ok r
  | bootGenesisRequest s d => exact and_congr (genesisSet_ok s) (option_ok bytes_ok d)
  | bootGenesisResponse r o => exact and_congr (nsm_ok r) (genesis_ok o)
  | provisionRequest s a => exact and_congr (bytes_ok s) Iff.rfl
  | provisionResponse b => exact Iff.rfl
  | proxyRequest d => exact bytes_ok d
  | proxyResponse d => exact bytes_ok d
  | liveAttestationDocResponse r e => exact and_congr (nsm_ok r) (option_ok legacy_ok e)
  | bootKeyForwardRequest e p => exact and_congr (legacy_ok e) (bytes_ok p)
  | bootKeyForwardResponse r => exact nsm_ok r
  | exportKeyRequest e p => exact and_congr (legacy_ok e) (bytes_ok p)
  | exportKeyResponse k s => exact and_congr (bytes_ok k) (bytes_ok s)
  | injectKeyRequest k s => exact and_congr (bytes_ok k) (bytes_ok s)
  | manifestEnvelopeResponse e => exact option_ok legacy_ok e
  | versionResponse v c => exact and_congr (string_ok v) (string_ok c)
  | bootStandardJsonEnvelopeRequest e p => exact and_congr (jsonEnvelope_ok e) (bytes_ok p)
  | _ => exact Iff.rfl

/-- C74: a message is written in Borsh as its position and the bytes of its fields, when every length fits; one about a key
ceremony is not. -/
theorem borsh_message_written (m : Msg) (b : Bytes) : toWire m .borsh = .ok b ↔ ¬ m.Genesis ∧ ShortMsg m ∧ b = msgBytes m := by
  rw [← isGenesis_iff, ← message_ok, ← message_bytes]
  by_cases hg : isGenesis m = true
  · simp [toWire, hg]
  · by_cases ho : Borsh.msg.ok m
    · simp [toWire, hg, toBorsh, ho, orErr, eq_comm]
    · simp [toWire, hg, toBorsh, ho, orErr]

/-- C74: a request whose bytes are JSON of a message is answered with the canonical text of the answer's document. -/
theorem json_answered (E : Env) (bs : Bytes) (s : St) (m : Msg) (h : bs.length ≤ 128 * 1024 * 1024) (hj : JsonOf MsgDoc bs m) :
    ∃ r, process E bs s = (some r, (handle E m s).2) ∧ Json.canonBytes (msgJson (handle E m s).1) = some r := by
  obtain ⟨r, h1, h2⟩ := process_json E bs s h m ((message_read_json bs m).mpr hj)
  exact ⟨r, h1, ((json_message_written _ _).mp h2).2⟩

/-- The text of a refusal. -/
theorem refusal_text (e : ProtocolError) : errorAnswer e = Json.canonBytes (msgJson (.protocolErrorResponse e)) := by
  have h := json_message_written (.protocolErrorResponse e)
  obtain ⟨r, h1, -⟩ := errorAnswer_reads e
  have h2 : toWire (.protocolErrorResponse e) .json = .ok r := by
    have : toJson (.protocolErrorResponse e) = some r := h1
    simp only [toWire, this, orErr]
  rw [h1]; exact (((h r).mp h2).2).symm

/-- C74: a request whose bytes are Borsh of a message is answered with the bytes of the answer, and where the answer has none with
the text of the error for an invalid message. -/
theorem borsh_answered (E : Env) (bs : Bytes) (s : St) (m : Msg) (h : bs.length ≤ 128 * 1024 * 1024)
    (hn : ¬ ∃ m', JsonOf MsgDoc bs m') (hb : MsgForm bs m) (hg : ¬ m.Genesis) :
    (process E bs s).2 = (handle E m s).2 ∧
    ((¬ (handle E m s).1.Genesis ∧ ShortMsg (handle E m s).1 ∧ (process E bs s).1 = some (msgBytes (handle E m s).1)) ∨
     (¬ (¬ (handle E m s).1.Genesis ∧ ShortMsg (handle E m s).1) ∧
        (process E bs s).1 = Json.canonBytes (msgJson (.protocolErrorResponse .invalidMsg)))) := by
  have hf := (message_read_borsh bs m).mpr ⟨hn, hb, hg⟩
  have hp : process E bs s = (answer (handle E m s).1 .borsh, (handle E m s).2) := by
    unfold process
    rw [if_neg (show ¬ bs.length > maxEncodedMsgLen from Nat.not_lt.mpr h), hf]
  rw [hp]
  refine ⟨rfl, ?_⟩
  cases hw : toWire (handle E m s).1 .borsh with
  | ok r =>
    obtain ⟨h1, h2, h3⟩ := (borsh_message_written _ _).mp hw
    exact Or.inl ⟨h1, h2, by simp only [answer, hw, h3]⟩
  | error e =>
    refine Or.inr ⟨fun hh => ?_, by simp only [answer, hw, refusal_text]⟩
    have := (borsh_message_written _ _).mpr ⟨hh.1, hh.2, rfl⟩
    rw [hw] at this; cases this

/-- C74: bytes that are neither are answered with the text of the refusal, and the enclave is not touched. -/
theorem refused_answered (E : Env) (bs : Bytes) (s : St) (h : bs.length ≤ 128 * 1024 * 1024)
    (hn : ¬ ∃ m', JsonOf MsgDoc bs m') (hb : ¬ ∃ m, MsgForm bs m ∧ ¬ m.Genesis) :
    ∃ e, (e = .legacyGenesisNotSupported ∧ (∃ m, MsgForm bs m) ∨ e = .protocolMsgDeserialization ∧ ¬ ∃ m, MsgForm bs m) ∧
      process E bs s = (Json.canonBytes (msgJson (.protocolErrorResponse e)), s) := by
  have : ∀ e, fromWire bs = .error e → process E bs s = (Json.canonBytes (msgJson (.protocolErrorResponse e)), s) := by
    intro e he
    unfold process
    rw [if_neg (show ¬ bs.length > maxEncodedMsgLen from Nat.not_lt.mpr h), he]
    simp only [refusal_text]
  by_cases hm : ∃ m, MsgForm bs m
  · obtain ⟨m, hm'⟩ := hm
    have hg : m.Genesis := Classical.byContradiction fun hg => hb ⟨m, hm', hg⟩
    exact ⟨_, Or.inl ⟨rfl, m, hm'⟩, this _ ((message_refused bs _).mpr ⟨hn, Or.inl ⟨rfl, m, hm', hg⟩⟩)⟩
  · exact ⟨_, Or.inr ⟨rfl, hm⟩, this _ ((message_refused bs _).mpr ⟨hn, Or.inr ⟨rfl, hm⟩⟩)⟩

/-- C74: input above 128 MiB is answered with the text of that error. -/
theorem oversized_answered (E : Env) (bs : Bytes) (s : St) (h : bs.length > 128 * 1024 * 1024) :
    process E bs s = (Json.canonBytes (msgJson (.protocolErrorResponse .oversizedPayload)), s) := by
  unfold process
  rw [if_pos (show bs.length > maxEncodedMsgLen from h), refusal_text]

/-- The text a message is read from, from the text it is written as. -/
theorem json_text {m : Msg} {b : Bytes} (hok : JCodec.msg.ok m) (h : Json.canonBytes (msgJson m) = some b) : JsonOf MsgDoc b m := by
  obtain ⟨b', h1, h2⟩ := fromWire_json m hok
  have h3 := ((json_message_written m b').mp h1).2
  rw [h] at h3; cases h3
  exact (message_read_json b m).mp h2

/-! ### What the documents look like -/

example : MsgDoc (.str "statusRequest") .statusRequest := (message_document _ _).mp (by rfl)
example : MsgDoc (.obj [("proxyRequest", .obj [("data", .str "0102")])]) (.proxyRequest [1, 2]) := (message_document _ _).mp (by rfl)
/-- Numbers are read from a number or from its digits in a string, fields in any order; an unknown field is passed over. -/
example : MsgDoc (.obj [("protocolErrorResponse", .obj [("LowNonce", .obj [("actual", .str "4"), ("expected", .int 3), ("x", .null)])])])
    (.protocolErrorResponse (.lowNonce 3 4)) := (message_document _ _).mp (by rfl)
example : MsgDoc (.obj [("bootGenesisRequest", .obj [("set", .obj [("members", .arr []), ("threshold", .int 1)])])])
    (.bootGenesisRequest ⟨[], 1⟩ none) := (message_document _ _).mp (by rfl)
/-- The old name of a phase is read too. -/
example : MsgDoc (.obj [("statusResponse", .str "waitingForForwardedKey")]) (.statusResponse .waitingForForwardedKey) :=
  (message_document _ _).mp (by rfl)
example : ¬ ∃ m, MsgDoc (.str "StatusRequest") m := fun ⟨m, h⟩ => by
  have h1 : JCodec.msg.dec (.str "StatusRequest") = none := by rfl
  rw [(message_document _ _).mpr h] at h1; cases h1
example : ¬ ∃ m, MsgDoc (.obj [("proxyRequest", .obj [("data", .str "012")])]) m := fun ⟨m, h⟩ => by
  have h1 : JCodec.msg.dec (.obj [("proxyRequest", .obj [("data", .str "012")])]) = none := by rfl
  rw [(message_document _ _).mpr h] at h1; cases h1

/-- The text of a request and of an answer. -/
example : JsonOf MsgDoc (utf8 "{\"proxyRequest\":{\"data\":\"0102\"}}") (.proxyRequest [1, 2]) :=
  json_text (m := .proxyRequest [1, 2]) (show 2 * 2 < Hex.strMaxLength by decide) (by decide +kernel)
example : toWire (.versionResponse "v1" "c") .json = .ok (utf8 "{\"versionResponse\":{\"commit\":\"c\",\"version\":\"v1\"}}") :=
  (json_message_written _ _).mpr ⟨fun _ _ h => (nomatch h), by decide +kernel⟩
example : toWire (.protocolErrorResponse (.lowNonce 3 4)) .json =
    .ok (utf8 "{\"protocolErrorResponse\":{\"LowNonce\":{\"actual\":\"4\",\"expected\":\"3\"}}}") :=
  (json_message_written _ _).mpr ⟨fun _ _ h => (nomatch h), by decide +kernel⟩
example : toWire (.bootStandardResponse (.describeNSM 1 2 3 "m" 32 [0, 3] .sha384)) .borsh =
    .ok [4, 4, 1, 0, 2, 0, 3, 0, 1, 0, 0, 0, 109, 32, 0, 2, 0, 0, 0, 0, 0, 3, 0, 1] :=
  (borsh_message_written _ _).mpr ⟨(by rintro (⟨_, _, h⟩ | ⟨_, _, h⟩) <;> cases h),
    ⟨(by show ShortText "m"; unfold ShortText; decide), by simp [lockedPcrs], by simp [lockedPcrs]⟩, by decide +kernel⟩

/-- Bytes that begin a message in Borsh are not JSON. -/
theorem tag_not_json (t : UInt8) (b : Bytes) (ht : Json.parse (t :: b) = none) : ¬ ∃ m, JsonOf MsgDoc (t :: b) m :=
  fun ⟨_, v, h, _⟩ => by rw [ht] at h; cases h

/-- One byte asks for the status. -/
example : fromWire [1] = .ok (.statusRequest, .borsh) :=
  (message_read_borsh _ _).mpr ⟨tag_not_json 1 [] (by decide +kernel), ⟨[], rfl, rfl, trivial⟩,
    (by rintro (⟨_, _, h⟩ | ⟨_, _, h⟩) <;> cases h)⟩
example (E : Env) (s : St) : (process E [1] s).1 = some (msgBytes (.statusResponse s.phase)) := by
  have hf : fromWire [1] = .ok (.statusRequest, .borsh) :=
    (message_read_borsh _ _).mpr ⟨tag_not_json 1 [] (by decide +kernel), ⟨[], rfl, rfl, trivial⟩,
      (by rintro (⟨_, _, h⟩ | ⟨_, _, h⟩) <;> cases h)⟩
  obtain ⟨h1, h2, h3⟩ := (message_read_borsh _ _).mp hf
  have hs : (handle E .statusRequest s).1 = .statusResponse s.phase := by rw [Lifecycle.status_reports_phase]
  rcases (borsh_answered E [1] s .statusRequest (by decide) h1 h2 h3).2 with ⟨-, -, h⟩ | ⟨h, -⟩
  · rw [h, hs]
  · rw [hs] at h
    exact absurd ⟨(by rintro (⟨_, _, h⟩ | ⟨_, _, h⟩) <;> cases h), trivial⟩ h
example (E : Env) (s : St) : process E [24] s =
    (some (utf8 "{\"protocolErrorResponse\":\"ProtocolMsgDeserialization\"}"), s) := by
  have hf : ¬ ∃ m, MsgForm [24] m := by
    rintro ⟨m, body, h, -⟩
    have : m.kind.2 < 24 := by cases m <;> simp [Msg.kind]
    have h2 := (List.cons.inj h).1
    have h3 := congrArg UInt8.toNat h2
    rw [UInt8.toNat_ofNat_of_lt' (by show m.kind.2 < 256; omega)] at h3
    have h4 : (24 : UInt8).toNat = 24 := rfl
    omega
  obtain ⟨e, (⟨-, h⟩ | ⟨rfl, -⟩), h2⟩ := refused_answered E [24] s (by decide) (tag_not_json 24 [] (by decide +kernel)) fun ⟨m, h, _⟩ => hf ⟨m, h⟩
  · exact absurd h hf
  · rw [h2]; exact congrArg (·, s) (by decide +kernel)

/-! ### The output of a key ceremony -/

/-- C74: the attestation document of a key ceremony carries the hash of the bytes that stand for its output. -/
theorem genesis_hash {E : Env} {fs0 : Files} {h : List (Msg × Msg)} {s : St} {pki : MockNsm.Pki} {start : MockNsm.State}
    (H : History E fs0 h s) (hd : HonestDevice E pki start) (hp : s.phase = .waitingForBootInstruction) {set : GenesisSet}
    {drKey : Option Bytes} {resp : NsmResponse} {out : GenesisOutput}
    (hr : (handle E (.bootGenesisRequest set drKey) s).1 = .bootGenesisResponse resp out) :
    ∃ doc : AttestationDoc, resp = .attestation (pki.signDoc doc) ∧ doc.userData = some (E.prims.sha256 (genesisBytes out)) := by
  obtain ⟨doc, h1, h2, -⟩ := genesis_attested H hd hp hr
  exact ⟨doc, h1, by rw [h2, genesis_enc]⟩

/-- A fresh enclave on an honest device holds such a ceremony. -/
example : ∃ doc out, (handle toyEnv (.bootGenesisRequest toySet (some (toyMember 9).pubKey)) (St.initial noFiles)).1 =
    .bootGenesisResponse (.attestation (MockNsm.toyPki.signDoc doc)) out ∧
    doc.userData = some (toyEnv.prims.sha256 (genesisBytes out)) := by
  obtain ⟨resp, out, _, _, h, _⟩ := toy_ceremony
  obtain ⟨doc, rfl, h2⟩ := genesis_hash (History.start toyEnv_ok toy_fresh) toy_device rfl h
  exact ⟨doc, out, h, h2⟩

end Qos.Format
