import Verif.Props.ClientDeploy
import Verif.Props.Forward
import Verif.Spec.ClientForward
/-!
# C57: handing the quorum key to a new enclave with the operators' commands

`boot-key-fwd` at the new enclave, `export-key` at the old one, `inject-key` at the new one.

Concrete cases: `toy_forwarding` in `Props/ClientForwardToy.lean` meets all hypotheses at once.
-/
namespace Qos.Client
open P256 (Pair Public)
open Wire Host StateMachine Lifecycle
variable {S : Type} {E E' : Env} {C C' : Setting St} {pki : MockNsm.Pki} {start : MockNsm.State} {fs0 fs0' : Files}
  {h h' : List (Msg × Msg)} {s s' : St}

/-! ## Sizes -/

theorem bootKeyForwardResponse_fits (doc : Bytes) (hd : doc.length ≤ 1024 * 1024) :
    Fits (.bootKeyForwardResponse (.attestation doc)) := by
  have hx : Json.extent (JCodec.msg.enc (.bootKeyForwardResponse (.attestation doc))) ≤ 1000 + 12 * doc.length := by
    have : JCodec.msg.enc (.bootKeyForwardResponse (.attestation doc)) =
      .obj [("bootKeyForwardResponse", .obj [("nsm_response", .obj [("attestation", .obj [("document", JCodec.hexVec.enc doc)])])])] := rfl
    rw [this]
    extents
    have h1 : "bootKeyForwardResponse".toList.length = 22 := by decide
    omega
  refine fits_small (by rintro _ _ ⟨⟩) ?_ (Nat.le_trans (Json.length_canonical _) (Nat.le_trans hx (by omega)))
  show 2 * doc.length < Hex.strMaxLength
  rw [show Hex.strMaxLength = 256 * 1024 * 1024 from rfl]
  omega

theorem hexVec_ok' {b : Bytes} (h : b.length ≤ 1024 * 1024) : JCodec.hexVec.ok b := by
  show 2 * b.length < Hex.strMaxLength
  rw [show Hex.strMaxLength = 256 * 1024 * 1024 from rfl]
  omega

theorem exportKeyResponse_fits {ct sig : Bytes} (h1 : ct.length ≤ 1024) (h2 : sig.length ≤ 1024) :
    Fits (.exportKeyResponse ct sig) := by
  have hx : Json.extent (JCodec.msg.enc (.exportKeyResponse ct sig)) ≤ 1000 + 12 * ct.length + 12 * sig.length := by
    have : JCodec.msg.enc (.exportKeyResponse ct sig) =
      .obj [("exportKeyResponse", .obj [("encrypted_quorum_key", JCodec.hexVec.enc ct), ("signature", JCodec.hexVec.enc sig)])] := rfl
    rw [this]
    extents
    have h1 : "exportKeyResponse".toList.length = 17 := by decide
    have h2 : "encrypted_quorum_key".toList.length = 20 := by decide
    have h3 : "signature".toList.length = 9 := by decide
    omega
  exact fits_small (by rintro _ _ ⟨⟩) ⟨hexVec_ok' (b := ct) (by omega), hexVec_ok' (b := sig) (by omega)⟩
    (Nat.le_trans (Json.length_canonical _) (Nat.le_trans hx (by omega)))

theorem injectKeyRequest_fits {ct sig : Bytes} (h1 : ct.length ≤ 1024) (h2 : sig.length ≤ 1024) :
    Fits (.injectKeyRequest ct sig) := by
  have hx : Json.extent (JCodec.msg.enc (.injectKeyRequest ct sig)) ≤ 1000 + 12 * ct.length + 12 * sig.length := by
    have : JCodec.msg.enc (.injectKeyRequest ct sig) =
      .obj [("injectKeyRequest", .obj [("encrypted_quorum_key", JCodec.hexVec.enc ct), ("signature", JCodec.hexVec.enc sig)])] := rfl
    rw [this]
    extents
    have h1 : "injectKeyRequest".toList.length = 16 := by decide
    have h2 : "encrypted_quorum_key".toList.length = 20 := by decide
    have h3 : "signature".toList.length = 9 := by decide
    omega
  exact fits_small (by rintro _ _ ⟨⟩) ⟨hexVec_ok' (b := ct) (by omega), hexVec_ok' (b := sig) (by omega)⟩
    (Nat.le_trans (Json.length_canonical _) (Nat.le_trans hx (by omega)))

theorem injectKeyResponse_fits : Fits .injectKeyResponse :=
  fits_small (by rintro _ _ ⟨⟩) trivial (by decide +kernel)

/-! ## The key file -/

theorem lawful_encryptedKey : encryptedKeyCodec.Lawful :=
  JCodec.lawful_struct (Fields.lawful_both (Fields.lawful_req JCodec.lawful_hexVec) (Fields.lawful_req JCodec.lawful_hexVec)
    (by decide +kernel))

/-- What `export-key` writes. -/
def keyBytes (ct sig : Bytes) : Bytes := Json.writeBytes (encryptedKeyCodec.enc (ct, sig))

theorem key_reads {ct sig : Bytes} (h1 : ct.length ≤ 1024) (h2 : sig.length ≤ 1024) :
    fromJsonSlice encryptedKeyCodec (keyBytes ct sig) = some (ct, sig) := by
  have hok : encryptedKeyCodec.ok (ct, sig) := ⟨hexVec_ok' (b := ct) (by omega), hexVec_ok' (b := sig) (by omega)⟩
  unfold keyBytes
  rw [fromJsonSlice_some (lawful_encryptedKey.parse_write (by decide) hok)]
  exact lawful_encryptedKey.dec_enc _ hok

theorem escape_hex (b : Bytes) : (JCodec.bytesText (Hex.encode b)).toList.flatMap Json.escapeChar = (JCodec.bytesText (Hex.encode b)).toList := by
  have key : ∀ l : List Char, (∀ c ∈ l, Json.escapeChar c = [c]) → l.flatMap Json.escapeChar = l := by
    intro l hl
    induction l with
    | nil => rfl
    | cons c l ih =>
      rw [List.flatMap_cons, hl c (List.mem_cons_self ..), ih fun c hc => hl c (List.mem_cons_of_mem _ hc)]
      rfl
  refine key _ fun c hc => ?_
  unfold JCodec.bytesText at hc
  rw [String.toList_ofList, List.mem_map] at hc
  obtain ⟨x, hx, rfl⟩ := hc
  simp only [Hex.encode, List.mem_flatMap, Hex.byteChars] at hx
  obtain ⟨y, _, hy⟩ := hx
  have all : ∀ y : UInt8, ∀ x ∈ [Hex.nibbleChar (y >>> 4), Hex.nibbleChar (y &&& 15)],
      Json.escapeChar (Char.ofNat x.toNat) = [Char.ofNat x.toNat] :=
    Hex.uint8_forall (P := fun y => ∀ x ∈ [Hex.nibbleChar (y >>> 4), Hex.nibbleChar (y &&& 15)],
      Json.escapeChar (Char.ofNat x.toNat) = [Char.ofNat x.toNat]) (by decide +kernel)
  exact all y x hy

/-- C57: the key file has exactly the documented form. -/
theorem key_file_exact (ct sig : Bytes) : Json.writeBytes (encryptedKeyCodec.enc (ct, sig)) = keyFile ct sig := by
  have e : encryptedKeyCodec.enc (ct, sig) =
    .obj [("encrypted_quorum_key", .str (JCodec.bytesText (Hex.encode ct))), ("signature", .str (JCodec.bytesText (Hex.encode sig)))] := rfl
  have hu : ∀ b, (JCodec.bytesText (Hex.encode b)).toList.flatMap String.utf8EncodeChar = Hex.encode b := JCodec.utf8_hexText
  rw [e]
  unfold Json.writeBytes keyFile
  simp only [Json.write, Json.writeObj, Json.commaSep, Json.writeString, escape_hex, List.flatMap_append, List.flatMap_cons, hu,
    List.append_assoc, List.cons_append]
  generalize Hex.encode ct = x
  generalize Hex.encode sig = y
  have e1 : utf8 "{\"encrypted_quorum_key\":\"" = String.utf8EncodeChar '{' ++ (String.utf8EncodeChar '"' ++
      (("encrypted_quorum_key".toList.flatMap Json.escapeChar).flatMap String.utf8EncodeChar ++ (String.utf8EncodeChar '"' ++
        (String.utf8EncodeChar ':' ++ String.utf8EncodeChar '"')))) := by decide +kernel
  have e2 : utf8 "\",\"signature\":\"" = String.utf8EncodeChar '"' ++ (String.utf8EncodeChar ',' ++ (String.utf8EncodeChar '"' ++
      (("signature".toList.flatMap Json.escapeChar).flatMap String.utf8EncodeChar ++ (String.utf8EncodeChar '"' ++
        (String.utf8EncodeChar ':' ++ String.utf8EncodeChar '"'))))) := by decide +kernel
  have e3 : utf8 "\"}" = String.utf8EncodeChar '"' ++ String.utf8EncodeChar '}' := by decide +kernel
  rw [e1, e2, e3]
  simp [List.append_assoc]

/-! ## Whoever answers -/

/-- The fallback always returns; it only sends; and what it returns was answered to the message. -/
theorem postFallback_runs {α : Type} (C : Setting S) (m : Msg) (parse : Msg → Option α) (encs : List Encoding) (s : S) :
    ∃ r s' es, postFallback C m parse encs s = ⟨.ok r, s', es⟩ ∧ (∀ ev ∈ es, ∃ b, ev = .sent b) ∧
      ∀ a, r = some a → ∃ enc b s'' x, toWire m enc = .ok b ∧ readAnswer (C.net s'' b).2 = some x ∧ parse x = some a := by
  induction encs generalizing s with
  | nil => exact ⟨none, s, [], rfl, (fun _ h => nomatch h), (fun _ h => nomatch h)⟩
  | cons enc encs ih =>
    have step : ∀ f : Option Msg → Run S (Option α), f = (fun r => match parsed parse r with
        | some a => pure (some a)
        | none => postFallback C m parse encs) → 
        ∃ r s' es, (postWire C m enc >>= f) s = ⟨.ok r, s', es⟩ ∧ (∀ ev ∈ es, ∃ b, ev = .sent b) ∧
        ∀ a, r = some a → ∃ enc b s'' x, toWire m enc = .ok b ∧ readAnswer (C.net s'' b).2 = some x ∧ parse x = some a := by
      intro f hf
      have hnone : ∀ r, parsed parse r = none → f r = postFallback C m parse encs := by
        intro r hr; rw [hf]; simp only [hr]
      have hsome : ∀ r a, parsed parse r = some a → f r = pure (some a) := by
        intro r a hr; rw [hf]; simp only [hr]
      clear hf
      rcases postWire_cases C m enc f s with ⟨-, h⟩ | ⟨b, hb, h⟩
      · rw [h, hnone none rfl]
        exact ih s
      · rw [h]
        cases hp : parsed parse (readAnswer (C.net s b).2) with
        | some x =>
          rw [hsome _ _ hp]
          refine ⟨some x, (C.net s b).1, [.sent b], rfl, ?_, ?_⟩
          · intro ev hev
            exact ⟨b, List.mem_singleton.mp hev⟩
          · intro a ha
            obtain ⟨r, h1, h2⟩ := Option.bind_eq_some_iff.mp hp
            rw [← ha]
            exact ⟨enc, b, s, r, hb, h1, h2⟩
        | none =>
          rw [hnone _ hp]
          obtain ⟨r, s', es, h1, h2, h3⟩ := ih (C.net s b).1
          refine ⟨r, s', .sent b :: es, by rw [h1], ?_, h3⟩
          intro ev hev
          rcases List.mem_cons.mp hev with rfl | hev
          · exact ⟨b, rfl⟩
          · exact h2 ev hev
    rw [postFallback]
    exact step _ rfl

theorem bootKeyAnswer_some {r : Msg} {doc : Bytes} (h : bootKeyAnswer r = some doc) :
    r = .bootKeyForwardResponse (.attestation doc) := by
  unfold bootKeyAnswer at h
  split at h
  · cases h; rfl
  · cases h

theorem exportAnswer_some {r : Msg} {k : Bytes × Bytes} (h : exportAnswer r = some k) :
    r = .exportKeyResponse k.1 k.2 := by
  unfold exportAnswer at h
  split at h
  · cases h; rfl
  · cases h

theorem fallback_write {α : Type} (C : Setting S) {m : Msg} {parse : Msg → Option α} {encs : List Encoding} {s : S} {stop : Stop}
    {path : String} {content : α → Bytes}
    (hr : ((postFallback C m parse encs >>= fun r => Run.lift (orStop r stop) >>= fun a => write C path (content a)) s).result = .ok ()) :
    ∃ a sents, (∃ enc b s'' x, toWire m enc = .ok b ∧ readAnswer (C.net s'' b).2 = some x ∧ parse x = some a) ∧
      ((postFallback C m parse encs >>= fun r => Run.lift (orStop r stop) >>= fun a => write C path (content a)) s).events =
        sents ++ [.wrote path (content a)] ∧ ∀ ev ∈ sents, ∃ b, ev = .sent b := by
  obtain ⟨r, s', es, h1, h2, h3⟩ := postFallback_runs C m parse encs s
  rw [Run.run_ok h1] at hr ⊢
  cases r with
  | none =>
    rw [Run.lift_error (x := orStop (none : Option α) stop) (e := stop) rfl] at hr
    cases hr
  | some a =>
    rw [Run.lift_ok (x := orStop (some a) stop) (a := a) rfl] at hr ⊢
    refine ⟨a, es, h3 a rfl, ?_, h2⟩
    by_cases hw : C.disk.writable path = true
    · simp only [write, hw, if_true]
    · simp [write, hw] at hr

/-- C57: whoever answers, `boot-key-fwd` reports success only with a document that was the answer to a request to boot
the envelope and pivot in the named files, and that document is all it writes. -/
theorem boot_key_fwd_safe (C : Setting S) (envelopePath pivotPath docPath : String) (s : S)
    (hr : (bootKeyFwd C envelopePath pivotPath docPath s).result = .ok ()) :
    ∃ e pivot doc sents, EnvelopeIn C.disk envelopePath e ∧ C.disk.file pivotPath = some pivot ∧
      (∃ enc b s', toWire (.bootKeyForwardRequest e pivot) enc = .ok b ∧
        readAnswer (C.net s' b).2 = some (.bootKeyForwardResponse (.attestation doc))) ∧
      (bootKeyFwd C envelopePath pivotPath docPath s).events = sents ++ [.wrote docPath doc] ∧
      ∀ ev ∈ sents, ∃ b, ev = .sent b := by
  unfold bootKeyFwd at hr ⊢
  rcases Run.lift_cases (orStop (C.disk.file pivotPath) (.error .failedToReadPivot)) _ s with ⟨x, hx, he⟩ | ⟨pivot, hx, he⟩
  · rw [he] at hr; cases hr
  rw [he] at hr ⊢
  rcases Run.lift_cases (readEnvelope C.disk envelopePath) _ s with ⟨x, hx, he⟩ | ⟨e, he', he⟩
  · rw [he] at hr; cases hr
  rw [he] at hr ⊢
  obtain ⟨doc, sents, ⟨enc, b, s'', x, h1, h2, h3⟩, h4, h5⟩ := fallback_write C (content := id) hr
  rw [bootKeyAnswer_some h3] at h2
  exact ⟨e, pivot, doc, sents, readEnvelope_iff.mp he', orStop_ok.mp hx, ⟨enc, b, s'', h1, h2⟩, h4, h5⟩

/-- C57: whoever answers, `export-key` reports success only with an encrypted key and signature that were the answer to a
request with the envelope and the document in the named files, and these are all it writes, in the documented form. -/
theorem export_key_safe (C : Setting S) (envelopePath docPath outPath : String) (s : S)
    (hr : (exportKey C envelopePath docPath outPath s).result = .ok ()) :
    ∃ e doc ct sig sents, EnvelopeIn C.disk envelopePath e ∧ C.disk.file docPath = some doc ∧
      (∃ enc b s', toWire (.exportKeyRequest e doc) enc = .ok b ∧
        readAnswer (C.net s' b).2 = some (.exportKeyResponse ct sig)) ∧
      (exportKey C envelopePath docPath outPath s).events = sents ++ [.wrote outPath (keyFile ct sig)] ∧
      ∀ ev ∈ sents, ∃ b, ev = .sent b := by
  unfold exportKey at hr ⊢
  rcases Run.lift_cases (readEnvelope C.disk envelopePath) _ s with ⟨x, hx, he⟩ | ⟨e, he', he⟩
  · rw [he] at hr; cases hr
  rw [he] at hr ⊢
  rcases Run.lift_cases (orStop (C.disk.file docPath) (.error .failedToReadAttestationDoc)) _ s with ⟨x, hx, he⟩ | ⟨doc, hx, he⟩
  · rw [he] at hr; cases hr
  rw [he] at hr ⊢
  obtain ⟨k, sents, ⟨enc, b, s'', x, h1, h2, h3⟩, h4, h5⟩ :=
    fallback_write C (content := fun k => Json.writeBytes (encryptedKeyCodec.enc k)) hr
  rw [exportAnswer_some h3] at h2
  obtain ⟨ct, sig⟩ := k
  rw [key_file_exact] at h4
  exact ⟨e, doc, ct, sig, sents, readEnvelope_iff.mp he', orStop_ok.mp hx, ⟨enc, b, s'', h1, h2⟩, h4, h5⟩

theorem postWire_runs (C : Setting S) (m : Msg) (enc : Encoding) (s : S) : ∃ r s', (postWire C m enc s).result = .ok r ∧
    (postWire C m enc s).state = s' ∧
    ∀ x, r = some x → ∃ b, toWire m enc = .ok b ∧ readAnswer (C.net s b).2 = some x := by
  unfold postWire
  cases h : toWire m enc with
  | error e => exact ⟨none, s, rfl, rfl, (fun _ h => nomatch h)⟩
  | ok b => exact ⟨_, _, rfl, rfl, fun x hx => ⟨b, rfl, hx⟩⟩

theorem post_answer {C : Setting S} {m : Msg} {s : S} {x : Msg} (hr : (post C m s).result = .ok (some x)) :
    ∃ enc b s', toWire m enc = .ok b ∧ readAnswer (C.net s' b).2 = some x := by
  unfold post at hr
  rw [Run.bind_result] at hr
  obtain ⟨r, s', h1, h2, h3⟩ := postWire_runs C m .json s
  rw [h1] at hr
  simp only at hr
  by_cases hu : unreadable r = true
  · rw [if_pos hu] at hr
    obtain ⟨r', s'', g1, g2, g3⟩ := postWire_runs C m .borsh (postWire C m .json s).state
    rw [g1] at hr
    cases hr
    obtain ⟨b, hb⟩ := g3 x rfl
    exact ⟨.borsh, b, _, hb⟩
  · rw [if_neg hu] at hr
    have hr : (Except.ok r : Except Stop (Option Msg)) = .ok (some x) := hr
    cases hr
    obtain ⟨b, hb⟩ := h3 x rfl
    exact ⟨.json, b, _, hb⟩

/-- C57: whoever answers, `inject-key` reports success only if a request with exactly the encrypted key and signature in the
named file was answered with success. -/
theorem inject_key_safe (C : Setting S) (path : String) (s : S) (hr : (injectKey C path s).result = .ok ()) :
    ∃ c ct sig, C.disk.file path = some c ∧ fromJsonSlice encryptedKeyCodec c = some (ct, sig) ∧
      ∃ enc b s', toWire (.injectKeyRequest ct sig) enc = .ok b ∧ readAnswer (C.net s' b).2 = some .injectKeyResponse := by
  unfold injectKey at hr
  rcases Run.lift_cases (orStop (C.disk.file path) (.error .failedToReadEncryptedQuorumKey)) _ s with ⟨x, hx, he⟩ | ⟨c, hx, he⟩
  · rw [he] at hr; cases hr
  rw [he] at hr
  rcases Run.lift_cases (orStop (fromJsonSlice encryptedKeyCodec c) (.error .invalidEncryptedQuorumKey)) _ s with ⟨x, hx, he⟩ | ⟨k, hk, he⟩
  · rw [he] at hr; cases hr
  rw [he, Run.bind_result] at hr
  obtain ⟨ct, sig⟩ := k
  refine ⟨c, ct, sig, orStop_ok.mp hx, orStop_ok.mp hk, ?_⟩
  cases hp : (post C (.injectKeyRequest ct sig) s).result with
  | error e => simp only [hp] at hr; cases hr
  | ok r =>
    simp only [hp] at hr
    rcases Run.lift_cases (orStop r .panic) (fun r => Run.lift (orStop (injectAnswer (some r)) (.error .unexpectedProtocolMsgResponse)))
      (post C (.injectKeyRequest ct sig) s).state with ⟨x, hx, he⟩ | ⟨r', hx, he⟩
    · rw [he] at hr; cases hr
    · rw [he] at hr
      have hr : orStop (injectAnswer (some r')) _ = .ok () := hr
      rw [orStop_ok] at hr
      rw [orStop_ok] at hx
      subst hx
      have : r' = .injectKeyResponse := by
        unfold injectAnswer at hr
        split at hr
        · rename_i heq; exact Option.some.inj heq
        · cases hr
      subst this
      exact post_answer hp

/-! ## Against an honest host and enclave -/

/-- C57: `boot-key-fwd` of an approved envelope at a waiting enclave succeeds and leaves an enclave that waits for the
forwarded key, with that manifest and pivot. It writes a document that shows exactly this and carries the setup key. -/
theorem boot_key_fwd_boots (hC : Facing C E) (H : History E fs0 h s)
    (hs : s.phase = .waitingForBootInstruction) (hd : HonestDevice E pki start) (hio : ReliableFiles E) {setup live : Pair}
    (h0 : Pair.fromMasterSeed E.prims (E.seedAt 0) = .ok setup) (h1 : Pair.fromMasterSeed E.prims (E.seedAt 1) = .ok live)
    (hsz : ∀ doc, IssuedDoc pki start doc → (pki.signDoc doc).length ≤ 1024 * 1024)
    {e : Envelope} {pivot : Bytes} {envelopePath pivotPath : String} (docPath : String)
    (hin : EnvelopeIn C.disk envelopePath e) (he : e.Ok)
    (hp : C.disk.file pivotPath = some pivot) (ha : e.checkApprovals E.prims = .ok ()) (hn : e.shareSetApprovals = [])
    (hh : E.prims.sha256 pivot = e.manifest.pivotHash) (hm : Measured start e.manifest)
    (hf : Fits (.bootKeyForwardRequest e pivot)) (hw : C.disk.writable docPath = true) :
    ∃ s' r doc sents, bootKeyFwd C envelopePath pivotPath docPath s =
        ⟨.ok (), s', sents ++ [.wrote docPath (pki.signDoc doc)]⟩ ∧ (∀ ev ∈ sents, ∃ b, ev = .sent b) ∧
      History E fs0 (h ++ [(.bootKeyForwardRequest e pivot, r)]) s' ∧
      s'.phase = .waitingForForwardedKey ∧ Installed E e pivot s'.files ∧ IssuedDoc pki start doc ∧
      Attest.Matches E.prims .setup doc (expectedInput E.prims e.manifest) (setup.publicKey E.prims).toBytes := by
  have hbw : (Msg.bootKeyForwardRequest e pivot).BootsWith e pivot := .inr (.inr rfl)
  obtain ⟨⟨r, g1⟩, g2, g3, g4, -⟩ := approved_boot_completes H hs hd hio he ha hn hh h0 h1 hbw
  obtain ⟨setup', doc, k1, k2, k3, k4, k5, k6, k7⟩ := boot_document H hd he hbw g1
  rw [h0, Except.ok.injEq] at k1
  subst k1
  have g1 : (handle E (.bootKeyForwardRequest e pivot) s).1 = .bootKeyForwardResponse (.attestation (pki.signDoc doc)) := by
    rcases g1 with g1 | g1
    · exfalso
      rw [handle_forward hs] at g1
      revert g1
      cases Services.putManifestAndPivot E e pivot s with
      | mk r s => cases r <;> intro hr <;> cases hr
    · rw [g1, k2]
  obtain ⟨b, earlier, -, hrun, hear⟩ := fallback_exact hC s (.inl rfl) bootKeyAnswer (fun _ => rfl) hf
    (by rw [g1]; exact bootKeyForwardResponse_fits _ (hsz doc k5))
  have hsents : ∀ ev ∈ earlier ++ [Event.sent b], ∃ b, ev = .sent b := by
    intro ev hev
    rcases List.mem_append.mp hev with hev | hev
    · rcases hear with rfl | ⟨b', -, rfl⟩
      · cases hev
      · exact ⟨b', List.mem_singleton.mp hev⟩
    · exact ⟨b, List.mem_singleton.mp hev⟩
  refine ⟨(handle E (.bootKeyForwardRequest e pivot) s).2, _, doc, earlier ++ [.sent b], ?_, hsents, H.step he, g2, g3, k5, ?_⟩
  · unfold bootKeyFwd
    rw [Run.lift_ok (a := pivot) (by rw [hp]; rfl), Run.lift_ok (readEnvelope_iff.mpr hin), Run.run_ok hrun, g1,
      Run.lift_ok (x := orStop (bootKeyAnswer (.bootKeyForwardResponse (.attestation (pki.signDoc doc)))) _) (a := pki.signDoc doc) rfl]
    unfold write
    rw [if_pos hw]
  · have hpc : ∀ i, i < 16 → doc.pcr i = some (start.value (UInt16.ofNat i)) := fun i hi =>
      k6 i (by omega) (by omega) (by omega)
    have hx := k7 (expectedInput E.prims e.manifest) rfl (by rw [hpc 0 (by omega)]; exact congrArg some hm.pcr0.symm)
      (by rw [hpc 1 (by omega)]; exact congrArg some hm.pcr1.symm) (by rw [hpc 2 (by omega)]; exact congrArg some hm.pcr2.symm)
      (by rw [hpc 3 (by omega)]; exact congrArg some hm.pcr3.symm)
    obtain ⟨key', hmt⟩ := (Attest.verify_manifest_exact ..).1 hx
    have hkey : key' = (setup.publicKey E.prims).toBytes := by
      have := hmt.publicKey
      rw [k3] at this
      exact (Option.some.inj this).symm
    rw [← hkey]
    exact hmt

/-- What an enclave releases is short. -/
theorem released_short (H : History E fs0 h s) (hs : s.phase = .quorumKeyProvisioned) {pub : Public} {ct sig : Bytes}
    (hpub : Public.fromBytes E.prims pub.toBytes = .ok pub) (hr : Released E s pub ct sig) : ct.length ≤ 1024 ∧ sig.length ≤ 1024 := by
  obtain ⟨key, rand, k1, k2, k3, k4, k5⟩ := hr.key
  obtain ⟨b, key', hpr, -⟩ := H.provisioned hs
  have hseed := Hex.hex_encode_injective _ _ (k2.unique hpr.quorum)
  have hl : key.seed.length = 32 := by rw [hseed]; exact hpr.complete.seed.1
  have h1 := P256.encrypt_length E.prims H.env.laws _ _ ct _ rand hpub k3 (by omega) k4
  have h2 : sig.length = 64 := by
    rw [k5]
    exact H.env.laws.sig_length _ (H.env.laws.sign_ok _ _ (P256.pair_scalars _ _ _ k1).2)
  omega

/-- C57: `export-key` at an enclave that has the quorum key, for a new envelope and a document that make the key
exportable: succeeds, changes nothing in the enclave, and writes the stored key encrypted to the attested key and signed. -/
theorem export_key_exports (hC : Facing C E) (H : History E fs0 h s) (hs : s.phase = .quorumKeyProvisioned)
    (hio : ReliableFiles E) {old new : Envelope} {pivot : Bytes} (hold : Installed E old pivot s.files) {ms : Nat}
    (hms : E.timestamp s.ios s.nsmHist = .ok ms) {der : Bytes} {doc : AttestationDoc} {pub : Public}
    (hder : Attest.fromDer E.pki der E.rootCa (ms / 1000) = .ok doc) (hx : Exportable E.prims old new doc pub)
    {envelopePath docPath : String} (outPath : String) (hin : EnvelopeIn C.disk envelopePath new)
    (hdoc : C.disk.file docPath = some der) (hf : Fits (.exportKeyRequest new der)) (hw : C.disk.writable outPath = true) :
    ∃ s' ct sig sents, exportKey C envelopePath docPath outPath s =
        ⟨.ok (), s', sents ++ [.wrote outPath (keyFile ct sig)]⟩ ∧ (∀ ev ∈ sents, ∃ b, ev = .sent b) ∧
      s' = (handle E (.exportKeyRequest new der) s).2 ∧
      (handle E (.exportKeyRequest new der) s).1 = .exportKeyResponse ct sig ∧
      s'.phase = .quorumKeyProvisioned ∧ s'.files = s.files ∧ ct.length ≤ 1024 ∧ sig.length ≤ 1024 := by
  obtain ⟨e1, -, e3⟩ := export_exact H hs hold new der
  obtain ⟨ct, sig, hans⟩ := e3 hio ms doc pub hms hder hx
  obtain ⟨ms', doc', pub', m1, m2, m3, m4⟩ := e1 ct sig hans
  obtain ⟨hl1, hl2⟩ := released_short H hs m3.key m4
  have hq := read_only_requests E (.exportKeyRequest new der) s (by simp [kind, readOnly])
  obtain ⟨b, earlier, -, hrun, hear⟩ := fallback_exact hC s (.inr rfl) exportAnswer (fun _ => rfl) hf
    (by rw [hans]; exact exportKeyResponse_fits hl1 hl2)
  refine ⟨(handle E (.exportKeyRequest new der) s).2, ct, sig, earlier ++ [.sent b], ?_, ?_, rfl, hans, by rw [hq.phase, hs], hq.files, hl1, hl2⟩
  · unfold exportKey
    rw [Run.lift_ok (readEnvelope_iff.mpr hin), Run.lift_ok (a := der) (by rw [hdoc]; rfl), Run.run_ok hrun, hans,
      Run.lift_ok (x := orStop (exportAnswer (.exportKeyResponse ct sig)) _) (a := (ct, sig)) rfl]
    unfold write
    rw [if_pos hw, key_file_exact]
  · intro ev hev
    rcases List.mem_append.mp hev with hev | hev
    · rcases hear with rfl | ⟨b', -, rfl⟩
      · cases hev
      · exact ⟨b', List.mem_singleton.mp hev⟩
    · exact ⟨b, List.mem_singleton.mp hev⟩

/-- C57: `inject-key` in front of an honest host and enclave: the key in the file reaches the enclave, once, and the command
succeeds exactly if the enclave accepts it. -/
theorem inject_key_exact (hC : Facing C E) {path : String} {ct sig : Bytes} (h1 : ct.length ≤ 1024) (h2 : sig.length ≤ 1024)
    (hfile : C.disk.file path = some (keyFile ct sig)) (s : St) (ha : Fits (handle E (.injectKeyRequest ct sig) s).1) :
    (injectKey C path s).state = (handle E (.injectKeyRequest ct sig) s).2 ∧
    ((injectKey C path s).result = .ok () ↔ (handle E (.injectKeyRequest ct sig) s).1 = .injectKeyResponse) := by
  obtain ⟨b, -, hpost⟩ := post_fits hC (.injectKeyRequest ct sig) s (injectKeyRequest_fits h1 h2) ha
  have hk : fromJsonSlice encryptedKeyCodec (keyFile ct sig) = some (ct, sig) := by
    rw [← key_file_exact]
    exact key_reads h1 h2
  unfold injectKey
  rw [Run.lift_ok (a := keyFile ct sig) (by rw [hfile]; rfl), Run.lift_ok (a := (ct, sig)) (by rw [hk]; rfl), Run.run_ok hpost]
  generalize handle E (.injectKeyRequest ct sig) s = r
  rw [Run.lift_ok (x := orStop (some r.1) Stop.panic) (a := r.1) rfl]
  refine ⟨rfl, ?_⟩
  show orStop (injectAnswer (some r.1)) _ = .ok () ↔ _
  rw [orStop_ok]
  constructor
  · intro hr
    unfold injectAnswer at hr
    split at hr
    · rename_i heq; exact Option.some.inj heq
    · cases hr
  · intro hr
    rw [hr]
    rfl

/-- C57: an honest hand-over. The old enclave is in any state with the quorum key; the new one is freshly started over an
honest device, and the new envelope, approved by the manifest set, may take over from the installed one. Then
`boot-key-fwd` at the new enclave writes a document; anyone who takes it to the old enclave gets a key file from
`export-key`, which leaves the old enclave as it was; and anyone who takes that file to the new enclave has `inject-key`
succeed, after which the new enclave holds exactly the key of the old one. -/
theorem forwarding_provisions (H : History E fs0 h s) (hs : s.phase = .quorumKeyProvisioned)
    (hio : ReliableFiles E) {old e : Envelope} {pivot0 pivot : Bytes} (hold : Installed E old pivot0 s.files)
    (hE' : E'.Ok) (hfr : Fresh E'.paths fs0') (hd' : HonestDevice E' pki start) (hio' : ReliableFiles E')
    (hprims : E'.prims = E.prims) {setup live : Pair}
    (h0 : Pair.fromMasterSeed E'.prims (E'.seedAt 0) = .ok setup) (h1 : Pair.fromMasterSeed E'.prims (E'.seedAt 1) = .ok live)
    (he : e.Ok) (ha : e.checkApprovals E.prims = .ok ()) (hn : e.shareSetApprovals = [])
    (hh : E.prims.sha256 pivot = e.manifest.pivotHash) (hm : Measured start e.manifest)
    (hsucc : Succeeds E.prims old.manifest e.manifest) {ms : Nat} (hms : E.timestamp s.ios s.nsmHist = .ok ms)
    (hrec : Recognises E pki start (ms / 1000))
    (hf1 : Fits (.bootKeyForwardRequest e pivot)) (hf2 : ∀ doc : Bytes, doc.length ≤ 1024 * 1024 → Fits (.exportKeyRequest e doc))
    {C1 : Setting St} (hC1 : Facing C1 E') {envelopePath pivotPath docPath : String}
    (hin : EnvelopeIn C1.disk envelopePath e) (hp : C1.disk.file pivotPath = some pivot) (hw : C1.disk.writable docPath = true) :
    ∃ s1 der sents, bootKeyFwd C1 envelopePath pivotPath docPath (St.initial fs0') = ⟨.ok (), s1, sents ++ [.wrote docPath der]⟩ ∧
      s1.phase = .waitingForForwardedKey ∧
      ∀ (C2 : Setting St) (envelopePath2 docPath2 keyPath : String), Facing C2 E → EnvelopeIn C2.disk envelopePath2 e →
        C2.disk.file docPath2 = some der → C2.disk.writable keyPath = true →
        ∃ s2 ct sig sents2, exportKey C2 envelopePath2 docPath2 keyPath s = ⟨.ok (), s2, sents2 ++ [.wrote keyPath (keyFile ct sig)]⟩ ∧
          (handle E (.exportKeyRequest e der) s).1 = .exportKeyResponse ct sig ∧
          s2.phase = .quorumKeyProvisioned ∧ s2.files = s.files ∧
          ∀ (C3 : Setting St) (keyPath3 : String), Facing C3 E' → C3.disk.file keyPath3 = some (keyFile ct sig) →
            (injectKey C3 keyPath3 s1).result = .ok () ∧ (injectKey C3 keyPath3 s1).state.phase = .quorumKeyProvisioned ∧
            ∃ seed, Holds s.files E.paths.quorum (Hex.encode seed) ∧
              Holds (injectKey C3 keyPath3 s1).state.files E'.paths.quorum (Hex.encode seed) := by
  obtain ⟨s1, r, doc, sents, b1, -, H1, p1, i1, hi, hmt⟩ := boot_key_fwd_boots hC1 (History.start hE' hfr) rfl hd' hio' h0 h1
    hrec.size docPath hin he hp (by rw [hprims]; exact ha) hn (by rw [hprims]; exact hh) hm hf1 hw
  rw [hprims] at hmt
  refine ⟨s1, pki.signDoc doc, sents, b1, p1, ?_⟩
  intro C2 ep2 dp2 kp hC2 hin2 hdoc2 hw2
  have hder : Attest.fromDer E.pki (pki.signDoc doc) E.rootCa (ms / 1000) = .ok doc := by
    refine (Attest.fromDer_exact ..).2 ⟨hrec.decode doc hi, issued_wellFormed hi hrec.root hrec.intermediate, ?_, ?_⟩
    · obtain ⟨d, hash, key, rfl, -⟩ := hi.issued
      exact hrec.chain
    · have := hrec.signature doc hi
      obtain ⟨d, hash, key, rfl, -⟩ := hi.issued
      exact this
  have h0' := h0
  rw [hprims] at h0'
  have hx : Exportable E.prims old e doc (setup.publicKey E.prims) :=
    ⟨ha, hn, hsucc, hmt, (P256.public_of_pair _ H.env.laws _ _ h0').1⟩
  obtain ⟨s2, ct, sig, sents2, g1, -, -, g2, g3, g4, g5, g6⟩ := export_key_exports hC2 H hs hio hold hms hder hx kp hin2 hdoc2
    (hf2 _ (hrec.size doc hi)) hw2
  refine ⟨s2, ct, sig, sents2, g1, g2, g3, g4, ?_⟩
  intro C3 kp3 hC3 hk3
  obtain ⟨f1, f2, f3⟩ := forwarding_lossless H hs hold H1 p1 i1 hio' hprims g2 rfl h0 (by
    intro t d hd
    rw [((Attest.fromDer_exact ..).1 hd).1.symm.trans (hrec.decode doc hi) |> Except.ok.inj]
    rw [hprims]
    exact hmt.publicKey)
  obtain ⟨j1, j2⟩ := inject_key_exact hC3 g5 g6 hk3 s1 (by rw [f1]; exact injectKeyResponse_fits)
  rw [j1]
  exact ⟨j2.2 f1, f2, f3⟩

end Qos.Client
