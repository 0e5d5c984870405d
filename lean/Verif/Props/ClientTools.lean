import Verif.Spec.ClientTools
import Verif.Props.ClientToy
import Verif.Props.ClientPipeline
import Verif.Props.ClientProxy
import Verif.Props.Shamir
import Verif.Props.Storage
import Verif.Props.Borsh
import Verif.Lemmas.WireBorsh
/-!
# C52: the operator's tools undo each other

Key files, signing and verifying, encrypting and decrypting, splitting and reconstructing, converting manifests.
-/
namespace Qos.Client
open P256 (Pair Public)
variable {S : Type}

/-! ## Files -/

theorem seedText_iff {p : Prims} {c : Bytes} {k : Pair} : Pair.fromHexContents p c = .ok k ↔ SeedText p c k := by
  constructor
  · intro h
    obtain ⟨s, h1, h2, h3⟩ := P256.hex_file_accepts p c k h
    exact ⟨s, _, h1, h2, h3⟩
  · rintro ⟨s, seed, h1, h2, h3⟩
    unfold Pair.fromHexContents
    simp only [h1, h2]
    exact h3

theorem pairFromFile_ok {p : Prims} {d : Disk} {path : String} {k : Pair} :
    pairFromFile p d path = .ok k ↔ SeedIn p d path k := by
  unfold pairFromFile SeedIn
  simp only [ebind_ok, orStop_ok, mapStop_ok, seedText_iff]

theorem pubFromFile_iff (p : Prims) (d : Disk) (path : String) (key : Bytes) :
    (∃ k, pubFromFile p d path = .ok k ∧ k.toBytes = key) ↔ KeyIn p d path key := by
  rw [← publicFromFile_iff]
  unfold pubFromFile
  simp only [orStop_ok]

theorem pubFromFile_exact {p : Prims} {d : Disk} {path : String} {k : Public} (h : pubFromFile p d path = .ok k) :
    KeyIn p d path k.toBytes ∧ k.sign = k.toBytes.drop 65 ∧ Public.fromBytes p k.toBytes = .ok k := by
  have hk := (pubFromFile_iff p d path k.toBytes).mp ⟨k, h, rfl⟩
  unfold pubFromFile publicFromFile at h
  rw [orStop_ok] at h
  cases hf : d.file path with
  | none => rw [hf] at h; cases h
  | some c =>
    rw [hf] at h
    simp only at h
    cases hc : publicFromContents p c with
    | error e => rw [hc] at h; cases h
    | ok k' =>
      rw [hc] at h
      cases h
      unfold publicFromContents at hc
      cases hu : utf8Decode c with
      | none => rw [hu] at hc; cases hc
      | some s =>
        rw [hu] at hc
        simp only at hc
        cases hd : Hex.decode (utf8 (P256.trim s)) with
        | error e => rw [hd] at hc; cases hc
        | ok b =>
          rw [hd] at hc
          have hre := P256.public_reencode p b k hc
          obtain ⟨h1, h2, h3, h4, h5⟩ := (P256.public_fromBytes_iff p b k).mp hc
          refine ⟨hk, ?_, by rw [hre]; exact hc⟩
          rw [hre, h5]

theorem readSignature_ok {d : Disk} {path : String} {sig : Bytes} :
    readSignature d path = .ok sig ↔ SignatureIn d path sig := by
  unfold readSignature SignatureIn readFile hexText
  simp only [ebind_ok, orStop_ok]
  constructor
  · rintro ⟨c, h1, s, h2, h3⟩
    refine ⟨c, s, h1, h2, ?_⟩
    cases h : Hex.decode (utf8 (P256.trim s)) with
    | error e => rw [h] at h3; cases h3
    | ok b => rw [h] at h3; cases h3; rfl
  · rintro ⟨c, s, h1, h2, h3⟩
    exact ⟨c, h1, s, h2, by rw [h3]⟩

theorem verify_ok {p : Prims} {k : Public} {m sig : Bytes} :
    Public.verify p k m sig = .ok () ↔ p.sigOk sig ∧ p.ecdsaVerify k.sign m sig := by
  unfold Public.verify
  by_cases h1 : p.sigOk sig
  · rw [if_pos h1]
    by_cases h2 : p.ecdsaVerify k.sign m sig
    · rw [if_pos h2]; simp [h1, h2]
    · rw [if_neg h2]; simp [h2]
  · rw [if_neg h1]; simp [h1]

theorem write_ok {C : Setting S} {path : String} {b : Bytes} {s s' : S} {es : List Event} :
    write C path b s = ⟨.ok (), s', es⟩ ↔ C.disk.writable path = true ∧ s' = s ∧ es = [.wrote path b] := by
  unfold write
  by_cases h : C.disk.writable path = true
  · rw [if_pos h]
    simp only [h, Out.mk.injEq, true_and]
    exact ⟨fun ⟨a, b⟩ => ⟨a.symm, b.symm⟩, fun ⟨a, b⟩ => ⟨a.symm, b.symm⟩⟩
  · rw [if_neg h]; simp [h]

theorem hex_text_reads (b : Bytes) (h : 2 * b.length < Hex.strMaxLength) : ∃ text, utf8Decode (Hex.encode b) = some text ∧
    Hex.decode (utf8 (P256.trim text)) = .ok b := by
  have hr := P256.hex_char_range b
  have e := P256.utf8_charsOf (Hex.encode b) fun x hx => (hr x hx).2
  refine ⟨String.ofList (P256.charsOf (Hex.encode b)), ?_, ?_⟩
  · rw [← e, utf8Decode_utf8, e]
  · rw [P256.trim_hex, e, Hex.hex_decode_encode _ h]

theorem lift_bind_ok {α β : Type} {x : Except Stop α} {f : α → Run S β} {s s' : S} {b : β} {es : List Event} :
    (Run.lift x >>= f) s = ⟨.ok b, s', es⟩ ↔ ∃ a, x = .ok a ∧ f a s = ⟨.ok b, s', es⟩ := by
  rcases Run.lift_cases x f s with ⟨e, hx, hr⟩ | ⟨a, hx, hr⟩
  · rw [hr, hx]; simp
  · rw [hr, hx]; simp

theorem write_bind_ok {β : Type} {C : Setting S} {path : String} {c : Bytes} {f : Unit → Run S β} {s s' : S} {b : β}
    {es : List Event} : (write C path c >>= f) s = ⟨.ok b, s', es⟩ ↔
      C.disk.writable path = true ∧ ∃ es', f () s = ⟨.ok b, s', es'⟩ ∧ es = .wrote path c :: es' := by
  rw [write_bind]
  by_cases h : C.disk.writable path = true
  · rw [if_pos h]
    simp only [h, true_and]
    cases f () s with
    | mk r t u =>
      simp only [Out.mk.injEq]
      constructor
      · rintro ⟨rfl, rfl, rfl⟩; exact ⟨u, ⟨rfl, rfl, rfl⟩, rfl⟩
      · rintro ⟨es', ⟨rfl, rfl, rfl⟩, rfl⟩; exact ⟨rfl, rfl, rfl⟩
  · rw [if_neg h]; simp [h]

theorem lift_result (x : Except Stop Unit) (s : S) : (Run.lift x s).result = x := rfl

/-! ## Key files, signatures, ciphertexts -/

/-- C52: a generated key consists of two files: the seed, from which the tools read the pair, and its public key, in the
form that key set directories and every `--pub-path` option want. -/
theorem generated_key_reads (C : Setting S) (hp : C.prims.Laws) (seed : Bytes) (h32 : seed.length = 32) (secretPath pubPath : String)
    (hne : secretPath ≠ pubPath) (s s' : S) (es : List Event)
    (h : generateFileKey C seed secretPath pubPath s = ⟨.ok (), s', es⟩) :
    ∃ pair secret pub, Pair.fromMasterSeed C.prims seed = .ok pair ∧ s' = s ∧
      es = [.wrote secretPath secret, .wrote pubPath pub] ∧
      SeedIn C.prims (C.disk.after es) secretPath pair ∧
      KeyIn C.prims (C.disk.after es) pubPath (pair.publicKey C.prims).toBytes := by
  unfold generateFileKey at h
  simp only [lift_bind_ok, write_bind_ok, mapStop_ok, write_ok] at h
  obtain ⟨pair, hx, -, es', ⟨-, rfl, rfl⟩, rfl⟩ := h
  refine ⟨pair, _, _, hx, rfl, rfl, ⟨pair.toMasterSeedHex, ?_, ?_⟩, Hex.encode (pair.publicKey C.prims).toBytes, ?_, ?_⟩
  · simp [Disk.after, lastWrite, hne.symm]
  · have hs := P256.pair_seed _ _ _ hx
    rw [← seedText_iff, P256.hex_file_roundtrip _ _ (by rw [hs]; exact h32), hs]
    exact hx
  · simp [Disk.after, lastWrite]
  · obtain ⟨hk, hl⟩ := P256.public_of_pair _ hp _ _ hx
    obtain ⟨g1, g2, g3, -⟩ := (P256.public_fromBytes_iff ..).mp hk
    exact keyText_encode _ _ g1 g2 g3

/-- C52: `p256-sign` succeeds exactly when both files can be read and the output written, and then writes a hexadecimal
signature, made with the key in the seed file over exactly the bytes of the payload file. -/
theorem sign_exact (C : Setting S) (payloadPath signaturePath seedPath : String) (s s' : S) (es : List Event) :
    p256Sign C payloadPath signaturePath seedPath s = ⟨.ok (), s', es⟩ ↔
      ∃ payload pair, C.disk.file payloadPath = some payload ∧ SeedIn C.prims C.disk seedPath pair ∧
        C.disk.writable signaturePath = true ∧ s' = s ∧
        es = [.wrote signaturePath (Hex.encode (C.prims.ecdsaSign pair.signSecret payload))] := by
  unfold p256Sign
  simp only [lift_bind_ok, readFile, orStop_ok, pairFromFile_ok, write_ok, Pair.sign, exists_and_left]

/-- C52: `p256-verify` succeeds exactly when the signature in the file is valid for the payload's bytes under the key in
the public key file. It never writes or sends anything. -/
theorem verify_exact (C : Setting S) (payloadPath signaturePath pubPath : String) (s : S) :
    ((p256Verify C payloadPath signaturePath pubPath s).result = .ok () ↔
      ∃ payload sig key, C.disk.file payloadPath = some payload ∧ SignatureIn C.disk signaturePath sig ∧
        KeyIn C.prims C.disk pubPath key ∧ SignedBy C.prims key payload sig) ∧
    (p256Verify C payloadPath signaturePath pubPath s).events = [] := by
  refine ⟨?_, rfl⟩
  unfold p256Verify
  rw [lift_result]
  simp only [ebind_ok, readFile, orStop_ok, mapStop_ok, readSignature_ok, verify_ok]
  constructor
  · rintro ⟨payload, h1, k, h2, sig, h3, h4, h5⟩
    obtain ⟨g1, g2, -⟩ := pubFromFile_exact h2
    exact ⟨payload, sig, _, h1, h3, g1, h4, by rw [← g2]; exact h5⟩
  · rintro ⟨payload, sig, key, h1, h2, h3, h4, h5⟩
    obtain ⟨k, hk, rfl⟩ := (pubFromFile_iff ..).mpr h3
    obtain ⟨g1, g2, -⟩ := pubFromFile_exact hk
    exact ⟨payload, h1, k, hk, sig, h2, h4, by rw [g2]; exact h5⟩

/-- C52: what `p256-sign` wrote, `p256-verify` accepts: on any disk with the same payload, the written signature and the
key's public half. -/
theorem signed_verifies (C : Setting S) (hp : C.prims.Laws) (payloadPath signaturePath seedPath : String) (s : S) {pair : Pair}
    {s1 : S} {es : List Event}
    (hseed : SeedIn C.prims C.disk seedPath pair) (h : p256Sign C payloadPath signaturePath seedPath s = ⟨.ok (), s1, es⟩)
    (C' : Setting S) (hpr : C'.prims = C.prims) (payloadPath' signaturePath' pubPath : String)
    (hpay : C'.disk.file payloadPath' = C.disk.file payloadPath)
    (hsig : C'.disk.file signaturePath' = (C.disk.after es).file signaturePath)
    (hpub : KeyIn C.prims C'.disk pubPath (pair.publicKey C.prims).toBytes) (s' : S) :
    (p256Verify C' payloadPath' signaturePath' pubPath s').result = .ok () := by
  obtain ⟨payload, pair', h1, h2, -, -, h3⟩ := (sign_exact ..).mp h
  have : pair' = pair := by
    have a := pairFromFile_ok.mpr h2
    rw [pairFromFile_ok.mpr hseed] at a
    exact (Except.ok.inj a).symm
  subst this
  obtain ⟨c, -, text, seed, -, -, hpair⟩ := hseed
  rw [h3] at hsig
  simp only [Disk.after, lastWrite, if_true, Option.none_or, Option.some_or] at hsig
  have hl : (C.prims.ecdsaSign pair'.signSecret payload).length = 64 :=
    hp.sig_length _ (hp.sign_ok _ _ (P256.pair_scalars _ _ _ hpair).2)
  obtain ⟨text, t1, t2⟩ := hex_text_reads (C.prims.ecdsaSign pair'.signSecret payload) (by rw [hl]; decide)
  have hv := P256.pair_sign_verifies C.prims hp seed payload pair' hpair
  have hv' := verify_ok.mp hv
  refine ((verify_exact ..).1).mpr ⟨payload, _, _, by rw [hpay, h1], ⟨_, text, hsig, t1, t2⟩, by rw [hpr]; exact hpub, ?_⟩
  rw [hpr]
  refine ⟨hv'.1, ?_⟩
  have : (pair'.publicKey C.prims).sign = (pair'.publicKey C.prims).toBytes.drop 65 := by
    obtain ⟨hk, -⟩ := P256.public_of_pair _ hp _ _ hpair
    exact ((P256.public_fromBytes_iff ..).mp hk).2.2.2.2
  rw [← this]
  exact hv'.2

/-- C52: `p256-asymmetric-encrypt` succeeds exactly when it can read both files, encrypt and write. -/
theorem encrypt_exact (C : Setting S) (plaintextPath ciphertextPath pubPath : String) (s s' : S) (es : List Event) :
    p256Encrypt C plaintextPath ciphertextPath pubPath s = ⟨.ok (), s', es⟩ ↔
      ∃ key plaintext target ct, KeyIn C.prims C.disk pubPath key ∧ C.disk.file plaintextPath = some plaintext ∧
        Public.fromBytes C.prims key = .ok target ∧ target.encrypt C.prims C.rand plaintext = .ok ct ∧
        C.disk.writable ciphertextPath = true ∧ s' = s ∧ es = [.wrote ciphertextPath ct] := by
  unfold p256Encrypt
  simp only [lift_bind_ok, readFile, orStop_ok, mapStop_ok, write_ok]
  constructor
  · rintro ⟨k, hk, pt, hpt, ct, hct, hw⟩
    obtain ⟨g1, -, g3⟩ := pubFromFile_exact hk
    exact ⟨_, pt, k, ct, g1, hpt, g3, hct, hw⟩
  · rintro ⟨key, pt, k, ct, h1, hpt, h3, hct, hw⟩
    obtain ⟨k', hk, rfl⟩ := (pubFromFile_iff ..).mpr h1
    obtain ⟨-, -, g3⟩ := pubFromFile_exact hk
    rw [h3, Except.ok.injEq] at g3
    subst g3
    exact ⟨k, hk, pt, hpt, ct, hct, hw⟩

/-- C52: `p256-asymmetric-decrypt` succeeds exactly when it can read both files, decrypt and write; it writes the
plaintext, or its hexadecimal form when asked for. -/
theorem decrypt_exact (C : Setting S) (plaintextPath ciphertextPath seedPath : String) (hex : Bool) (s s' : S) (es : List Event) :
    p256Decrypt C plaintextPath ciphertextPath seedPath hex s = ⟨.ok (), s', es⟩ ↔
      ∃ pair ct plaintext, SeedIn C.prims C.disk seedPath pair ∧ C.disk.file ciphertextPath = some ct ∧
        pair.decrypt C.prims ct = .ok plaintext ∧ C.disk.writable plaintextPath = true ∧ s' = s ∧
        es = [.wrote plaintextPath (if hex then Hex.encode plaintext else plaintext)] := by
  unfold p256Decrypt
  simp only [lift_bind_ok, readFile, orStop_ok, mapStop_ok, write_ok, pairFromFile_ok, exists_and_left]
  rfl

/-- C52: what was encrypted to a public key file is recovered, byte for byte, with the matching seed file. -/
theorem encrypted_decrypts (C : Setting S) (hp : C.prims.Laws) (hr : C.rand.Ok C.prims)
    (plaintextPath ciphertextPath pubPath : String) {s s1 : S} {es : List Event}
    (h : p256Encrypt C plaintextPath ciphertextPath pubPath s = ⟨.ok (), s1, es⟩) {pair : Pair}
    (hpub : KeyIn C.prims C.disk pubPath (pair.publicKey C.prims).toBytes) (C' : Setting S) (hpr : C'.prims = C.prims)
    (outPath ciphertextPath' seedPath : String) (hex : Bool) (hseed : SeedIn C.prims C'.disk seedPath pair)
    (hct : C'.disk.file ciphertextPath' = (C.disk.after es).file ciphertextPath) (hw : C'.disk.writable outPath = true) (s' : S) :
    ∃ plaintext, C.disk.file plaintextPath = some plaintext ∧
      p256Decrypt C' outPath ciphertextPath' seedPath hex s' =
        ⟨.ok (), s', [.wrote outPath (if hex then Hex.encode plaintext else plaintext)]⟩ := by
  obtain ⟨key, pt, k, ct, h1, h2, h3, h4, -, -, rfl⟩ := (encrypt_exact ..).mp h
  have : key = (pair.publicKey C.prims).toBytes := h1.unique hpub
  subst this
  obtain ⟨c, hc, text, seed, ht, hd, hpair⟩ := hseed
  have hk : k = pair.publicKey C.prims := by
    rw [(P256.public_of_pair _ hp _ _ hpair).1, Except.ok.injEq] at h3
    exact h3.symm
  subst hk
  refine ⟨pt, h2, (decrypt_exact ..).mpr ⟨pair, ct, pt, ?_, ?_, ?_, hw, rfl, rfl⟩⟩
  · rw [hpr]; exact ⟨c, hc, text, seed, ht, hd, hpair⟩
  · rw [hct]; simp [Disk.after, lastWrite]
  · rw [hpr]; exact P256.decrypt_encrypt C.prims hp seed pt ct pair C.rand hpair hr h4

/-- C52: every plaintext file below 2 GiB can be encrypted. -/
theorem encrypt_succeeds (C : Setting S) (hp : C.prims.Laws) (hr : C.rand.Ok C.prims)
    (plaintextPath ciphertextPath pubPath : String) {key plaintext : Bytes} (hk : KeyIn C.prims C.disk pubPath key)
    (hf : C.disk.file plaintextPath = some plaintext) (hl : plaintext.length < 2 ^ 31)
    (hw : C.disk.writable ciphertextPath = true) (s : S) :
    ∃ ct, p256Encrypt C plaintextPath ciphertextPath pubPath s = ⟨.ok (), s, [.wrote ciphertextPath ct]⟩ := by
  obtain ⟨k, hk', rfl⟩ := (pubFromFile_iff ..).mpr hk
  obtain ⟨-, -, g⟩ := pubFromFile_exact hk'
  obtain ⟨ct, hct⟩ := P256.encrypt_total C.prims hp _ plaintext k C.rand g hr hl
  exact ⟨ct, (encrypt_exact ..).mpr ⟨_, plaintext, k, ct, hk, hf, g, hct, hw, rfl, rfl⟩⟩

/-- C52: `get-ephemeral-key-hex` writes the public key in the document, as a public key file. The document is only
decoded: nothing is verified. -/
theorem ephemeral_key_file (C : Setting S) (docPath keyPath : String) (s s' : S) (es : List Event) :
    getEphemeralKeyHex C docPath keyPath s = ⟨.ok (), s', es⟩ ↔
      ∃ der doc key target, C.disk.file docPath = some der ∧ C.pki.decode der = .ok doc ∧ doc.publicKey = some key ∧
        Public.fromBytes C.prims key = .ok target ∧ C.disk.writable keyPath = true ∧ s' = s ∧
        es = [.wrote keyPath (Hex.encode key)] := by
  unfold getEphemeralKeyHex
  simp only [lift_bind_ok, orStop_ok, write_ok, ephemeralKey_ok, extractDoc, if_true, mapStop_ok]
  constructor
  · rintro ⟨der, h1, doc, h2, k, ⟨key, h3, h4⟩, h5, h6, h7⟩
    exact ⟨der, doc, key, k, h1, h2, h3, h4, h5, h6, by rw [h7, P256.public_reencode _ _ _ h4]⟩
  · rintro ⟨der, doc, key, k, h1, h2, h3, h4, h5, h6, h7⟩
    exact ⟨der, h1, doc, h2, k, ⟨key, h3, h4⟩, h5, h6, by rw [h7, P256.public_reencode _ _ _ h4]⟩

/-! ## Splitting and reconstructing -/

theorem natText_injective {m n : Nat} (h : natText m = natText n) : m = n := by
  have := digitsNat_natText m
  rw [h, digitsNat_natText] at this
  exact (Option.some.inj this).symm

theorem digit_name (n : Nat) : (String.ofList (natText n) ++ ".share").toList.head? ≠ some '/' := by
  cases h : natText n with
  | nil => exact absurd h (natText_ne_nil n)
  | cons c t =>
    have hd := natText_digits n c (by rw [h]; simp)
    simp only [String.toList_append, String.toList_ofList, List.cons_append, List.head?_cons, ne_eq, Option.some.injEq]
    rintro rfl
    revert hd
    decide

theorem sharePath_injective {dir : String} {m n : Nat} (h : sharePath dir m = sharePath dir n) : m = n := by
  unfold sharePath pathJoin at h
  rw [if_neg (digit_name m), if_neg (digit_name n)] at h
  have cancel : ∀ a b c d : String, a ++ b ++ d = a ++ c ++ d → b = c := by
    intro a b c d h
    have := congrArg String.toList h
    simp only [String.toList_append] at this
    exact String.toList_inj.mp (List.append_cancel_left (List.append_cancel_right this))
  have key : String.ofList (natText m) = String.ofList (natText n) := by
    by_cases hd : dir.toList = [] ∨ dir.toList.getLast? = some '/'
    · rw [if_pos hd, if_pos hd, ← String.append_assoc, ← String.append_assoc] at h
      exact cancel _ _ _ _ h
    · rw [if_neg hd, if_neg hd, ← String.append_assoc, ← String.append_assoc] at h
      exact cancel _ _ _ _ h
  exact natText_injective (by simpa using congrArg String.toList key)

/-- The share files, numbered from `i + 1`. -/
def shareFiles (dir : String) (i : Nat) (shares : List Bytes) : List Event :=
  (shares.zipIdx i).map fun x => .wrote (sharePath dir (x.2 + 1)) x.1

theorem writeShares_ok {C : Setting S} {dir : String} {shares : List Bytes} {i : Nat} {s s' : S} {es : List Event} :
    writeShares C dir i shares s = ⟨.ok (), s', es⟩ ↔
      (∀ j < shares.length, C.disk.writable (sharePath dir (i + j + 1)) = true) ∧ s' = s ∧ es = shareFiles dir i shares := by
  induction shares generalizing i es with
  | nil =>
    show (⟨.ok (), s, []⟩ : Out S Unit) = _ ↔ _
    simp only [Out.mk.injEq, true_and, List.length_nil, Nat.not_lt_zero, false_imp_iff, implies_true, shareFiles,
      List.zipIdx_nil, List.map_nil]
    exact ⟨fun ⟨a, b⟩ => ⟨a.symm, b.symm⟩, fun ⟨a, b⟩ => ⟨a.symm, b.symm⟩⟩
  | cons sh shares ih =>
    rw [writeShares, write_bind_ok]
    simp only [ih]
    constructor
    · rintro ⟨h1, es', ⟨h2, rfl, rfl⟩, rfl⟩
      refine ⟨?_, rfl, rfl⟩
      intro j hj
      cases j with
      | zero => exact h1
      | succ j =>
        have := h2 j (by simpa using hj)
        rwa [show i + (j + 1) + 1 = i + 1 + j + 1 by omega]
    · rintro ⟨h1, rfl, rfl⟩
      refine ⟨h1 0 (by simp), _, ⟨?_, rfl, rfl⟩, rfl⟩
      intro j hj
      have := h1 (j + 1) (by simpa using hj)
      rwa [show i + 1 + j + 1 = i + (j + 1) + 1 by omega]

theorem lastWrite_shareFiles (dir : String) (shares : List Bytes) (i n : Nat) :
    lastWrite (sharePath dir (i + n + 1)) (shareFiles dir i shares) = shares[n]? := by
  induction shares generalizing i n with
  | nil => rfl
  | cons sh shares ih =>
    have hcons : shareFiles dir i (sh :: shares) = .wrote (sharePath dir (i + 1)) sh :: shareFiles dir (i + 1) shares := rfl
    rw [hcons, lastWrite]
    cases n with
    | zero =>
      have : lastWrite (sharePath dir (i + 0 + 1)) (shareFiles dir (i + 1) shares) = none := by
        have hno : ∀ (l : List Bytes) (k : Nat), i < k → lastWrite (sharePath dir (i + 0 + 1)) (shareFiles dir k l) = none := by
          intro l
          induction l with
          | nil => intro k _; rfl
          | cons x l ih' =>
            intro k hk
            have hc : shareFiles dir k (x :: l) = .wrote (sharePath dir (k + 1)) x :: shareFiles dir (k + 1) l := rfl
            rw [hc, lastWrite, ih' (k + 1) (by omega), if_neg (fun hp => by have := sharePath_injective hp; omega)]
            rfl
        exact hno _ _ (by omega)
      rw [this]
      simp
    | succ n =>
      rw [if_neg (fun hp => by have := sharePath_injective hp; omega), Option.or_none,
        show i + (n + 1) + 1 = i + 1 + n + 1 by omega, ih]
      simp

/-- C52: `shamir-split` succeeds exactly for a readable, non-empty secret, a threshold of at least 2 and at most the number of
shares, at most 255 shares, and writable outputs. It writes `1.share` … `n.share`, and nothing else. -/
theorem split_exact (C : Setting S) (coeffs : Nat → Nat → UInt8) (secretPath : String) (total threshold : Nat) (dir : String)
    (s : S) :
    (∃ s' es, shamirSplit C coeffs secretPath total threshold dir s = ⟨.ok (), s', es⟩) ↔
      (∃ secret, C.disk.file secretPath = some secret ∧ secret ≠ []) ∧ 2 ≤ threshold ∧ threshold ≤ total ∧ total ≤ 255 ∧
        ∀ n, 1 ≤ n → n ≤ total → C.disk.writable (sharePath dir n) = true := by
  unfold shamirSplit
  simp only [lift_bind_ok, orStop_ok, mapStop_ok, writeShares_ok]
  constructor
  · rintro ⟨s', es, secret, h1, shares, h2, h3, -⟩
    obtain ⟨g1, g2, g3, g4⟩ := (Shamir.generate_iff ..).1 ⟨shares, h2⟩
    refine ⟨⟨secret, h1, g1⟩, g2, g3, g4, fun n hn hn' => ?_⟩
    have := h3 (n - 1) (by rw [(Shamir.shares_shape h2).1]; omega)
    rwa [show 0 + (n - 1) + 1 = n by omega] at this
  · rintro ⟨⟨secret, h1, g1⟩, g2, g3, g4, hw⟩
    obtain ⟨shares, h2⟩ := (Shamir.generate_iff secret total threshold coeffs).2 ⟨g1, g2, g3, g4⟩
    refine ⟨s, _, secret, h1, shares, h2, fun j hj => ?_, rfl, rfl⟩
    rw [(Shamir.shares_shape h2).1] at hj
    exact hw _ (by omega) (by omega)

/-- C52: from any `threshold` or more different share files that `shamir-split` wrote, in any order, `shamir-reconstruct`
writes the secret back, byte for byte. -/
theorem split_reconstructs (C : Setting S) (coeffs : Nat → Nat → UInt8) (secretPath : String) (total threshold : Nat)
    (dir : String) {s s1 : S} {es : List Event}
    (h : shamirSplit C coeffs secretPath total threshold dir s = ⟨.ok (), s1, es⟩)
    (numbers : List Nat) (hn : numbers.Nodup) (hr : ∀ n ∈ numbers, 1 ≤ n ∧ n ≤ total) (hk : threshold ≤ numbers.length)
    (C' : Setting S) (paths : List String)
    (hp : List.Forall₂ (fun n path => C'.disk.file path = (C.disk.after es).file (sharePath dir n)) numbers paths)
    (out : String) (hw : C'.disk.writable out = true) (s' : S) :
    ∃ secret, C.disk.file secretPath = some secret ∧
      shamirReconstruct C' paths out s' = ⟨.ok (), s', [.wrote out secret]⟩ := by
  unfold shamirSplit at h
  simp only [lift_bind_ok, orStop_ok, mapStop_ok, writeShares_ok] at h
  obtain ⟨secret, h1, shares, h2, -, -, rfl⟩ := h
  have hlen := (Shamir.shares_shape h2).1
  have hfile : ∀ n ∈ numbers, (C.disk.after (shareFiles dir 0 shares)).file (sharePath dir n) = some (shares.getD (n - 1) []) := by
    intro n hm
    obtain ⟨a, b⟩ := hr n hm
    have := lastWrite_shareFiles dir shares 0 (n - 1)
    rw [show 0 + (n - 1) + 1 = n by omega] at this
    show (lastWrite (sharePath dir n) (shareFiles dir 0 shares)).or _ = _
    rw [this, List.getElem?_eq_getElem (by omega), List.getD_eq_getElem?_getD, List.getElem?_eq_getElem (by omega)]
    rfl
  have hread : readShares C'.disk paths = .ok (numbers.map fun n => shares.getD (n - 1) []) := by
    clear hn hk
    unfold readShares
    induction hp with
    | nil => rfl
    | @cons n p ns ps hp _ ih =>
      rw [List.mapM_cons, List.map_cons]
      rw [hfile n (List.mem_cons_self ..)] at hp
      rw [hp, ih (fun m hm => hr m (List.mem_cons_of_mem _ hm)) (fun m hm => hfile m (List.mem_cons_of_mem _ hm))]
      rfl
  refine ⟨secret, h1, ?_⟩
  have hrec : Shamir.sharesReconstruct (numbers.map fun n => shares.getD (n - 1) []) = .ok secret := by
    refine Shamir.threshold_shares_reconstruct h2 ?_ ?_ (by simpa using hk)
    · refine List.Nodup.map_on ?_ hn
      intro a ha b hb hab
      have ha' := hr a ha
      have hb' := hr b hb
      have hnd := (Shamir.shares_shape h2).2.1
      rw [List.getD_eq_getElem?_getD, List.getD_eq_getElem?_getD, List.getElem?_eq_getElem (by omega),
        List.getElem?_eq_getElem (by omega)] at hab
      have := (List.Nodup.of_map _ hnd).getElem_inj_iff.mp hab
      omega
    · intro x hx
      obtain ⟨n, hm, rfl⟩ := List.mem_map.mp hx
      have hn' := hr n hm
      rw [List.getD_eq_getElem?_getD, List.getElem?_eq_getElem (by omega)]
      exact List.getElem_mem _
  unfold shamirReconstruct
  simp only [lift_bind_ok, mapStop_ok, write_ok]
  exact ⟨_, hread, secret, hrec, hw, trivial, rfl⟩

/-! ## Showing and converting manifests -/

open Json in
theorem plain_manifest (m : VersionedManifest) (h : m.Ok) :
    VersionedManifest.tryFromSliceCompat (writeBytes (manifestJson m)) = some m := by
  cases m with
  | v2 m =>
    have hl := JCodec.lawful_manifestV2
    have hp := hl.parse_write JCodec.depth_manifestV2 h
    have hd : declaresVersion (writeBytes (JCodec.manifestV2.enc m)) = true := by
      have hu := hl.unique m h
      simp only [declaresVersion, hp]
      rw [manifestV2_enc] at hu ⊢
      simp only [get_obj hu.1]
      simp [lookup]
    show VersionedManifest.tryFromSliceCompat (writeBytes (JCodec.manifestV2.enc m)) = _
    simp only [VersionedManifest.tryFromSliceCompat, hd, if_true, fromJsonSlice_some hp, hl.dec_enc m h, Option.map_some]
  | v1 m =>
    obtain ⟨b, h1, h2⟩ := storage_roundtrip_manifest (.v1 m) h
    cases h1
    exact h2
  | v0 m =>
    obtain ⟨b, h1, h2⟩ := storage_roundtrip_manifest (.v0 m) h
    cases h1
    exact h2

/-- C52: the JSON that `display --json` prints is the file's manifest or envelope, with its schema version: reading it
gives the same value. -/
theorem display_reads_back (C : Setting S) (path : String) :
    (∀ m, ManifestIn C.disk path m → m.Ok → ∃ b, displayJson C .manifest path = .ok (some b) ∧
      VersionedManifest.tryFromSliceCompat b = some m) ∧
    ∀ e, EnvelopeIn C.disk path e → e.Ok → ∃ b, displayJson C .manifestEnvelope path = .ok (some b) ∧
      Envelope.tryFromSliceCompat b = some e := by
  constructor
  · intro m hm ho
    refine ⟨_, ?_, plain_manifest m ho⟩
    unfold displayJson
    simp only [readManifest_iff.mpr hm]
    rfl
  · intro e he ho
    refine ⟨_, ?_, plain_roundtrip e ho⟩
    unfold displayJson
    simp only [readEnvelope_iff.mpr he]
    rfl

theorem no_json {α : Type} (c : JCodec α) {bs : Bytes} {b : UInt8} (hb : b ∈ bs)
    (h : ¬ (32 ≤ b.toNat ∨ b.toNat = 9 ∨ b.toNat = 10 ∨ b.toNat = 13)) : Json.parse bs = none := by
  cases hp : Json.parse bs with
  | none => rfl
  | some v => exact absurd (Json.parse_bytes hp b hb) h

theorem manifest_no_json (m : Manifest) (hl : (Borsh.manifest.enc m).length ≤ 128 * 1024 * 1024) :
    Json.parse (Borsh.manifest.enc m) = none := by
  obtain ⟨r, hr⟩ : ∃ r, Borsh.manifest.enc m = leBytes 4 (utf8 m.namespace.name).length ++ utf8 m.namespace.name ++ r :=
    Borsh.pair_prefix _ (Borsh.pair_prefix _ ⟨[], (List.append_nil _).symm⟩)
  rw [hr] at hl ⊢
  obtain ⟨x, hx, hc⟩ := lengthPrefix_control hl
  exact no_json JCodec.manifest hx hc

theorem envelope_no_json (e : EnvelopeOf Manifest) (hl : ((Borsh.envelopeOf Borsh.manifest).enc e).length ≤ 128 * 1024 * 1024) :
    Json.parse ((Borsh.envelopeOf Borsh.manifest).enc e) = none := by
  obtain ⟨r, hr⟩ : ∃ r, (Borsh.envelopeOf Borsh.manifest).enc e =
      leBytes 4 (utf8 e.manifest.namespace.name).length ++ utf8 e.manifest.namespace.name ++ r :=
    Borsh.pair_prefix _ (Borsh.pair_prefix _ (Borsh.pair_prefix _ ⟨[], (List.append_nil _).symm⟩))
  rw [hr] at hl ⊢
  obtain ⟨x, hx, hc⟩ := lengthPrefix_control hl
  exact no_json JCodec.manifest hx hc

theorem read_borsh_manifest {m : Manifest} (hm : Borsh.manifest.ok m)
    (hl : (Borsh.manifest.enc m).length ≤ 128 * 1024 * 1024) {m' : VersionedManifest}
    (h : VersionedManifest.tryFromSliceCompat (Borsh.manifest.enc m) = some m') : m' = .v1 m := by
  have hn := manifest_no_json m hl
  unfold VersionedManifest.tryFromSliceCompat declaresVersion fromJsonSlice at h
  simp only [hn, Bool.false_eq_true, if_false] at h
  unfold Borsh.decodeManifest Borsh.decodeBorsh at h
  rw [Borsh.tryFromSlice_enc Borsh.lawful_manifest hm] at h
  cases hx : Borsh.tryFromSlice Borsh.manifestV0 (Borsh.manifest.enc m) with
  | none => rw [hx] at h; exact (Option.some.inj h).symm
  | some _ => rw [hx] at h; cases h

theorem read_borsh_envelope {e : EnvelopeOf Manifest} (he : (Borsh.envelopeOf Borsh.manifest).ok e)
    (hl : ((Borsh.envelopeOf Borsh.manifest).enc e).length ≤ 128 * 1024 * 1024) {e' : Envelope}
    (h : Envelope.tryFromSliceCompat ((Borsh.envelopeOf Borsh.manifest).enc e) = some e') : e' = .v1 e := by
  have hn := envelope_no_json e hl
  unfold Envelope.tryFromSliceCompat envelopeDeclaresVersion fromJsonSlice at h
  simp only [hn, Bool.false_eq_true, if_false] at h
  unfold Borsh.decodeEnvelope Borsh.decodeBorsh at h
  rw [Borsh.tryFromSlice_enc (Borsh.lawful_envelopeOf Borsh.lawful_manifest) he] at h
  cases hx : Borsh.tryFromSlice (Borsh.envelopeOf Borsh.manifestV0) ((Borsh.envelopeOf Borsh.manifest).enc e) with
  | none => rw [hx] at h; exact (Option.some.inj h).symm
  | some _ => rw [hx] at h; cases h

/-- C52: there is no conversion of a genesis output: the command fails, and neither reads nor writes. -/
theorem convert_genesis_refused (C : Setting S) (path out : String) (s : S) :
    jsonToBorsh C .genesisOutput path out s = ⟨.error (.error .readShare), s, []⟩ := rfl

/-- C52: `json-to-borsh` of a V1 manifest writes exactly the bytes whose SHA-256 the approvals sign; whoever reads them,
reads that manifest or nothing. -/
theorem convert_v1_manifest (C : Setting S) (path out : String) {m : Manifest} (hm : ManifestIn C.disk path (.v1 m))
    (hw : C.disk.writable out = true) (s : S) :
    ∃ b, jsonToBorsh C .manifest path out s = ⟨.ok (), s, [.wrote out b]⟩ ∧
      C.prims.sha256 b = (VersionedManifest.v1 m).hash C.prims ∧
      ((VersionedManifest.v1 m).Fits → b.length ≤ 128 * 1024 * 1024 →
        ∀ m', VersionedManifest.tryFromSliceCompat b = some m' → m' = .v1 m) := by
  refine ⟨Borsh.manifest.enc m, ?_, rfl, fun hf hl m' h' => read_borsh_manifest hf hl h'⟩
  have hr : readManifestV1 C.disk path = .ok m := by
    unfold readManifestV1
    rw [readManifest_iff.mpr hm]
    rfl
  unfold jsonToBorsh
  simp only
  rw [Run.lift_ok hr]
  unfold writeOrError
  rw [if_pos hw]

/-- C52: `json-to-borsh` of a V1 envelope keeps the manifest and every approval: whoever reads the written bytes, reads
that envelope or nothing. -/
theorem convert_v1_envelope (C : Setting S) (path out : String) {e : EnvelopeOf Manifest} (he : EnvelopeIn C.disk path (.v1 e))
    (hw : C.disk.writable out = true) (s : S) :
    ∃ b, jsonToBorsh C .manifestEnvelope path out s = ⟨.ok (), s, [.wrote out b]⟩ ∧
      ((Borsh.envelopeOf Borsh.manifest).ok e → b.length ≤ 128 * 1024 * 1024 →
        ∀ e', Envelope.tryFromSliceCompat b = some e' → e' = .v1 e) := by
  refine ⟨(Borsh.envelopeOf Borsh.manifest).enc e, ?_, fun hf hl e' h' => read_borsh_envelope hf hl h'⟩
  have hr : readEnvelopeV1 C.disk path = .ok e := by
    unfold readEnvelopeV1
    rw [readEnvelope_iff.mpr he]
    rfl
  unfold jsonToBorsh
  simp only
  rw [Run.lift_ok hr]
  unfold writeOrError
  rw [if_pos hw]

/-- C52: a V2 manifest or envelope is never converted: nothing is written. -/
theorem convert_v2_refused (C : Setting S) (path out : String) (s : S) :
    (∀ m, ManifestIn C.disk path (.v2 m) →
      jsonToBorsh C .manifest path out s = ⟨.error (.error .manifestV2NotConvertibleToBorsh), s, []⟩) ∧
    ∀ e, EnvelopeIn C.disk path (.v2 e) →
      jsonToBorsh C .manifestEnvelope path out s = ⟨.error (.error .manifestV2NotConvertibleToBorsh), s, []⟩ := by
  constructor
  · intro m hm
    have hr : readManifestV1 C.disk path = .error (.error .manifestV2NotConvertibleToBorsh) := by
      unfold readManifestV1
      rw [readManifest_iff.mpr hm]
      rfl
    unfold jsonToBorsh
    simp only
    rw [Run.lift_error hr]
  · intro e he
    have hr : readEnvelopeV1 C.disk path = .error (.error .manifestV2NotConvertibleToBorsh) := by
      unfold readEnvelopeV1
      rw [readEnvelope_iff.mpr he]
      rfl
    unfold jsonToBorsh
    simp only
    rw [Run.lift_error hr]

theorem upgrade_length (m : ManifestV0) : (Borsh.manifest.enc m.upgrade).length = (Borsh.manifestV0.enc m).length + 5 := by
  simp only [Borsh.manifest, Borsh.manifestV0, Borsh.imap, Borsh.pair, Borsh.pivotConfig, Borsh.pivotConfigV0,
    ManifestV0.upgrade, PivotConfigV0.upgrade, List.length_append]
  have h1 : ((Borsh.vec Borsh.bridgeConfig).enc []).length = 4 := by simp [Borsh.vec, leBytes]
  have h2 : (Borsh.bool.enc false).length = 1 := rfl
  omega

/-- C52: `json-to-borsh` of a V0 manifest silently writes a V1 manifest with the same contents, no bridges and debug mode
off. What its hash covers is never what the hash of the V0 manifest covers: approvals of the original do not carry over. -/
theorem convert_v0_changes_hash (C : Setting S) (path out : String) {m : ManifestV0} (hm : ManifestIn C.disk path (.v0 m))
    (hw : C.disk.writable out = true) (s : S) :
    ∃ m1 : Manifest, jsonToBorsh C .manifest path out s = ⟨.ok (), s, [.wrote out (Borsh.manifest.enc m1)]⟩ ∧
      m1.namespace = m.namespace ∧ m1.pivot.hash = m.pivot.hash ∧ m1.pivot.restart = m.pivot.restart ∧
      m1.pivot.args = m.pivot.args ∧ m1.pivot.bridgeConfig = [] ∧ m1.pivot.debugMode = false ∧
      m1.manifestSet = m.manifestSet ∧ m1.shareSet = m.shareSet ∧ m1.enclave = m.enclave ∧ m1.patchSet = m.patchSet ∧
      (VersionedManifest.v1 m1).hashInput ≠ (VersionedManifest.v0 m).hashInput := by
  refine ⟨m.upgrade, ?_, rfl, rfl, rfl, rfl, rfl, rfl, rfl, rfl, rfl, rfl, ?_⟩
  · have hr : readManifestV1 C.disk path = .ok m.upgrade := by
      unfold readManifestV1
      rw [readManifest_iff.mpr hm]
      rfl
    unfold jsonToBorsh
    simp only
    rw [Run.lift_ok hr]
    unfold writeOrError
    rw [if_pos hw]
  · intro h
    have := congrArg List.length (Option.some.inj h)
    rw [upgrade_length] at this
    omega

/-- C52: the same for a V0 envelope: the approvals are copied although the hash they sign is no longer the manifest's. -/
theorem convert_v0_envelope (C : Setting S) (path out : String) {e : EnvelopeOf ManifestV0} (he : EnvelopeIn C.disk path (.v0 e))
    (hw : C.disk.writable out = true) (s : S) :
    ∃ e1 : EnvelopeOf Manifest,
      jsonToBorsh C .manifestEnvelope path out s = ⟨.ok (), s, [.wrote out ((Borsh.envelopeOf Borsh.manifest).enc e1)]⟩ ∧
      e1.manifestSetApprovals = e.manifestSetApprovals ∧ e1.shareSetApprovals = e.shareSetApprovals ∧
      e1.manifest.namespace = e.manifest.namespace ∧ e1.manifest.manifestSet = e.manifest.manifestSet ∧
      (VersionedManifest.v1 e1.manifest).hashInput ≠ (VersionedManifest.v0 e.manifest).hashInput := by
  refine ⟨⟨e.manifest.upgrade, e.manifestSetApprovals, e.shareSetApprovals⟩, ?_, rfl, rfl, rfl, rfl, ?_⟩
  · have hr : readEnvelopeV1 C.disk path = .ok ⟨e.manifest.upgrade, e.manifestSetApprovals, e.shareSetApprovals⟩ := by
      unfold readEnvelopeV1
      rw [readEnvelope_iff.mpr he]
      rfl
    unfold jsonToBorsh
    simp only
    rw [Run.lift_ok hr]
    unfold writeOrError
    rw [if_pos hw]
  · intro h
    have := congrArg List.length (Option.some.inj h)
    rw [upgrade_length] at this
    omega

/-! ## In a row -/

theorem generate_succeeds (C : Setting S) (seed : Bytes) {pair : Pair} (hk : Pair.fromMasterSeed C.prims seed = .ok pair)
    (secretPath pubPath : String) (hw : ∀ path, C.disk.writable path = true) (s : S) :
    ∃ es, generateFileKey C seed secretPath pubPath s = ⟨.ok (), s, es⟩ := by
  refine ⟨[.wrote secretPath pair.toMasterSeedHex, .wrote pubPath (Hex.encode (pair.publicKey C.prims).toBytes)], ?_⟩
  unfold generateFileKey
  rw [lift_bind_ok]
  refine ⟨pair, mapStop_ok.mpr hk, write_bind_ok.mpr ⟨hw _, _, write_ok.mpr ⟨hw _, rfl, rfl⟩, rfl⟩⟩

/-- C52: a fresh key file signs any payload so that its public key file verifies it, the three commands run one after the
other on one disk. -/
theorem fresh_key_signs (C : Setting S) (hp : C.prims.Laws) (seed : Bytes) (h32 : seed.length = 32) {pair : Pair}
    (hk : Pair.fromMasterSeed C.prims seed = .ok pair) (hw : ∀ path, C.disk.writable path = true)
    (secretPath pubPath payloadPath signaturePath : String)
    (hne : [secretPath, pubPath, payloadPath, signaturePath].Nodup) {payload : Bytes}
    (hf : C.disk.file payloadPath = some payload) (s : S) :
    ∃ es1 es2, generateFileKey C seed secretPath pubPath s = ⟨.ok (), s, es1⟩ ∧
      p256Sign { C with disk := C.disk.after es1 } payloadPath signaturePath secretPath s = ⟨.ok (), s, es2⟩ ∧
      (p256Verify { C with disk := (C.disk.after es1).after es2 } payloadPath signaturePath pubPath s).result = .ok () := by
  simp only [List.nodup_cons, List.mem_cons, List.not_mem_nil, or_false, not_or, not_false_eq_true, List.nodup_nil, and_true] at hne
  obtain ⟨⟨n1, n2, n3⟩, ⟨n4, n5⟩, n6⟩ := hne
  obtain ⟨es1, h1⟩ := generate_succeeds C seed hk secretPath pubPath hw s
  obtain ⟨pair', secret, pub, g1, -, rfl, g2, g3⟩ := generated_key_reads C hp seed h32 secretPath pubPath n1 s s es1 h1
  rw [hk, Except.ok.injEq] at g1
  subst g1
  let C1 : Setting S := { C with disk := C.disk.after [.wrote secretPath secret, .wrote pubPath pub] }
  have hpay : C1.disk.file payloadPath = some payload := by
    show (lastWrite payloadPath _).or _ = _
    simp [lastWrite, n2, n4, hf]
  have h2 : p256Sign C1 payloadPath signaturePath secretPath s = ⟨.ok (), s, _⟩ :=
    (sign_exact C1 payloadPath signaturePath secretPath s s _).mpr ⟨payload, pair, hpay, g2, hw _, rfl, rfl⟩
  refine ⟨_, _, h1, h2, ?_⟩
  refine signed_verifies C1 hp payloadPath signaturePath secretPath s g2 h2
    { C1 with disk := C1.disk.after _ } rfl payloadPath signaturePath pubPath ?_ rfl ?_ s
  · show (lastWrite payloadPath _).or _ = _
    simp [lastWrite, Ne.symm n6]
  · obtain ⟨c, hc, ht⟩ := g3
    refine ⟨c, ?_, ht⟩
    show (lastWrite pubPath _).or _ = _
    simp only [lastWrite, if_neg (Ne.symm n5), Option.none_or]
    exact hc

/-! ## Concrete cases -/

example : ∃ es1 es2, generateFileKey toySetting (List.replicate 32 1) "me.secret" "me.pub" () = ⟨.ok (), (), es1⟩ ∧
    p256Sign { toySetting with disk := toyDisk.after es1 } "role" "role.sig" "me.secret" () = ⟨.ok (), (), es2⟩ ∧
    (p256Verify { toySetting with disk := (toyDisk.after es1).after es2 } "role" "role.sig" "me.pub" ()).result = .ok () :=
  fresh_key_signs toySetting P256.toyLaws (List.replicate 32 1) (by decide) (toyPair_ok 1 (by simp)) (fun _ => rfl) "me.secret"
    "me.pub" "role" "role.sig" (by decide) rfl ()

example : ∃ ct, p256Encrypt toySetting "role" "role.enc" "set/b.pub" () = ⟨.ok (), (), [.wrote "role.enc" ct]⟩ :=
  encrypt_succeeds toySetting P256.toyLaws ⟨by decide +kernel, by decide⟩ "role" "role.enc" "set/b.pub"
    (key := (toyMember 1).pubKey) ⟨_, by decide +kernel, toyMember_key 1 (by simp)⟩
    (plaintext := ascii "arn:aws:iam::1:role/qos\n") (by decide +kernel) (by decide +kernel) rfl ()

/-- Two of the three shares of the toy role file give it back. -/
example (coeffs : Nat → Nat → UInt8) : ∃ es, shamirSplit toySetting coeffs "role" 3 2 "shares" () = ⟨.ok (), (), es⟩ ∧
    shamirReconstruct { toySetting with disk := toyDisk.after es } ["shares/3.share", "shares/1.share"] "out" () =
      ⟨.ok (), (), [.wrote "out" (ascii "arn:aws:iam::1:role/qos\n")]⟩ := by
  obtain ⟨s', es, h⟩ := (split_exact toySetting coeffs "role" 3 2 "shares" ()).mpr
    ⟨⟨ascii "arn:aws:iam::1:role/qos\n", by decide +kernel, by decide +kernel⟩, by decide, by decide, by decide, fun _ _ _ => rfl⟩
  refine ⟨es, h, ?_⟩
  obtain ⟨secret, h1, h2⟩ := split_reconstructs toySetting coeffs "role" 3 2 "shares" h [3, 1] (by decide) (by simp) (by simp)
    { toySetting with disk := toyDisk.after es } ["shares/3.share", "shares/1.share"]
    (.cons (by rw [show sharePath "shares" 3 = "shares/3.share" by decide +kernel]; rfl)
      (.cons (by rw [show sharePath "shares" 1 = "shares/1.share" by decide +kernel]; rfl) .nil)) "out" rfl ()
  rw [h2]
  have : toySetting.disk.file "role" = some (ascii "arn:aws:iam::1:role/qos\n") := by decide +kernel
  rw [this, Option.some.injEq] at h1
  rw [← h1]

end Qos.Client
