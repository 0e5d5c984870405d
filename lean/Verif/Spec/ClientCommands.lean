import Verif.Spec.ClientWrites
import Verif.Spec.Client
import Verif.Spec.ClientTools
import Verif.Spec.ClientForward
/-!
# What success of a command means

One entry per command, in terms of its options, the files they name and the answers of the host they name. `out` is the run:
its result (what is printed), and its events (questions asked, bytes sent, files written).
-/
namespace Qos.ClientCli
open Parser (Item)
open HostCli (Says SaysOr)
open Client
open P256 (Pair Public)

variable {S : Type}

/-- The host at `url` was sent the message `m`, and answered with the message `r`. -/
def Answered (o : Outside S) (url : String) (m r : Msg) : Prop :=
  ∃ enc b s', Wire.toWire m enc = .ok b ∧ readAnswer (o.post url s' b).2 = some r

/-- The only file written is `path`, with these contents. Before, requests may have been sent. -/
def SendsThenWrites (es : List Client.Event) (path : String) (c : Bytes) : Prop :=
  ∃ sents, es = sents ++ [.wrote path c] ∧ ∀ e ∈ sents, ∃ b, e = .sent b

/-- What success means. -/
def Done (C : Setting S) (o : Outside S) (s : S) (items : List Item) (out : Out S Shown) : Command → Prop
  | .hostHealth => ∃ url b, SaysUrl items "host-health" url ∧ (o.get url s).2 = some b ∧
      out = ⟨.ok (.text b), (o.get url s).1, []⟩
  | .enclaveStatus => ∃ url p, SaysUrl items "message" url ∧ Answered o url .statusRequest (.statusResponse p) ∧
      out.result = .ok (.phase p)
  | .enclaveVersion => ∃ url v c, SaysUrl items "message" url ∧ Answered o url .versionRequest (.versionResponse v c) ∧
      out.result = .ok (.version v c)
  | .generateFileKey => ∃ secret pub pair, Says items "master-seed-path" secret ∧ Says items "pub-path" pub ∧
      Pair.fromMasterSeed C.prims o.seed = .ok pair ∧
      out.events = [.wrote secret (Hex.encode pair.seed), .wrote pub (Hex.encode (pair.publicKey C.prims).toBytes)]
  | .provisionYubikey => False
  | .advancedProvisionYubikey => False
  | .yubikeySign => False
  | .yubikeyPublic => False
  | .yubikeyPivReset => False
  | .yubikeyChangePin => False
  | .bootGenesis => ∃ url dir sets release pcr3 dr, SaysUrl items "message" url ∧ Says items "namespace-dir" dir ∧
      Says items "share-set-dir" sets ∧ Says items "qos-release-dir" release ∧ Says items "pcr3-preimage-path" pcr3 ∧
      SaysMaybe items "dr-key-path" dr ∧
      (.flag "unsafe-skip-attestation" ∉ items → ∃ set drKey cose answer body,
        SetIn C.prims C.disk sets ⟨set.threshold, set.members⟩ ∧ DrKeyIn C.prims C.disk dr drKey ∧
        Wire.toWire (.bootGenesisRequest set drKey) .json = .ok body ∧
        readAnswer (o.post url s body).2 = some (.bootGenesisResponse (.attestation cose) answer) ∧
        Answers C.prims set drKey answer ∧ GenesisDoc C cose C.now release pcr3 answer ∧
        out.events = .sent body :: genesisFiles dir cose answer)
  | .afterGenesis => ∃ secret share name dir release pcr3 t pair, Says items "secret-path" secret ∧
      Says items "share-path" share ∧ Says items "alias" name ∧ Says items "namespace-dir" dir ∧
      Says items "qos-release-dir" release ∧ Says items "pcr3-preimage-path" pcr3 ∧ SaysTime items t ∧
      SeedIn C.prims C.disk secret pair ∧
      (.flag "unsafe-skip-attestation" ∉ items → ∃ cose g own plain,
        C.disk.file (pathJoin dir "genesis_attestation_doc") = some cose ∧ OutputIn C.disk dir g ∧
        GenesisDoc C cose (t.getD C.now) release pcr3 g ∧ own ∈ g.memberOutputs ∧
        own.member = ⟨name, (pair.publicKey C.prims).toBytes⟩ ∧ pair.decrypt C.prims own.encryptedShare = .ok plain ∧
        C.prims.sha512 plain = own.shareHash ∧ out.events = [.wrote share own.encryptedShare])
  | .verifyGenesis => ∃ dir path g seed quorum, Says items "namespace-dir" dir ∧ Says items "master-seed-path" path ∧
      OutputIn C.disk dir g ∧ C.disk.file path = some (Hex.encode seed) ∧ seed.length = 32 ∧
      Pair.fromMasterSeed C.prims seed = .ok quorum ∧ C.prims.sha512 (Hex.encode seed) = g.quorumKeyHash ∧
      quorum.sign C.prims g.testMessage = g.testMessageSignature ∧
      quorum.decrypt C.prims g.testMessageCiphertext = .ok g.testMessage
  | .generateManifest => ∃ a m c v2, Asks items (.generateManifest v2 a) ∧ VersionedManifest.tryFromSliceCompat c = some m ∧
      LocalMatch C.prims C.awsRoot C.disk a.places m ∧ Requested a m ∧ m.Ok ∧ (v2 = true ↔ ∃ x, m = .v2 x) ∧
      out.events = [.wrote a.manifestPath c]
  | .approveManifest => ∃ secret a pair m path c es, Asks items (.approveManifest (.file secret) a) ∧
      SeedIn C.prims C.disk secret pair ∧ ManifestIn C.disk a.manifestPath m ∧
      LocalMatch C.prims C.awsRoot C.disk a.places m ∧ out.events = es ++ [.wrote path c] ∧
      (.flag "unsafe-auto-confirm" ∉ items → Reviewed m es) ∧
      ApprovalText C.prims a.memberAlias (pair.publicKey C.prims).toBytes (m.hash C.prims) c
  | .generateManifestEnvelope => ∃ dir mpath path e c, Says items "manifest-approvals-dir" dir ∧
      Says items "manifest-path" mpath ∧ (Says items "manifest-envelope-path" path ∨
        (∀ p, ¬ Says items "manifest-envelope-path" p) ∧ path = pathJoin dir "manifest_envelope") ∧
      ManifestIn C.disk mpath e.manifest ∧ ApprovalsIn C.disk dir e.manifestSetApprovals ∧ e.shareSetApprovals = [] ∧
      Quorum C.prims (e.manifest.hash C.prims) e.manifest.manifestSet e.manifestSetApprovals ∧
      (e.Ok → Envelope.tryFromSliceCompat c = some e) ∧ out.events = [.wrote path c]
  | .bootStandard => ∃ url pivotPath envelopePath pcr3 e pivot cose, SaysUrl items "message" url ∧
      Says items "pivot-path" pivotPath ∧ Says items "manifest-envelope-path" envelopePath ∧
      Says items "pcr3-preimage-path" pcr3 ∧ EnvelopeIn C.disk envelopePath e ∧ C.disk.file pivotPath = some pivot ∧
      (∃ m, (m = .bootStandardJsonEnvelopeRequest e pivot ∨ m = .bootStandardRequest e pivot) ∧
        Answered o url m (.bootStandardResponse (.attestation cose))) ∧
      (.flag "unsafe-skip-attestation" ∉ items → ∃ role key target, GenuineDoc C cose pcr3 role e.manifest key ∧
        Public.fromBytes C.prims key = .ok target)
  | .getAttestationDoc => ∃ url docPath envelopePath doc e sents, SaysUrl items "message" url ∧
      Says items "attestation-doc-path" docPath ∧ Says items "manifest-envelope-path" envelopePath ∧
      Answered o url .liveAttestationDocRequest (.liveAttestationDocResponse (.attestation doc) (some e)) ∧
      out.events = sents ++ [.wrote docPath doc, .wrote envelopePath (Json.writeBytes e.encUntagged)] ∧
      ∀ ev ∈ sents, ∃ b, ev = .sent b
  | .getEphemeralKeyHex => ∃ docPath keyPath der doc key target, Says items "attestation-doc-path" docPath ∧
      Says items "ephemeral-key-path" keyPath ∧ C.disk.file docPath = some der ∧ C.pki.decode der = .ok doc ∧
      doc.publicKey = some key ∧ Public.fromBytes C.prims key = .ok target ∧ out.events = [.wrote keyPath (Hex.encode key)]
  | .proxyReEncryptShare => ∃ secret a pair e share plain target wrapped approval es,
      Asks items (.proxyReEncryptShare (.file secret) a) ∧ SeedIn C.prims C.disk secret pair ∧
      EnvelopeIn C.disk a.envelopePath e ∧ C.disk.file a.sharePath = some share ∧ pair.decrypt C.prims share = .ok plain ∧
      Public.encrypt C.prims target C.rand plain = .ok wrapped ∧
      ApprovalText C.prims a.memberAlias (pair.publicKey C.prims).toBytes (e.manifest.hash C.prims) approval ∧
      out.events = es ++ [.wrote a.approvalPath approval, .wrote a.wrappedPath wrapped] ∧ (∀ p c, .wrote p c ∉ es)
  | .postShare => ∃ url wrappedPath approvalPath x c a r, SaysUrl items "message" url ∧
      Says items "eph-wrapped-share-path" wrappedPath ∧ Says items "approval-path" approvalPath ∧
      C.disk.file wrappedPath = some x ∧ C.disk.file approvalPath = some c ∧ fromJsonSlice JCodec.approval c = some a ∧
      Answered o url (.provisionRequest x a) (.provisionResponse r) ∧ out.result = .ok (.reconstructed r)
  | .dangerousDevBoot => ∃ url s1 w1 s2 w2, SaysUrl items "message" url ∧
      readAnswer (o.post url s1 w1).2 = some (.provisionResponse false) ∧
      readAnswer (o.post url s2 w2).2 = some (.provisionResponse true) ∧ out.state = (o.post url s2 w2).1
  | .pivotHash => ∃ pivotPath output pivot, Says items "pivot-path" pivotPath ∧ Says items "output-path" output ∧
      C.disk.file pivotPath = some pivot ∧ out.events = [.wrote output (Hex.encode (C.prims.sha256 pivot))]
  | .shamirSplit => ∃ path dir total threshold secret shares, Says items "secret-path" path ∧ Says items "output-dir" dir ∧
      SaysNumber items "total-shares" (2 ^ 64) total ∧ SaysNumber items "threshold" (2 ^ 64) threshold ∧
      C.disk.file path = some secret ∧ Shamir.sharesGenerate secret total threshold o.coeffs = .ok shares ∧
      out.events = shares.mapIdx fun i share => .wrote (sharePath dir (i + 1)) share
  | .shamirReconstruct => ∃ output shares secret, Says items "output-path" output ∧
      List.Forall₂ (fun path share => C.disk.file path = some share) (saidAll items "share") shares ∧
      Shamir.sharesReconstruct shares = .ok secret ∧ out.events = [.wrote output secret]
  | .display => ∃ path, Says items "file-path" path ∧ out.events = [] ∧
      (Says items "display-type" "manifest" ∧ (∃ m, ManifestIn C.disk path m ∧
        (.flag "json" ∈ items → m.Ok → ∃ b, out.result = .ok (.text b) ∧ VersionedManifest.tryFromSliceCompat b = some m)) ∨
       Says items "display-type" "manifest-envelope" ∧ (∃ e, EnvelopeIn C.disk path e ∧
        (.flag "json" ∈ items → e.Ok → ∃ b, out.result = .ok (.text b) ∧ Envelope.tryFromSliceCompat b = some e)) ∨
       Says items "display-type" "genesis-output" ∧ ∃ c g, C.disk.file path = some c ∧
        Borsh.tryFromSlice Services.genesisOutputCodec c = some g)
  | .jsonToBorsh => ∃ path output c, Says items "file-path" path ∧ Says items "output-path" output ∧
      out.events = [.wrote output c] ∧
      (Says items "display-type" "manifest" ∧ (∃ m, (ManifestIn C.disk path (.v1 m) ∨
          ∃ m0, ManifestIn C.disk path (.v0 m0) ∧ m = m0.upgrade) ∧ c = Borsh.manifest.enc m) ∨
       Says items "display-type" "manifest-envelope" ∧ ∃ e, (EnvelopeIn C.disk path (.v1 e) ∨
          ∃ e0, EnvelopeIn C.disk path (.v0 e0) ∧ e = ⟨e0.manifest.upgrade, e0.manifestSetApprovals, e0.shareSetApprovals⟩) ∧
        c = (Borsh.envelopeOf Borsh.manifest).enc e)
  | .bootKeyFwd => ∃ url envelopePath pivotPath docPath e pivot doc, SaysUrl items "message" url ∧
      Says items "manifest-envelope-path" envelopePath ∧ Says items "pivot-path" pivotPath ∧
      Says items "attestation-doc-path" docPath ∧ EnvelopeIn C.disk envelopePath e ∧ C.disk.file pivotPath = some pivot ∧
      Answered o url (.bootKeyForwardRequest e pivot) (.bootKeyForwardResponse (.attestation doc)) ∧
      SendsThenWrites out.events docPath doc
  | .exportKey => ∃ url envelopePath docPath output e doc ct sig, SaysUrl items "message" url ∧
      Says items "manifest-envelope-path" envelopePath ∧ Says items "attestation-doc-path" docPath ∧
      Says items "encrypted-quorum-key-path" output ∧ EnvelopeIn C.disk envelopePath e ∧ C.disk.file docPath = some doc ∧
      Answered o url (.exportKeyRequest e doc) (.exportKeyResponse ct sig) ∧
      SendsThenWrites out.events output (keyFile ct sig)
  | .injectKey => ∃ url path c ct sig, SaysUrl items "message" url ∧ Says items "encrypted-quorum-key-path" path ∧
      C.disk.file path = some c ∧ fromJsonSlice encryptedKeyCodec c = some (ct, sig) ∧
      Answered o url (.injectKeyRequest ct sig) .injectKeyResponse
  | .p256Verify => ∃ payloadPath sigPath pubPath payload sig key, Says items "payload-path" payloadPath ∧
      Says items "signature-path" sigPath ∧ Says items "pub-path" pubPath ∧ C.disk.file payloadPath = some payload ∧
      SignatureIn C.disk sigPath sig ∧ KeyIn C.prims C.disk pubPath key ∧ SignedBy C.prims key payload sig
  | .p256Sign => ∃ payloadPath sigPath seedPath payload pair, Says items "payload-path" payloadPath ∧
      Says items "signature-path" sigPath ∧ Says items "master-seed-path" seedPath ∧ C.disk.file payloadPath = some payload ∧
      SeedIn C.prims C.disk seedPath pair ∧
      out.events = [.wrote sigPath (Hex.encode (C.prims.ecdsaSign pair.signSecret payload))]
  | .p256AsymmetricEncrypt => ∃ plainPath cipherPath pubPath plain key target ct, Says items "plaintext-path" plainPath ∧
      Says items "ciphertext-path" cipherPath ∧ Says items "pub-path" pubPath ∧ C.disk.file plainPath = some plain ∧
      KeyIn C.prims C.disk pubPath key ∧ Public.fromBytes C.prims key = .ok target ∧
      target.encrypt C.prims C.rand plain = .ok ct ∧ out.events = [.wrote cipherPath ct]
  | .p256AsymmetricDecrypt => ∃ plainPath cipherPath seedPath plain ct pair, Says items "plaintext-path" plainPath ∧
      Says items "ciphertext-path" cipherPath ∧ Says items "master-seed-path" seedPath ∧ C.disk.file cipherPath = some ct ∧
      SeedIn C.prims C.disk seedPath pair ∧ pair.decrypt C.prims ct = .ok plain ∧
      (.flag "output-hex" ∈ items → out.events = [.wrote plainPath (Hex.encode plain)]) ∧
      (.flag "output-hex" ∉ items → out.events = [.wrote plainPath plain])

end Qos.ClientCli
