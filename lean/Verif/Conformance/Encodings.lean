import Verif.Conformance.Real
import Verif.Conformance.Fixtures
import Verif.Model.Manifest
import Verif.Model.Shamir
/-!
# Replay of the encoding vectors of the unit tests

Canonical JSON (qos_json), Borsh manifests (qos_core), Shamir shares (qos_crypto), points (qos_p256): what the tests of
the repository assert of the real program, checked of the model by the kernel. A check of the model, not a property.
-/
namespace Qos.Conformance

/-! ## qos_json/src/lib.rs:320-760 and qos_json/SPEC.md:77-126 -/

/-- `canonicalize_raw_str` of the tests (lib.rs:333-336). -/
def canonical (s : String) : Option String :=
  match Json.parseText s.toList with
  | some v => (Json.canon v).map String.ofList
  | none => none

/-- `hash_raw_json_slice` of the tests (lib.rs:338-341), of a canonical text of ASCII characters. -/
def digest (s : String) : Option Bytes :=
  match Json.parseText s.toList with
  | some v => (Json.canon v).map fun cs => sha256 (cs.map fun c => UInt8.ofNat c.toNat)
  | none => none

/-- lib.rs:343-366, SPEC.md:104-108. -/
example : canonical "{\"version\":\"1\",\"name\":\"test\",\"threshold\":\"3\"}" =
      canonical "{\n\t\t\t\"threshold\": \"3\",\n\t\t\t\"name\": \"test\",\n\t\t\t\"version\": \"1\"\n\t\t}" ∧
    canonical "{\"version\":\"1\",\"name\":\"test\",\"threshold\":\"3\"}" = some "{\"name\":\"test\",\"threshold\":\"3\",\"version\":\"1\"}" ∧
    digest "{\"version\":\"1\",\"name\":\"test\",\"threshold\":\"3\"}" =
      some (be 32 0x898eaf2263b3ca34a9fb0b59615a16e5819b43c53fabc44396f92128f72ccc7e) := by decide +kernel
/-- lib.rs:387-402, SPEC.md:120-126: bytes are hexadecimal text. -/
example : Json.canon (.obj [("data", JCodec.hexVec.enc [0xde, 0xad, 0xbe, 0xef])]) = some "{\"data\":\"deadbeef\"}".toList ∧
    digest "{\"data\":\"deadbeef\"}" = some (be 32 0x03fe564ceddcb54a7a742bd7a4db57318a068cecd22ae44435ce68d35e754e13) := by decide +kernel
/-- SPEC.md:86-91. -/
example : digest "{}" = some (be 32 0x44136fa355b3678a1146ad16f7e8649e94fb4fc21fe77e8310c060f61caaff8a) := by decide +kernel
/-- lib.rs:441-450. -/
example : canonical "{\"b\":null,\"a\":\"1\",\"nested\":{\"z\":null,\"y\":\"2\"},\"items\":[null,{\"x\":null,\"y\":true}]}" =
      some "{\"a\":\"1\",\"items\":[null,{\"y\":true}],\"nested\":{\"y\":\"2\"}}" ∧
    canonical "{\"a\":\"1\",\"b\":null}" = canonical "{\"a\":\"1\"}" := by decide +kernel
/-- lib.rs:452-461. -/
example : canonical "{\"empty\":null,\"items\":[null,{\"drop\":null,\"keep\":\"yes\"},null]}" =
    some "{\"items\":[null,{\"keep\":\"yes\"},null]}" := by decide +kernel
/-- lib.rs:484-490. -/
example : canonical "{\"n\":1}" = some "{\"n\":\"1\"}" ∧ canonical "{\"n\":-9007199254740991}" = some "{\"n\":\"-9007199254740991\"}" := by
  decide +kernel
/-- lib.rs:492-497: read, then refused. -/
example : canonical "{\"n\":1.0}" = none ∧ canonical "{\"n\":1e0}" = none ∧ canonical "{\"n\":-1.25}" = none ∧
    (Json.parseText "{\"n\":1.0}".toList).isSome ∧ (Json.parseText "{\"n\":1e0}".toList).isSome ∧
    (Json.parseText "{\"n\":-1.25}".toList).isSome := by decide +kernel
/-- lib.rs:512-545: UTF-16 order of the keys. -/
example : canonical ("{\n\"\\u20ac\": \"Euro Sign\",\n\"\\r\": \"Carriage Return\",\n\"\\ufb33\": \"Hebrew Letter Dalet With Dagesh\",\n\"1\": \"One\",\n" ++
      "\"\\ud83d\\ude00\": \"Emoji: Grinning Face\",\n\"\\u0080\": \"Control\",\n\"\\u00f6\": \"Latin Small Letter O With Diaeresis\"\n}") =
    some ("{\"\\r\":\"Carriage Return\",\"1\":\"One\",\"\u0080\":\"Control\",\"ö\":\"Latin Small Letter O With Diaeresis\",\"€\":\"Euro Sign\"," ++
      "\"😀\":\"Emoji: Grinning Face\",\"\ufb33\":\"Hebrew Letter Dalet With Dagesh\"}") := by decide +kernel
/-- lib.rs:547-558. -/
example : canonical "{\"z\":{\"b\":\"2\",\"a\":\"1\"},\"a\":[{\"d\":\"4\",\"c\":\"3\"},\"second\",{\"b\":\"2\",\"a\":\"1\"}]}" =
    some "{\"a\":[{\"c\":\"3\",\"d\":\"4\"},\"second\",{\"a\":\"1\",\"b\":\"2\"}],\"z\":{\"a\":\"1\",\"b\":\"2\"}}" := by decide +kernel
/-- lib.rs:560-569. -/
example : canonical "{\"b\":\"plain\",\"\\n\":\"line feed\",\"\\r\":\"carriage return\",\"\\u0001\":\"control\"}" =
    some "{\"\\u0001\":\"control\",\"\\n\":\"line feed\",\"\\r\":\"carriage return\",\"b\":\"plain\"}" := by decide +kernel
/-- lib.rs:571-580. -/
example : canonical "{\"quote\":\"\\\"\",\"slash\":\"/\",\"control\":\"\\u0001\",\"line\":\"a\\nb\",\"unicode\":\"€\",\"poop\":\"💩\"}" =
    some "{\"control\":\"\\u0001\",\"line\":\"a\\nb\",\"poop\":\"💩\",\"quote\":\"\\\"\",\"slash\":\"/\",\"unicode\":\"€\"}" := by decide +kernel
/-- lib.rs:582-591. -/
example : canonical "{\n  \"z\": [ true, false, null ],\n  \"a\": { \"b\": \"2\", \"a\": \"1\" }\n}" =
    some "{\"a\":{\"a\":\"1\",\"b\":\"2\"},\"z\":[true,false,null]}" := by decide +kernel
/-- lib.rs:651-660. -/
example : canonical "{\"empty_object\":{},\"empty_array\":[],\"null_member\":null}" = some "{\"empty_array\":[],\"empty_object\":{}}" := by
  decide +kernel

/-- The struct of lib.rs:680-688, `string_or_numeric` fields, without the set. -/
def countAndLimit (s : String) : Option (UInt32 × Option Nat) :=
  match Json.parseText s.toList with
  | some v => match v.get "count" with
    | some c => match JCodec.u32.dec c with
      | some n => match v.get "limit" with
        | some l => some (n, (JCodec.stringOrNumeric (2 ^ 64)).dec l)
        | none => some (n, none)
      | none => none
    | none => none
  | none => none

/-- lib.rs:678-733: numbers and decimal texts are both read, a fraction is not, an escaped text is. -/
example : countAndLimit "{\"count\":\"42\",\"limit\":\"7\"}" = some (42, some 7) ∧ countAndLimit "{\"count\":42,\"limit\":\"7\"}" = some (42, some 7) ∧
    countAndLimit "{\"count\":\"42\",\"limit\":7}" = some (42, some 7) ∧ countAndLimit "{\"count\":42.5,\"limit\":\"7\"}" = none ∧
    countAndLimit "{\"count\":\"\\u0034\\u0032\",\"limit\":\"7\"}" = some (42, some 7) := by decide +kernel

/-! ## qos_core/src/protocol/services/boot.rs:892-1062 and 1481-1488 -/

/-- boot.rs:892-894. -/
def stableMember (name : String) (b : UInt8) : QuorumMember := ⟨name, List.replicate 33 b⟩
/-- boot.rs:911-917. -/
def stablePivotV0 : PivotConfigV0 := ⟨List.replicate 32 2, .always, ["--flag", "value"]⟩
/-- boot.rs:919-930. -/
def stablePivot : PivotConfig := ⟨List.replicate 32 2, .always, [.server 3000 "127.0.0.1"], true, ["--flag", "value"]⟩
/-- boot.rs:932-964. -/
def stableManifestV0 : ManifestV0 where
  «namespace» := ⟨"stable-namespace", 7, List.replicate 33 1⟩
  pivot := stablePivotV0
  manifestSet := ⟨2, [stableMember "manifest-a" 3, stableMember "manifest-b" 4]⟩
  shareSet := ⟨1, [stableMember "share-a" 5]⟩
  enclave := ⟨List.replicate 48 6, List.replicate 48 7, List.replicate 48 8, List.replicate 48 9, ascii "stable-aws-root", "stable-qos-commit"⟩
  patchSet := ⟨1, [List.replicate 33 10]⟩
/-- boot.rs:970-975. -/
def stableApproval (name : String) (key sig : UInt8) : Approval := ⟨List.replicate 64 sig, stableMember name key⟩

/-- `assert_borsh_encoding` (boot.rs:977-986). -/
def sized (b : Bytes) : Nat × Bytes := (b.length, sha256 b)

/-- boot.rs:998-1005. -/
example : sized (Borsh.manifestV0.enc stableManifestV0) =
    (576, be 32 0x02dd10dd6ac1fd1da5543b37b0284e110b0e1848346900c42081187375112e16) := by decide +kernel
/-- boot.rs:1007-1014. -/
example : sized (Borsh.pivotConfigV0.enc stablePivotV0) =
    (56, be 32 0xe1caec9ed88847524e5eaec24fa822b7171f06d5962245fe8e3bcfbe39e373e3) := by decide +kernel
/-- boot.rs:1016-1023. -/
example : sized (Borsh.pivotConfig.enc stablePivot) =
    (77, be 32 0xb0926ecb535f6113d439a83e6df930f6e87bf30bb29c142815ee2949390aa424) := by decide +kernel
/-- boot.rs:1025-1032. -/
example : sized (Borsh.manifest.enc stableManifestV0.upgrade) =
    (581, be 32 0x742855f098e7019ae4240d598eb43559bf50c7516191a4c97d492a38dab81944) := by decide +kernel
/-- boot.rs:1034-1047. -/
example : sized ((Borsh.envelopeOf Borsh.manifestV0).enc ⟨stableManifestV0, [stableApproval "manifest-a" 3 11], [stableApproval "share-a" 5 12]⟩) =
    (819, be 32 0xef6b23a2f7b5c4cb34176b50073dd751459d2e4d2cf6c51c9f3c4c1aecef623b) := by decide +kernel
/-- boot.rs:1049-1062. -/
example : sized ((Borsh.envelopeOf Borsh.manifest).enc ⟨stableManifestV0.upgrade, [stableApproval "manifest-a" 3 11], [stableApproval "share-a" 5 12]⟩) =
    (824, be 32 0x96d19327512720fb33c0c737d7ba068de7e234749f222c1d92529dc23e993a67) := by decide +kernel
/-- boot.rs:1481-1488 on the Borsh reading (the file is not JSON text): the old manifest is read, without bridges. -/
example : (Borsh.decodeBorsh Borsh.manifest Borsh.manifestV0 id ManifestV0.upgrade oldManifest).map (fun m => (m.namespace.name, m.pivot.bridgeConfig)) =
    some ("quit-coding-to-vape", []) := by decide +kernel

/-- boot/manifest.rs:888-918: the V0 manifest that is also a V1 manifest is refused. -/
def ambiguous : ManifestV0 where
  «namespace» := ⟨"", 0, []⟩
  pivot := ⟨List.replicate 32 0, .never, ["\x01", "\x00\x00\x00\x00"]⟩
  manifestSet := ⟨0, []⟩
  shareSet := ⟨0, []⟩
  enclave := ⟨[], [], [], [], [], ""⟩
  patchSet := ⟨0, []⟩
/-- boot/manifest.rs:888-918. -/
example : (Borsh.tryFromSlice Borsh.manifest (Borsh.manifestV0.enc ambiguous)).isSome ∧
    Borsh.tryFromSlice Borsh.manifestV0 (Borsh.manifestV0.enc ambiguous) = some ambiguous ∧
    (Borsh.decodeManifest (Borsh.manifestV0.enc ambiguous)).isNone := by decide +kernel

/-- integration/tests/borsh_serialize.rs:12-45. -/
example : (Borsh.pair Borsh.u32 (Borsh.pair Borsh.string Borsh.bytes)).enc (42, "Hello, world!", [1, 2, 3, 4, 5]) =
    [42, 0, 0, 0, 13, 0, 0, 0, 72, 101, 108, 108, 111, 44, 32, 119, 111, 114, 108, 100, 33, 5, 0, 0, 0, 1, 2, 3, 4, 5] := by decide +kernel

/-! ## qos_crypto/src/shamir.rs:92-140 and qos_p256/src/encrypt.rs:611-634, sign.rs:199-222 -/

/-- shamir.rs:109-121: shares of `my cute little secret` made in 2022 by another implementation. -/
example : Shamir.sharesReconstruct [be 22 0x01661fc0cc265daa4e7bde354c281dcc23a80c590249, be 22 0x027bb5fb26d326e0fc421cf604e495e3d3e4bd24ab0e] =
      .ok (ascii "my cute little secret") ∧
    Shamir.sharesReconstruct [be 22 0x027bb5fb26d326e0fc421cf604e495e3d3e4bd24ab0e, be 22 0x0370d31b89800f2f9255abb73ca0ed0f8329d20fcc33] =
      .ok (ascii "my cute little secret") ∧
    Shamir.sharesReconstruct [be 22 0x01661fc0cc265daa4e7bde354c281dcc23a80c590249, be 22 0x0370d31b89800f2f9255abb73ca0ed0f8329d20fcc33] =
      .ok (ascii "my cute little secret") := by decide +kernel

/-- encrypt.rs:611-634 and sign.rs:199-222. -/
example : P256.componentFromBytes realPrims (List.replicate 64 0) = .error .encodedPublicKeyTooShort ∧
    P256.componentFromBytes realPrims (List.replicate 66 0) = .error .encodedPublicKeyTooLong ∧
    P256.componentFromBytes realPrims (be 65 0x02bf772379de68fed2e81a47a141210c827c31fadc5b24ed3dafa84a9d19896172cb1b53ee6ecb38ca5c4be4d664b63f034886b764ad520c301fe542dfdf4002e4) =
      .error .failedToReadPublicKey ∧
    P256.componentFromBytes realPrims (be 65 0x04bf772379de68fed2e81a47a141210c827c31fadc5b24ed3dafa84a9d19896172cb1b53ee6ecb38ca5c4be4d664b63f034886b764ad520c301fe542dfdf4002e4) =
      .ok (be 65 0x04bf772379de68fed2e81a47a141210c827c31fadc5b24ed3dafa84a9d19896172cb1b53ee6ecb38ca5c4be4d664b63f034886b764ad520c301fe542dfdf4002e4) := by
  decide +kernel

/-! ## The functions themselves: published vectors -/

/-- FIPS 180-4 examples. -/
example : sha256 (ascii "abc") = be 32 0xba7816bf8f01cfea414140de5dae2223b00361a396177a9cb410ff61f20015ad ∧
    sha384 (ascii "abc") = be 48 0xcb00753f45a35e8bb5a03d699ac65007272c32ab0eded1631a8b605a43ff5bed8086072ba1e7cc2358baeca134c825a7 ∧
    sha512 (ascii "abc") = be 64 0xddaf35a193617abacc417349ae20413112e6fa4e89a97ea20a9eeee64b55d39a2192992a274fc1a836ba3c23a3feebbd454d4423643ce80e2a9ac94fa54ca49f := by
  decide +kernel
/-- AES-256-GCM, test case 13 and 14 of the GCM specification. -/
example : aesEnc (List.replicate 32 0) (List.replicate 12 0) [] [] = some (be 16 0x530f8afbc74536b9a963b4f1c4cb738b) ∧
    aesEnc (List.replicate 32 0) (List.replicate 12 0) [] (List.replicate 16 0) =
      some (be 32 0xcea7403d4d606b6e074ec5d3baf39d18d0d1c8a799996bf0265b98b5d48ab919) := by decide +kernel
/-- RFC 6979, A.2.5: P-256, SHA-256, message `sample`. -/
example : ecdsaSign (be 32 0xC9AFA9D845BA75166B5C215767B1D6934E50C3DB36E89B127B8A622B120F6721) (ascii "sample") =
    be 64 0xEFD48B2AACB6A8FD1140DD9CD45E81D69D2C877B56AAF991C34D0EA84EAF3716F7CB1C942D657C41D436C7A1B6E29F65F3E900DBB9AFF4064DC4AB2F843ACDA8 := by
  decide +kernel
end Qos.Conformance
