import Verif.Props.ClientGenerate
import Verif.Spec.Toy
/-!
# A concrete operator's disk

Two members (aliases `b` and `c`), a threshold of two, a release, a role, a pivot hash and a quorum key. Used only in
examples: every hypothesis of C43 to C48 is met here.
-/
namespace Qos.Client
open P256 (Pair Public toyPrims toyLaws)

/-- A disk that has everything the first one has. -/
structure Disk.Extends (d d' : Disk) : Prop where
  files : ∀ path c, d.file path = some c → d'.file path = some c
  dirs : ∀ path l, d.dir path = some l → d'.dir path = some l

theorem Disk.Extends.refl (d : Disk) : d.Extends d := ⟨fun _ _ h => h, fun _ _ h => h⟩

section mono
variable {d d' : Disk} (h : d.Extends d') {p : Prims} {r : Bytes}
include h

theorem SetIn.mono {dir : String} {set : QuorumSet} (x : SetIn p d dir set) : SetIn p d' dir set := by
  obtain ⟨⟨ms, ⟨names, h1, h2⟩, h3⟩, h4, ⟨n', c, h5, h6, h7, h8⟩⟩ := x
  refine ⟨⟨ms, ⟨names, h.dirs _ _ h1, ?_⟩, h3⟩, h4, ⟨n', c, h.dirs _ _ h5, h6, h.files _ _ h7, h8⟩⟩
  exact h2.imp fun _ _ ⟨a, c, hc, k⟩ => ⟨a, c, h.files _ _ hc, k⟩

theorem PatchSetIn.mono {dir : String} {set : PatchSet} (x : PatchSetIn p d dir set) : PatchSetIn p d' dir set := by
  obtain ⟨⟨ms, ⟨names, h1, h2⟩, h3⟩, h4, ⟨n', c, h5, h6, h7, h8⟩⟩ := x
  refine ⟨⟨ms, ⟨names, h.dirs _ _ h1, ?_⟩, h3⟩, h4, ⟨n', c, h.dirs _ _ h5, h6, h.files _ _ h7, h8⟩⟩
  exact h2.imp fun _ _ ⟨a, c, hc, k⟩ => ⟨a, c, h.files _ _ hc, k⟩

theorem ReleasePcrs.mono {dir : String} {a b c : Bytes} (x : ReleasePcrs d dir a b c) : ReleasePcrs d' dir a b c := by
  obtain ⟨c, v0, v1, v2, l0, l1, l2, rest, hc, k⟩ := x
  exact ⟨c, v0, v1, v2, l0, l1, l2, rest, h.files _ _ hc, k⟩

theorem RoleIn.mono {path role : String} (x : RoleIn d path role) : RoleIn d' path role := by
  obtain ⟨c, rest, hc, k⟩ := x
  exact ⟨c, rest, h.files _ _ hc, k⟩

theorem KeyIn.mono {path : String} {k : Bytes} (x : KeyIn p d path k) : KeyIn p d' path k := by
  obtain ⟨c, hc, k⟩ := x
  exact ⟨c, h.files _ _ hc, k⟩

/-- More files do not spoil an agreement. -/
theorem LocalMatch.mono {w : Places} {m : VersionedManifest} (x : LocalMatch p r d w m) : LocalMatch p r d' w m where
  manifestSet := x.manifestSet.mono h
  shareSet := x.shareSet.mono h
  patchSet := fun ps hp => by
    obtain ⟨dir, h1, h2⟩ := x.patchSet ps hp
    exact ⟨dir, h1, h2.mono h⟩
  noPatchSet := x.noPatchSet
  enclave := by
    obtain ⟨h1, ⟨role, h2, h3⟩, h4, h5⟩ := x.enclave
    exact ⟨h1.mono h, ⟨role, h2.mono h, h3⟩, h4, h5⟩
  pivotHash := by
    obtain ⟨c, l, rest, hc, k⟩ := x.pivotHash
    exact ⟨c, l, rest, h.files _ _ hc, k⟩
  quorumKey := x.quorumKey.mono h
end mono

/-- A key written in hexadecimal reads back. -/
theorem keyText_encode (p : Prims) (key : Bytes) (h : key.length = 130) (h1 : p.pointOk (key.take 65))
    (h2 : p.pointOk (key.drop 65)) : KeyText p (Hex.encode key) key := by
  have hr := P256.hex_char_range key
  have e := P256.utf8_charsOf (Hex.encode key) fun x hx => (hr x hx).2
  have d : utf8Decode (Hex.encode key) = some (String.ofList (P256.charsOf (Hex.encode key))) := by
    rw [← e, utf8Decode_utf8, e]
  refine ⟨_, d, ?_, h, h1, h2⟩
  rw [P256.trim_hex, e, Hex.hex_decode_encode _ (by rw [h]; decide)]

/-- The toy operator's files. -/
def toyFile (path : String) : Option Bytes :=
  if path = "set/b.pub" then some (Hex.encode (toyMember 1).pubKey)
  else if path = "set/c.pub" then some (Hex.encode (toyMember 2).pubKey)
  else if path = "set/quorum_threshold" then some (ascii "2\n")
  else if path = "release/aws-x86_64.pcrs" then some (ascii "aa PCR0\nbb PCR1\ncc PCR2\n")
  else if path = "role" then some (ascii "arn:aws:iam::1:role/qos\n")
  else if path = "pivot.hash" then some (Hex.encode (toyPrims.sha256 [7, 7]) ++ [10])
  else if path = "quorum.pub" then some (Hex.encode (toyMember 9).pubKey)
  else none

/-- The toy operator's disk. -/
def toyDisk : Disk where
  file := toyFile
  dir path := if path = "set" then some ["c.pub", "._b.pub", "b.pub", "quorum_threshold", "notes.txt"] else none
  writable _ := true

/-- The toy setting, with nobody at the other end. -/
def toySetting : Setting Unit where
  prims := toyPrims
  pki := toyEnv.pki
  awsRoot := [1, 2]
  now := 5
  rand := ⟨List.replicate 32 5, List.replicate 12 6⟩
  disk := toyDisk
  net s _ := (s, none)

/-- The request. -/
def toyGenerate : GenerateManifestArgs where
  nonce := 3
  namespaceName := "prod/x"
  restartPolicy := .always
  pivotHashPath := "pivot.hash"
  releaseDir := "release"
  pcr3Path := "role"
  shareSetDir := "set"
  manifestSetDir := "set"
  patchSetDir := none
  quorumKeyPath := "quorum.pub"
  manifestPath := "manifest"
  pivotArgs := ["--a"]
  bridgeConfig := []
  dnsResolvers := some [.v4 ⟨1, 1, 1, 1⟩]
  debugMode := false

/-- A test on a successful result. -/
def okAnd {ε α : Type} (P : α → Bool) : Except ε α → Bool
  | .ok a => P a
  | .error _ => false

theorem of_okAnd {ε α : Type} {P : α → Bool} {x : Except ε α} (h : okAnd P x = true) : ∃ a, x = .ok a ∧ P a = true := by
  cases x with
  | ok a => exact ⟨a, rfl, h⟩
  | error e => cases h

theorem toyMember_key (n : UInt8) (h : n ∈ [1, 2, 9]) : KeyText toyPrims (Hex.encode (toyMember n).pubKey) (toyMember n).pubKey := by
  have : ∀ n ∈ ([1, 2, 9] : List UInt8), (toyMember n).pubKey.length = 130 ∧
      toyPrims.pointOk ((toyMember n).pubKey.take 65) = true ∧ toyPrims.pointOk ((toyMember n).pubKey.drop 65) = true := by
    decide +kernel
  obtain ⟨h1, h2, h3⟩ := this n h
  exact keyText_encode _ _ h1 h2 h3

/-- The toy set is what the toy directory describes: the listing is neither sorted nor free of other files. -/
theorem toySet_in : SetIn toyPrims toyDisk "set" ⟨2, [toyMember 1, toyMember 2]⟩ := by
  refine ⟨⟨[toyMember 2, toyMember 1], ?_, List.Perm.swap ..⟩, ?_, ?_⟩
  · rw [← readMembers_iff]
    have hc : readMember toyPrims toyDisk "set" "c.pub" = .ok (toyMember 2) := by
      rw [readMember_ok]
      exact ⟨(aliasOf_iff _ _).mpr (by decide +kernel), _, by decide +kernel, toyMember_key 2 (by decide)⟩
    have hb : readMember toyPrims toyDisk "set" "b.pub" = .ok (toyMember 1) := by
      rw [readMember_ok]
      exact ⟨(aliasOf_iff _ _).mpr (by decide +kernel), _, by decide +kernel, toyMember_key 1 (by decide)⟩
    unfold readMembers
    rw [ebind_ok]
    refine ⟨_, findFileNames_ok.mpr ⟨_, rfl, rfl⟩, ?_⟩
    have : (List.filter isKeyFile (List.filter (fun n => !['.', '_'].isPrefixOf n.toList)
        ["c.pub", "._b.pub", "b.pub", "quorum_threshold", "notes.txt"])) = ["c.pub", "b.pub"] := by decide +kernel
    rw [this, mapM_ok]
    exact .cons hc (.cons hb .nil)
  · refine List.pairwise_pair.mpr (.inl ?_)
    decide +kernel
  · rw [← findThreshold_iff]
    have h : okAnd (fun t => decide (t = 2)) (findThreshold toyDisk "set") = true := by decide +kernel
    obtain ⟨s, hs, he⟩ := of_okAnd h
    rw [hs, of_decide_eq_true he]

/-- The Nitro configuration of the toy release. -/
def toyNitro : NitroConfig :=
  ⟨[0xaa], [0xbb], [0xcc], rolePcr3 toyPrims "arn:aws:iam::1:role/qos", [1, 2], ""⟩

theorem toyNitro_in : NitroIn toyPrims [1, 2] toyDisk "release" "role" toyNitro := by
  rw [← nitro_exact]
  have h : okAnd (fun t => decide (t = toyNitro)) (extractNitroConfig toyPrims [1, 2] toyDisk "release" "role") = true := by
    decide +kernel
  obtain ⟨s, hs, he⟩ := of_okAnd h
  rw [hs, of_decide_eq_true he]

/-- The manifest the toy request asks for. -/
def toyManifestV2 : ManifestV2 where
  version := .v2
  «namespace» := ⟨"prod/x", 3, (toyMember 9).pubKey⟩
  pivot := ⟨toyPrims.sha256 [7, 7], .always, [], false, ["--a"], []⟩
  manifestSet := ⟨2, [toyMember 1, toyMember 2]⟩
  shareSet := ⟨2, [toyMember 1, toyMember 2]⟩
  enclave := toyNitro
  dns := some ⟨[.v4 ⟨1, 1, 1, 1⟩]⟩

theorem toy_match : LocalMatch toyPrims [1, 2] toyDisk toyGenerate.places (.v2 toyManifestV2) where
  manifestSet := toySet_in
  shareSet := toySet_in
  patchSet := fun ps h => nomatch h
  noPatchSet := fun _ => rfl
  enclave := toyNitro_in
  pivotHash := by
    rw [← pivot_hash_exact]
    have h : okAnd (fun t => decide (t = toyPrims.sha256 [7, 7])) (extractPivotHash toyDisk "pivot.hash") = true := by
      decide +kernel
    obtain ⟨s, hs, he⟩ := of_okAnd h
    rw [show toyGenerate.places.pivotHashPath = "pivot.hash" from rfl, hs, of_decide_eq_true he]
    rfl
  quorumKey := ⟨_, by decide +kernel, toyMember_key 9 (by decide)⟩

theorem toy_requested : Requested toyGenerate (.v2 toyManifestV2) := ⟨rfl, rfl, rfl, rfl, rfl, rfl, rfl⟩

/-- `generate-manifest-v2` runs. -/
theorem toy_generated : ∃ c m, (generateManifestV2 toySetting toyGenerate ()).events = [.wrote "manifest" c] ∧
    VersionedManifest.tryFromSliceCompat c = some (.v2 m) ∧ LocalMatch toyPrims [1, 2] toyDisk toyGenerate.places (.v2 m) ∧
    Requested toyGenerate (.v2 m) ∧ (VersionedManifest.v2 m).Ok := by
  obtain ⟨c, hc⟩ := (generate_complete toySetting toyLaws (by decide) toyGenerate () rfl).2 toyManifestV2 toy_match
    toy_requested rfl rfl (by decide)
  obtain ⟨_, m', k1, k2, k3, _, k4⟩ := generate_v2_written toySetting toyLaws (by decide) toyGenerate () "manifest" c
    (by rw [hc]; exact List.mem_singleton.mpr rfl)
  exact ⟨c, m', hc, k1, k2, k3, k4⟩

end Qos.Client
