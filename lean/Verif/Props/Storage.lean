import Verif.Lemmas.Storage
/-!
# C27: stored manifests come back with their version; a declared version is never guessed away
# C41: the text that is hashed identifies the manifest
-/
namespace Qos
open Json

/-! ## Lemmas -/

theorem lookup_filter_known {p : String → Bool} {k : String} (h : p k = true) (l : List (String × Json)) :
    lookup k (l.filter fun kv => p kv.1) = lookup k l := by
  induction l with
  | nil => rfl
  | cons kv l ih =>
    obtain ⟨k', v⟩ := kv
    by_cases hk : p k' = true
    · rw [List.filter_cons_of_pos (by simpa using hk)]; simp only [lookup, ih]
    · rw [List.filter_cons_of_neg (by simpa using hk), ih]
      have : k ≠ k' := fun he => hk (he ▸ h)
      simp [lookup, this]

theorem get_of_struct_dec {α : Type} {deny : Bool} {f : Fields α} {kvs : List (String × Json)} {a : α}
    (h : (JCodec.struct deny f).dec (.obj kvs) = some a) {k : String} (hk : k ∈ f.keys) :
    (Json.obj kvs).get k = lookup k kvs := by
  have hn : ((kvs.map Prod.fst).filter fun k => f.keys.contains k).Nodup := by
    simp only [JCodec.struct, JCodec.entriesOf, JCodec.decEntries] at h
    split at h
    · assumption
    · cases h
  have hc : (fun k => f.keys.contains k) k = true := List.contains_iff_mem.mpr hk
  simp only [Json.get]
  rw [← lookup_filter_known hc kvs.reverse, ← lookup_filter_known hc kvs]
  have hperm : (kvs.reverse.filter fun kv => f.keys.contains kv.1).Perm
      (kvs.filter fun kv => f.keys.contains kv.1) := (List.reverse_perm kvs).filter _
  refine (lookup_perm hperm.symm ?_ k).symm
  rw [List.filter_map] at hn
  exact hn

/-- What a successful read of a buffer whose enveloped manifest declares a version says. -/
theorem compat_declared {buf : Bytes} {v m ver : Json} {e : Envelope} (hp : parse buf = some v)
    (hm : v.get "manifest" = some m) (hv : m.get "version" = some ver)
    (h : Envelope.tryFromSliceCompat buf = some e) :
    ∃ e' kvs mkvs, e = .v2 e' ∧ v = .obj kvs ∧ m = .obj mkvs ∧ JCodec.envelopeV2.dec v = some e' ∧
      JCodec.manifestV2.dec m = some e'.manifest ∧ JCodec.v2Version.dec ver = some e'.manifest.version := by
  have hd : envelopeDeclaresVersion buf = true := by
    simp [envelopeDeclaresVersion, hp, hm, hv]
  simp only [Envelope.tryFromSliceCompat, hd, if_true, fromJsonSlice_some hp,
    Option.map_eq_some_iff] at h
  obtain ⟨e', he', rfl⟩ := h
  cases v with
  | obj kvs =>
    cases m with
    | obj mkvs =>
      refine ⟨e', kvs, mkvs, rfl, rfl, rfl, he', ?_⟩
      obtain ⟨x, hx, hxe⟩ := imap_dec (struct_dec_obj he').1
      obtain ⟨w, hw, hwd⟩ := req_dec (both_dec hx).1
      rw [get_of_struct_dec he' (k := "manifest") (by decide +kernel)] at hm
      rw [hm] at hw; cases hw
      obtain ⟨y, hy, hye⟩ := imap_dec (struct_dec_obj hwd).1
      obtain ⟨u, hu, hud⟩ := req_dec (both_dec hy).1
      rw [get_of_struct_dec hwd (k := "version") (by decide +kernel)] at hv
      rw [hv] at hu; cases hu
      subst hxe
      refine ⟨hwd, ?_⟩
      rw [hud, ← hye]
    | _ => simp [Json.get] at hv
  | _ => simp [Json.get] at hm

/-! ## Property theorems -/

/-- C27: storing an envelope always succeeds and reading it back gives the same envelope, of the same
version. `Ok` is spelled out by `ok_*` below: fields decoded from any accepted request satisfy it
(`wire_ok`, `Wire.decoded_well_formed`). -/
theorem storage_roundtrip (e : Envelope) (h : e.Ok) :
    ∃ b, e.toStorageVec = some b ∧ Envelope.tryFromSliceCompat b = some e := by
  cases e with
  | v2 e =>
    have hl := JCodec.lawful_envelopeV2
    have hp := hl.parse_canon JCodec.depth_envelopeV2 h
    refine ⟨_, hl.canon h, ?_⟩
    have hd : envelopeDeclaresVersion (writeBytes (norm (JCodec.envelopeV2.enc e))) = true := by
      have hok : JCodec.manifestV2.ok e.manifest := h.1
      simp only [envelopeDeclaresVersion, hp]
      have : (norm (JCodec.envelopeV2.enc e)).get "manifest" = some (norm (JCodec.manifestV2.enc e.manifest)) := by
        rw [envelope_enc_v2, get_norm_obj (by simp)]
        · simp [lookup]
        · intro kv hkv
          simp only [List.mem_cons, List.not_mem_nil, or_false] at hkv
          rcases hkv with rfl | rfl | rfl <;> (intro hc; cases hc)
      rw [this]
      exact manifestV2_get_version e.manifest hok
    simp only [Envelope.tryFromSliceCompat, hd, if_true, fromJsonSlice_some hp, hl.dec_norm e h,
      Option.map_some]
  | v1 e =>
    have hl := JCodec.lawful_envelopeV1
    have hp := hl.parse_write JCodec.depth_envelopeV1 h
    refine ⟨_, rfl, ?_⟩
    have hd : envelopeDeclaresVersion (writeBytes (JCodec.envelopeV1.enc e)) = false := by
      simp only [envelopeDeclaresVersion, hp]
      have : (JCodec.envelopeV1.enc e).get "manifest" = some (JCodec.manifest.enc e.manifest) := by
        rw [envelope_enc_v1, get_obj (by simp)]; simp [lookup]
      rw [this]; simp [manifest_get_version]
    simp only [Envelope.tryFromSliceCompat, hd, Bool.false_eq_true, if_false, fromJsonSlice_some hp,
      hl.dec_enc e h]
  | v0 e =>
    have hl := JCodec.lawful_envelopeV0
    have hp := hl.parse_write JCodec.depth_envelopeV0 h
    refine ⟨_, rfl, ?_⟩
    have hd : envelopeDeclaresVersion (writeBytes (JCodec.envelopeV0.enc e)) = false := by
      simp only [envelopeDeclaresVersion, hp]
      have : (JCodec.envelopeV0.enc e).get "manifest" = some (JCodec.manifestV0.enc e.manifest) := by
        rw [envelope_enc_v0, get_obj (by simp)]; simp [lookup]
      rw [this]; simp [manifestV0_get_version]
    simp only [Envelope.tryFromSliceCompat, hd, Bool.false_eq_true, if_false, fromJsonSlice_some hp,
      v1_dec_v0_envelope, hl.dec_enc e h]

/-- C27: the plain (not canonical) JSON text of an envelope reads back as the same envelope too. -/
theorem plain_roundtrip (e : Envelope) (h : e.Ok) : Envelope.tryFromSliceCompat (writeBytes e.encUntagged) = some e := by
  cases e with
  | v2 e =>
    have hl := JCodec.lawful_envelopeV2
    have hp := hl.parse_write JCodec.depth_envelopeV2 h
    have hd : envelopeDeclaresVersion (writeBytes (JCodec.envelopeV2.enc e)) = true := by
      have hu := JCodec.lawful_manifestV2.unique e.manifest h.1
      simp only [envelopeDeclaresVersion, hp]
      have : (JCodec.envelopeV2.enc e).get "manifest" = some (JCodec.manifestV2.enc e.manifest) := by
        rw [envelope_enc_v2, get_obj (by simp)]; simp [lookup]
      rw [this]
      rw [manifestV2_enc] at hu ⊢
      simp only [get_obj hu.1]
      simp [lookup]
    show Envelope.tryFromSliceCompat (writeBytes (JCodec.envelopeV2.enc e)) = _
    simp only [Envelope.tryFromSliceCompat, hd, if_true, fromJsonSlice_some hp, hl.dec_enc e h, Option.map_some]
  | v1 e =>
    obtain ⟨b, h1, h2⟩ := storage_roundtrip (.v1 e) h
    cases h1
    exact h2
  | v0 e =>
    obtain ⟨b, h1, h2⟩ := storage_roundtrip (.v0 e) h
    cases h1
    exact h2

/-- C27: the same for a bare manifest. -/
theorem storage_roundtrip_manifest (m : VersionedManifest) (h : m.Ok) :
    ∃ b, m.toStorageVec = some b ∧ VersionedManifest.tryFromSliceCompat b = some m := by
  cases m with
  | v2 m =>
    have hl := JCodec.lawful_manifestV2
    have hp := hl.parse_canon JCodec.depth_manifestV2 h
    refine ⟨_, hl.canon h, ?_⟩
    have hd : declaresVersion (writeBytes (norm (JCodec.manifestV2.enc m))) = true := by
      simp only [declaresVersion, hp]
      exact manifestV2_get_version m h
    simp only [VersionedManifest.tryFromSliceCompat, hd, if_true, fromJsonSlice_some hp, hl.dec_norm m h,
      Option.map_some]
  | v1 m =>
    have hl := JCodec.lawful_manifest
    have hp := hl.parse_write JCodec.depth_manifest h
    refine ⟨_, rfl, ?_⟩
    have hd : declaresVersion (writeBytes (JCodec.manifest.enc m)) = false := by
      simp [declaresVersion, hp, manifest_get_version]
    simp only [VersionedManifest.tryFromSliceCompat, hd, Bool.false_eq_true, if_false, fromJsonSlice_some hp,
      hl.dec_enc m h]
  | v0 m =>
    have hl := JCodec.lawful_manifestV0
    have hp := hl.parse_write JCodec.depth_manifestV0 h
    refine ⟨_, rfl, ?_⟩
    have hd : declaresVersion (writeBytes (JCodec.manifestV0.enc m)) = false := by
      simp [declaresVersion, hp, manifestV0_get_version]
    simp only [VersionedManifest.tryFromSliceCompat, hd, Bool.false_eq_true, if_false, fromJsonSlice_some hp,
      v1_dec_v0_manifest, hl.dec_enc m h]

/-- C27: two envelopes with the same stored bytes are the same envelope. -/
theorem storage_injective (e e' : Envelope) (h : e.Ok) (h' : e'.Ok)
    (heq : e.toStorageVec = e'.toStorageVec) : e = e' := by
  obtain ⟨b, hb, hr⟩ := storage_roundtrip e h
  obtain ⟨b', hb', hr'⟩ := storage_roundtrip e' h'
  rw [hb, hb', Option.some.injEq] at heq
  subst heq
  rw [hr, Option.some.injEq] at hr'
  exact hr'

/-- C27: whatever the bytes, if they are JSON whose enveloped manifest has a `version` member then they
are read as a V2 envelope whose version is literally `v2`, or rejected. -/
theorem declared_version_never_downgraded (buf : Bytes) (v m ver : Json) (e : Envelope)
    (hp : parse buf = some v) (hm : v.get "manifest" = some m) (hv : m.get "version" = some ver)
    (h : Envelope.tryFromSliceCompat buf = some e) :
    e.manifest.versionLabel = "v2" ∧ (ver = .str "v2" ∨ ver = .obj [("v2", .null)]) := by
  obtain ⟨e', kvs, mkvs, rfl, rfl, rfl, h1, h2, h3⟩ := compat_declared hp hm hv h
  refine ⟨rfl, ?_⟩
  simp only [JCodec.v2Version, JCodec.unitEnum] at h3
  split at h3
  · rename_i hh
    split at hh
    · rename_i s
      left
      have := List.find?_some hh
      simp only [JCodec.versionName, beq_iff_eq] at this
      rw [← this]
    · rename_i s
      right
      have := List.find?_some hh
      simp only [JCodec.versionName, beq_iff_eq] at this
      rw [← this]
    · cases hh
  · cases h3

/-- C27: a manifest that declares a version and carries a member unknown to V2 (for instance the
`patchSet` of older schemas) is rejected, never read under another schema. -/
theorem declared_version_unknown_field_rejected (buf : Bytes) (v ver : Json) (mkvs : List (String × Json))
    (hp : parse buf = some v) (hm : v.get "manifest" = some (.obj mkvs))
    (hv : (Json.obj mkvs).get "version" = some ver)
    (k : String) (hk : k ∈ mkvs.map Prod.fst)
    (hunknown : k ∉ ["version", "namespace", "pivot", "manifestSet", "shareSet", "enclave", "dns"]) :
    Envelope.tryFromSliceCompat buf = none := by
  refine eq_none_of fun e h => ?_
  obtain ⟨e', kvs, mkvs', rfl, rfl, heq, h1, h2, h3⟩ := compat_declared hp hm hv h
  cases heq
  exact hunknown ((struct_dec_obj h2).2 rfl k hk)

/-- C27: likewise for a member unknown to the V2 envelope. -/
theorem declared_version_unknown_envelope_field_rejected (buf : Bytes) (kvs : List (String × Json)) (m ver : Json)
    (hp : parse buf = some (.obj kvs)) (hm : (Json.obj kvs).get "manifest" = some m)
    (hv : m.get "version" = some ver)
    (k : String) (hk : k ∈ kvs.map Prod.fst)
    (hunknown : k ∉ ["manifest", "manifestSetApprovals", "shareSetApprovals"]) :
    Envelope.tryFromSliceCompat buf = none := by
  refine eq_none_of fun e h => ?_
  obtain ⟨e', kvs', mkvs', rfl, heq, rfl, h1, h2, h3⟩ := compat_declared hp hm hv h
  exact hunknown ((struct_dec_obj h1).2 rfl k hk)

/-- C27: on the wire, an envelope embedded in a JSON request is decoded by shape (V2, V1, V0); every
well-formed envelope still comes back as itself. -/
theorem wire_envelope_roundtrip (e : Envelope) (h : e.Ok) :
    Envelope.decUntagged e.encUntagged = some e := by
  cases e with
  | v2 e => simp only [Envelope.decUntagged, Envelope.encUntagged, JCodec.lawful_envelopeV2.dec_enc e h]
  | v1 e =>
    simp only [Envelope.decUntagged, Envelope.encUntagged, v2_dec_v1_envelope,
      JCodec.lawful_envelopeV1.dec_enc e h]
  | v0 e =>
    simp only [Envelope.decUntagged, Envelope.encUntagged, v2_dec_v0_envelope, v1_dec_v0_envelope,
      JCodec.lawful_envelopeV0.dec_enc e h]

/-- Everything read from the wire satisfies `Ok`. -/
theorem wire_ok (v : Json) (e : Envelope) (h : Envelope.decUntagged v = some e) : e.Ok := by
  unfold Envelope.decUntagged at h
  split at h
  · cases h; exact JCodec.lawful_envelopeV2.dec_ok _ _ (by assumption)
  · split at h
    · cases h; exact JCodec.lawful_envelopeV1.dec_ok _ _ (by assumption)
    · split at h
      · cases h; exact JCodec.lawful_envelopeV0.dec_ok _ _ (by assumption)
      · cases h

/-! ### C41: what is hashed identifies the manifest -/

/-- C41: two manifests of the same schema version with the same hashed bytes are equal in every field,
so an approval signature (over the hash of these bytes) is for exactly one manifest of that version,
up to SHA-256 collisions. -/
theorem hashInput_injective (m m' : VersionedManifest) (h : m.Fits) (h' : m'.Fits)
    (hver : m.versionLabel = m'.versionLabel) (heq : m.hashInput = m'.hashInput) : m = m' := by
  cases m with
  | v2 m =>
    cases m' with
    | v2 m' =>
      rw [JCodec.lawful_manifestV2.canon_injective JCodec.depth_manifestV2 h h' heq]
    | v1 _ => simp [VersionedManifest.versionLabel] at hver
    | v0 _ => simp [VersionedManifest.versionLabel] at hver
  | v1 m =>
    cases m' with
    | v1 m' =>
      simp only [VersionedManifest.hashInput, Option.some.injEq] at heq
      rw [Borsh.enc_injective Borsh.lawful_manifest h h' heq]
    | v2 _ => simp [VersionedManifest.versionLabel] at hver
    | v0 _ => simp [VersionedManifest.versionLabel] at hver
  | v0 m =>
    cases m' with
    | v0 m' =>
      simp only [VersionedManifest.hashInput, Option.some.injEq] at heq
      rw [Borsh.enc_injective Borsh.lawful_manifestV0 h h' heq]
    | v2 _ => simp [VersionedManifest.versionLabel] at hver
    | v1 _ => simp [VersionedManifest.versionLabel] at hver

/-- The manifest of the repository's own ambiguity test (boot/manifest.rs:888-908). -/
def ambiguousV0 : ManifestV0 :=
  { «namespace» := ⟨"", 0, []⟩
    pivot := ⟨List.replicate 32 0, .never, ["\u0001", "\u0000\u0000\u0000\u0000"]⟩
    manifestSet := ⟨0, []⟩
    shareSet := ⟨0, []⟩
    enclave := ⟨[], [], [], [], [], ""⟩
    patchSet := ⟨0, []⟩ }

/-- The version in `hashInput_injective` matters: the same hashed bytes can be a V1 and a V0 manifest. -/
theorem hashInput_version_ambiguous :
    ∃ (m : Manifest) (m' : ManifestV0), Borsh.manifest.ok m ∧ Borsh.manifestV0.ok m' ∧
      (VersionedManifest.v1 m).hashInput = (VersionedManifest.v0 m').hashInput := by
  have h1 : (Borsh.tryFromSlice Borsh.manifest (Borsh.manifestV0.enc ambiguousV0)).isSome := by
    decide +kernel
  have h0 : Borsh.tryFromSlice Borsh.manifestV0 (Borsh.manifestV0.enc ambiguousV0) = some ambiguousV0 := by
    decide +kernel
  obtain ⟨m, hm⟩ := Option.isSome_iff_exists.mp h1
  obtain ⟨e1, o1⟩ := Borsh.tryFromSlice_some Borsh.lawful_manifest hm
  obtain ⟨-, o0⟩ := Borsh.tryFromSlice_some Borsh.lawful_manifestV0 h0
  exact ⟨m, ambiguousV0, o1, o0, by simp [VersionedManifest.hashInput, ← e1]⟩

/-! ## Concrete cases -/

/-- A small V2 envelope. -/
def sampleV2 : EnvelopeOf ManifestV2 :=
  { manifest :=
      { version := .v2
        «namespace» := ⟨"prod/é", 4294967295, [1, 2, 255]⟩
        pivot := ⟨List.replicate 32 171, .never, [.server 3000 "0.0.0.0", .client 80 none], true, ["--x"],
          [("A", "1"), ("B", "\n")]⟩
        manifestSet := ⟨2, [⟨"a", [1]⟩, ⟨"b", [2]⟩]⟩
        shareSet := ⟨1, [⟨"a", [1]⟩]⟩
        enclave := ⟨[0], [1], [2], [3], [4], "commit"⟩
        dns := some ⟨[.v4 ⟨1, 1, 1, 1⟩]⟩ }
    manifestSetApprovals := [⟨[9, 9], ⟨"a", [1]⟩⟩]
    shareSetApprovals := [] }

example : (Envelope.v2 sampleV2).Ok := by
  refine JCodec.lawful_envelopeV2.dec_ok (JCodec.envelopeV2.enc sampleV2) sampleV2 ?_
  decide +kernel

example : ∃ b, (Envelope.v2 sampleV2).toStorageVec = some b ∧
    Envelope.tryFromSliceCompat b = some (.v2 sampleV2) :=
  storage_roundtrip _ (JCodec.lawful_envelopeV2.dec_ok (JCodec.envelopeV2.enc sampleV2) sampleV2
    (by decide +kernel))

/-- The members of a manifest object that declares version 2 and has all fields of the older schema. -/
def sampleMembers : List (String × Json) :=
  [("version", .str "v2"),
   ("namespace", .obj [("name", .str "ns"), ("nonce", .int 1), ("quorumKey", .str "00")]),
   ("pivot", .obj [("hash", .str "0000000000000000000000000000000000000000000000000000000000000000"),
     ("restart", .str "Never"), ("bridgeConfig", .arr []), ("debugMode", .bool false), ("args", .arr [])]),
   ("manifestSet", .obj [("threshold", .int 1), ("members", .arr [])]),
   ("shareSet", .obj [("threshold", .int 1), ("members", .arr [])]),
   ("enclave", .obj [("pcr0", .str ""), ("pcr1", .str ""), ("pcr2", .str ""), ("pcr3", .str ""),
     ("awsRootCertificate", .str ""), ("qosCommit", .str "")]),
   ("patchSet", .obj [("threshold", .int 0), ("members", .arr [])])]

/-- An envelope around it. -/
def declaredV2 : Json :=
  .obj [("manifest", .obj sampleMembers), ("manifestSetApprovals", .arr []), ("shareSetApprovals", .arr [])]

/-- Finding A: inside a JSON request there is no look at the declared version. The V2 text above with an
extra `patchSet` member in the manifest is refused from a file, but a request carrying it is read as a
V1 envelope (which ignores the unknown `version`, `env` and `dns`). -/
theorem wire_reads_declared_v2_as_v1 :
    ∃ v : Json, (v.get "manifest").bind (fun m => m.get "version") = some (.str "v2") ∧
      (∃ e, Envelope.decUntagged v = some (.v1 e)) ∧
      Envelope.tryFromSliceCompat (writeBytes v) = none := by
  have hdec : (Envelope.decUntagged declaredV2).any (fun e => e.manifest.versionLabel == "v1") = true := by
    decide +kernel
  have hparse : parse (writeBytes declaredV2) = some declaredV2 :=
    parse_writeBytes _ (by simp [declaredV2, sampleMembers, Plain, PlainObj, PlainArr]) (by decide +kernel)
  have hget : (declaredV2.get "manifest") = some (.obj sampleMembers) := by decide +kernel
  have hver : (Json.obj sampleMembers).get "version" = some (.str "v2") := by decide +kernel
  refine ⟨declaredV2, by rw [hget]; exact hver, ?_, ?_⟩
  · cases he : Envelope.decUntagged declaredV2 with
    | none => rw [he] at hdec; cases hdec
    | some e =>
      rw [he] at hdec
      cases e with
      | v1 e => exact ⟨e, rfl⟩
      | v2 e => simp [Envelope.manifest, VersionedManifest.versionLabel] at hdec
      | v0 e => simp [Envelope.manifest, VersionedManifest.versionLabel] at hdec
  · exact declared_version_unknown_field_rejected _ _ _ _ hparse hget hver "patchSet"
      (by decide +kernel) (by decide +kernel)

end Qos
