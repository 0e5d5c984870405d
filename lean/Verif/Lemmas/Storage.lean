import Verif.Lemmas.Manifest
namespace Qos
open Json

/-- Looking up from the end or from the start is the same when keys are unique. -/
theorem get_obj {kvs : List (String × Json)} (hn : (kvs.map Prod.fst).Nodup) (k : String) :
    (Json.obj kvs).get k = lookup k kvs := by
  simp only [Json.get]
  refine (lookup_perm (List.reverse_perm kvs).symm hn k).symm

theorem get_norm_obj {kvs : List (String × Json)} (hn : (kvs.map Prod.fst).Nodup)
    (hnn : ∀ kv ∈ kvs, kv.2 ≠ .null) (k : String) :
    (norm (.obj kvs)).get k = (lookup k kvs).map norm := by
  have hsub := normObj_keys_sublist kvs
  have hperm := (sortEntries_perm (normObj kvs)).map Prod.fst
  simp only [norm]
  rw [get_obj (hperm.nodup_iff.mpr (hsub.nodup hn)), JCodec.lookup_norm_nonnull hn hnn]
  rfl

theorem fromJsonSlice_some {α : Type} {c : JCodec α} {b : Bytes} {v : Json} (h : parse b = some v) :
    fromJsonSlice c b = c.dec v := by simp [fromJsonSlice, h]

/-! Inversion of successful decodes. -/

theorem struct_dec_obj {α : Type} {deny : Bool} {f : Fields α} {kvs : List (String × Json)} {a : α}
    (h : (JCodec.struct deny f).dec (.obj kvs) = some a) :
    f.dec (fun k => lookup k kvs) = some a ∧ (deny = true → ∀ k ∈ kvs.map Prod.fst, k ∈ f.keys) := by
  simp only [JCodec.struct, JCodec.entriesOf, JCodec.decEntries] at h
  split at h
  · split at h
    · cases h
    · rename_i hd
      refine ⟨h, fun hdeny k hk => ?_⟩
      subst hdeny
      simp only [Bool.true_and, Bool.not_eq_true', Bool.not_eq_false, List.all_eq_true] at hd
      exact List.contains_iff_mem.mp (hd k hk)
  · cases h

theorem both_dec {α β : Type} {f : Fields α} {g : Fields β} {look : String → Option Json} {ab : α × β}
    (h : (Fields.both f g).dec look = some ab) : f.dec look = some ab.1 ∧ g.dec look = some ab.2 := by
  simp only [Fields.both] at h
  split at h
  · split at h
    · cases h; constructor <;> assumption
    · cases h
  · cases h

theorem req_dec {α : Type} {k : String} {c : JCodec α} {look : String → Option Json} {a : α}
    (h : (Fields.req k c).dec look = some a) : ∃ v, look k = some v ∧ c.dec v = some a := by
  simp only [Fields.req] at h
  split at h
  · exact ⟨_, by assumption, h⟩
  · cases h

theorem imap_dec {α β : Type} {fwd : α → β} {back : β → α} {f : Fields α} {look : String → Option Json} {b : β}
    (h : (Fields.imap fwd back f).dec look = some b) : ∃ a, f.dec look = some a ∧ fwd a = b := by
  simpa [Fields.imap, Option.map_eq_some_iff] using h

theorem eq_none_of {α : Type} {o : Option α} (h : ∀ a, o ≠ some a) : o = none := by
  cases o with
  | none => rfl
  | some a => exact absurd rfl (h a)

theorem envelope_enc_v1 (e : EnvelopeOf Manifest) : JCodec.envelopeV1.enc e =
    .obj [("manifest", JCodec.manifest.enc e.manifest),
      ("manifestSetApprovals", (JCodec.vec JCodec.approval).enc e.manifestSetApprovals),
      ("shareSetApprovals", (JCodec.vec JCodec.approval).enc e.shareSetApprovals)] := rfl

theorem envelope_enc_v2 (e : EnvelopeOf ManifestV2) : JCodec.envelopeV2.enc e =
    .obj [("manifest", JCodec.manifestV2.enc e.manifest),
      ("manifestSetApprovals", (JCodec.vec JCodec.approval).enc e.manifestSetApprovals),
      ("shareSetApprovals", (JCodec.vec JCodec.approval).enc e.shareSetApprovals)] := rfl

theorem envelope_enc_v0 (e : EnvelopeOf ManifestV0) : JCodec.envelopeV0.enc e =
    .obj [("manifest", JCodec.manifestV0.enc e.manifest),
      ("manifest_set_approvals", (JCodec.vec JCodec.approval).enc e.manifestSetApprovals),
      ("share_set_approvals", (JCodec.vec JCodec.approval).enc e.shareSetApprovals)] := rfl

theorem manifest_enc (m : Manifest) : JCodec.manifest.enc m =
    .obj [("namespace", JCodec.namespace.enc m.namespace), ("pivot", JCodec.pivotConfig.enc m.pivot),
      ("manifestSet", JCodec.quorumSet.enc m.manifestSet), ("shareSet", JCodec.quorumSet.enc m.shareSet),
      ("enclave", JCodec.nitroConfig.enc m.enclave), ("patchSet", JCodec.patchSet.enc m.patchSet)] := rfl

theorem manifestV0_enc (m : ManifestV0) : JCodec.manifestV0.enc m =
    .obj [("namespace", JCodec.namespace.enc m.namespace), ("pivot", JCodec.pivotConfigV0.enc m.pivot),
      ("manifestSet", JCodec.quorumSet.enc m.manifestSet), ("shareSet", JCodec.quorumSet.enc m.shareSet),
      ("enclave", JCodec.nitroConfig.enc m.enclave), ("patchSet", JCodec.patchSet.enc m.patchSet)] := rfl

theorem manifestV2_enc (m : ManifestV2) : JCodec.manifestV2.enc m =
    .obj ([("version", JCodec.v2Version.enc m.version), ("namespace", JCodec.namespace.enc m.namespace),
      ("pivot", JCodec.pivotConfigV2.enc m.pivot),
      ("manifestSet", JCodec.quorumSet.enc m.manifestSet), ("shareSet", JCodec.quorumSet.enc m.shareSet),
      ("enclave", JCodec.nitroConfig.enc m.enclave)] ++ (Fields.opt "dns" JCodec.dnsConfig).enc m.dns) := rfl

theorem pivotConfigV0_enc (p : PivotConfigV0) : JCodec.pivotConfigV0.enc p =
    .obj [("hash", (JCodec.hexArray 32).enc p.hash), ("restart", JCodec.restartPolicy.enc p.restart),
      ("args", (JCodec.vec JCodec.string).enc p.args)] := rfl

theorem manifest_get_version (m : Manifest) : (JCodec.manifest.enc m).get "version" = none := by
  rw [manifest_enc, get_obj (by simp)]; simp [lookup]

theorem manifestV0_get_version (m : ManifestV0) : (JCodec.manifestV0.enc m).get "version" = none := by
  rw [manifestV0_enc, get_obj (by simp)]; simp [lookup]

theorem struct_fields_nodup {α : Type} {f : Fields α} (hf : f.Lawful) (a : α) :
    ((f.enc a).map Prod.fst).Nodup := (hf.sub a).nodup hf.nodup

theorem manifestV2_get_version (m : ManifestV2) (h : JCodec.manifestV2.ok m) :
    ((norm (JCodec.manifestV2.enc m)).get "version").isSome := by
  have hu := JCodec.lawful_manifestV2.unique m h
  have hn : ∀ kv ∈ (match JCodec.manifestV2.enc m with | .obj l => l | _ => []), kv.2 ≠ .null := by
    rw [manifestV2_enc]
    intro kv hkv
    simp only [List.cons_append, List.nil_append, List.mem_cons] at hkv
    rcases hkv with rfl | rfl | rfl | rfl | rfl | rfl | hkv
    all_goals try (intro hc; cases hc)
    cases hd : m.dns with
    | none => simp [hd, Fields.opt] at hkv
    | some d =>
      simp only [hd, Fields.opt, List.mem_singleton] at hkv
      subst hkv; intro hc; cases hc
  rw [manifestV2_enc] at hu hn ⊢
  rw [get_norm_obj hu.1 hn]
  simp [lookup]

/-- V1 decoding of a V0 manifest object fails: the pivot has no bridge configuration. -/
theorem v1_dec_v0_manifest (m : ManifestV0) : JCodec.manifest.dec (JCodec.manifestV0.enc m) = none := by
  have hp : JCodec.pivotConfig.dec (JCodec.pivotConfigV0.enc m.pivot) = none := by
    rw [pivotConfigV0_enc]
    refine eq_none_of fun a h => ?_
    obtain ⟨x, h, -⟩ := imap_dec (struct_dec_obj h).1
    obtain ⟨v, hv, -⟩ := req_dec (both_dec (both_dec (both_dec h).2).2).1
    simp [lookup] at hv
  rw [manifestV0_enc]
  refine eq_none_of fun a h => ?_
  obtain ⟨x, h, -⟩ := imap_dec (struct_dec_obj h).1
  obtain ⟨v, hv, hd⟩ := req_dec (both_dec (both_dec h).2).1
  simp [lookup] at hv
  subst hv
  rw [hp] at hd; cases hd

/-- V1 decoding of a V0 envelope object fails: the approvals have other names. -/
theorem v1_dec_v0_envelope (e : EnvelopeOf ManifestV0) :
    JCodec.envelopeV1.dec (JCodec.envelopeV0.enc e) = none := by
  rw [envelope_enc_v0]
  refine eq_none_of fun a h => ?_
  obtain ⟨x, h, -⟩ := imap_dec (struct_dec_obj h).1
  obtain ⟨v, hv, -⟩ := req_dec (both_dec (both_dec h).2).1
  simp [lookup] at hv

/-- V2 decoding of a V0 envelope object fails. -/
theorem v2_dec_v0_envelope (e : EnvelopeOf ManifestV0) :
    JCodec.envelopeV2.dec (JCodec.envelopeV0.enc e) = none := by
  rw [envelope_enc_v0]
  refine eq_none_of fun a h => ?_
  obtain ⟨x, h, -⟩ := imap_dec (struct_dec_obj h).1
  obtain ⟨v, hv, -⟩ := req_dec (both_dec (both_dec h).2).1
  simp [lookup] at hv

/-- V2 decoding of a V1 manifest object fails: no version. -/
theorem v2_dec_v1_manifest (m : Manifest) : JCodec.manifestV2.dec (JCodec.manifest.enc m) = none := by
  rw [manifest_enc]
  refine eq_none_of fun a h => ?_
  obtain ⟨x, h, -⟩ := imap_dec (struct_dec_obj h).1
  obtain ⟨v, hv, -⟩ := req_dec (both_dec h).1
  simp [lookup] at hv

theorem v2_dec_v1_envelope (e : EnvelopeOf Manifest) :
    JCodec.envelopeV2.dec (JCodec.envelopeV1.enc e) = none := by
  rw [envelope_enc_v1]
  refine eq_none_of fun a h => ?_
  obtain ⟨x, h, -⟩ := imap_dec (struct_dec_obj h).1
  obtain ⟨v, hv, hd⟩ := req_dec (both_dec h).1
  simp [lookup] at hv
  subst hv
  rw [v2_dec_v1_manifest] at hd; cases hd

end Qos
