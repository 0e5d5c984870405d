import Verif.Props.Format
import Verif.Props.Borsh
/-!
# C73: the bytes of manifests and envelopes
-/
namespace Qos.Format
open Json

/-! ### Borsh -/

theorem low_byte (n : Nat) : UInt8.ofNat (n % 256) = UInt8.ofNat n := by
  apply UInt8.toNat_inj.mp
  simp

theorem leBytes_four (n : Nat) : leBytes 4 n = four n := by
  simp [leBytes, four, Nat.div_div_eq_div_mul, low_byte]

theorem leBytes_two (n : Nat) : leBytes 2 n = two n := by
  simp [leBytes, two, low_byte]

theorem bytes_enc (b : Bytes) : Borsh.bytes.enc b = sized b := by simp [Borsh.bytes, sized, leBytes_four]

theorem string_enc (s : String) : Borsh.string.enc s = text s := by simp [Borsh.string, text, bytes_enc]

theorem vec_enc {α : Type} {c : Borsh.Codec α} {f : α → Bytes} (h : ∀ a, c.enc a = f a) (l : List α) :
    (Borsh.vec c).enc l = many f l := by
  simp [Borsh.vec, many, leBytes_four, List.flatMap, funext h]

theorem u32_enc (n : UInt32) : Borsh.u32.enc n = four n.toNat := by simp [Borsh.u32, Borsh.imap, Borsh.le, leBytes_four]
theorem u16_enc (n : UInt16) : Borsh.u16.enc n = two n.toNat := by simp [Borsh.u16, Borsh.imap, Borsh.le, leBytes_two]

theorem restart_enc (r : RestartPolicy) : Borsh.restartPolicy.enc r = restartBytes r := by cases r <;> rfl

theorem nitro_enc (n : NitroConfig) : Borsh.nitroConfig.enc n = nitroBytes n := by
  simp [Borsh.nitroConfig, Borsh.imap, Borsh.pair, bytes_enc, string_enc, nitroBytes]

theorem bridge_enc (b : BridgeConfig) : Borsh.bridgeConfig.enc b = bridgeBytes b := by
  rcases b with ⟨p, h⟩ | ⟨p, _ | h⟩ <;>
    simp [Borsh.bridgeConfig, Borsh.imap, Borsh.sum, Borsh.pair, Borsh.option, u16_enc, string_enc, bridgeBytes]

theorem member_enc (m : QuorumMember) : Borsh.quorumMember.enc m = memberBytes m := by
  simp [Borsh.quorumMember, Borsh.imap, Borsh.pair, bytes_enc, string_enc, memberBytes]

theorem set_enc (m : QuorumSet) : Borsh.quorumSet.enc m = setBytes m := by
  simp [Borsh.quorumSet, Borsh.imap, Borsh.pair, u32_enc, vec_enc member_enc, setBytes]

theorem patchSet_enc (m : PatchSet) : Borsh.patchSet.enc m = patchSetBytes m := by
  simp [Borsh.patchSet, Borsh.imap, Borsh.pair, u32_enc, vec_enc bytes_enc, patchSetBytes]

theorem namespace_enc (n : Namespace) : Borsh.namespace.enc n = namespaceBytes n := by
  simp [Borsh.namespace, Borsh.imap, Borsh.pair, u32_enc, bytes_enc, string_enc, namespaceBytes]

theorem pivotV0_enc (p : PivotConfigV0) : Borsh.pivotConfigV0.enc p = pivotBytesV0 p := by
  simp [Borsh.pivotConfigV0, Borsh.imap, Borsh.pair, Borsh.fixed, restart_enc, vec_enc string_enc, pivotBytesV0]

theorem pivotV1_enc (p : PivotConfig) : Borsh.pivotConfig.enc p = pivotBytesV1 p := by
  simp [Borsh.pivotConfig, Borsh.imap, Borsh.pair, Borsh.fixed, Borsh.bool, restart_enc, vec_enc string_enc,
    vec_enc bridge_enc, pivotBytesV1]

theorem manifestV1_enc (m : Manifest) : Borsh.manifest.enc m = manifestBytesV1 m := by
  simp [Borsh.manifest, Borsh.imap, Borsh.pair, namespace_enc, pivotV1_enc, set_enc, nitro_enc, patchSet_enc, manifestBytesV1]

theorem manifestV0_enc (m : ManifestV0) : Borsh.manifestV0.enc m = manifestBytesV0 m := by
  simp [Borsh.manifestV0, Borsh.imap, Borsh.pair, namespace_enc, pivotV0_enc, set_enc, nitro_enc, patchSet_enc, manifestBytesV0]

theorem approval_enc (a : Approval) : Borsh.approval.enc a = approvalBytes a := by
  simp [Borsh.approval, Borsh.imap, Borsh.pair, bytes_enc, member_enc, approvalBytes]

theorem envelope_enc {M : Type} {c : Borsh.Codec M} {f : M → Bytes} (h : ∀ a, c.enc a = f a) (e : EnvelopeOf M) :
    (Borsh.envelopeOf c).enc e = envelopeBytes f e := by
  simp [Borsh.envelopeOf, Borsh.imap, Borsh.pair, h, vec_enc approval_enc, envelopeBytes]

theorem vec_ok {α : Type} {c : Borsh.Codec α} {P : α → Prop} (h : ∀ a, c.ok a ↔ P a) (l : List α) :
    (Borsh.vec c).ok l ↔ ShortList P l := by
  simp [Borsh.vec, ShortList, h]

theorem bytes_ok (b : Bytes) : Borsh.bytes.ok b ↔ Short b := Iff.rfl
theorem string_ok (b : String) : Borsh.string.ok b ↔ ShortText b := Iff.rfl
theorem u32_ok (n : UInt32) : Borsh.u32.ok n := by
  have := n.toNat_lt
  simpa [Borsh.u32, Borsh.imap, Borsh.le] using this
theorem u16_ok (n : UInt16) : Borsh.u16.ok n := by
  have := n.toNat_lt
  simpa [Borsh.u16, Borsh.imap, Borsh.le] using this
theorem restart_ok (r : RestartPolicy) : Borsh.restartPolicy.ok r := by cases r <;> exact trivial
theorem bool_ok (r : Bool) : Borsh.bool.ok r := trivial

theorem nitro_ok (n : NitroConfig) : Borsh.nitroConfig.ok n ↔ ShortNitro n := Iff.rfl
theorem bridge_ok (b : BridgeConfig) : Borsh.bridgeConfig.ok b ↔ ShortBridge b := by
  rcases b with ⟨p, h⟩ | ⟨p, _ | h⟩ <;>
    simp [Borsh.bridgeConfig, Borsh.imap, Borsh.sum, Borsh.pair, Borsh.option, u16_ok, string_ok, ShortBridge]
theorem member_ok (m : QuorumMember) : Borsh.quorumMember.ok m ↔ ShortMember m := Iff.rfl
theorem set_ok (m : QuorumSet) : Borsh.quorumSet.ok m ↔ ShortList ShortMember m.members := by
  simp [Borsh.quorumSet, Borsh.imap, Borsh.pair, u32_ok, vec_ok member_ok]
theorem patchSet_ok (m : PatchSet) : Borsh.patchSet.ok m ↔ ShortList Short m.members := by
  simp [Borsh.patchSet, Borsh.imap, Borsh.pair, u32_ok, vec_ok bytes_ok]
theorem namespace_ok (n : Namespace) : Borsh.namespace.ok n ↔ ShortText n.name ∧ Short n.quorumKey := by
  simp [Borsh.namespace, Borsh.imap, Borsh.pair, u32_ok, bytes_ok, string_ok]
theorem pivotV0_ok (p : PivotConfigV0) : Borsh.pivotConfigV0.ok p ↔ p.hash.length = 32 ∧ ShortList ShortText p.args := by
  simp [Borsh.pivotConfigV0, Borsh.imap, Borsh.pair, Borsh.fixed, restart_ok, vec_ok string_ok]
theorem pivotV1_ok (p : PivotConfig) : Borsh.pivotConfig.ok p ↔
    p.hash.length = 32 ∧ ShortList ShortBridge p.bridgeConfig ∧ ShortList ShortText p.args := by
  simp [Borsh.pivotConfig, Borsh.imap, Borsh.pair, Borsh.fixed, bool_ok, restart_ok, vec_ok string_ok, vec_ok bridge_ok]
theorem manifestV1_ok (m : Manifest) : Borsh.manifest.ok m ↔ ShortV1 m := by
  simp only [Borsh.manifest, Borsh.imap, Borsh.pair, namespace_ok, pivotV1_ok, set_ok, nitro_ok, patchSet_ok, ShortV1, ShortRest]
  tauto
theorem manifestV0_ok (m : ManifestV0) : Borsh.manifestV0.ok m ↔ ShortV0 m := by
  simp only [Borsh.manifestV0, Borsh.imap, Borsh.pair, namespace_ok, pivotV0_ok, set_ok, nitro_ok, patchSet_ok, ShortV0, ShortRest]
  tauto
theorem approvals_ok (l : List Approval) : (Borsh.vec Borsh.approval).ok l ↔ ShortApprovals l := vec_ok (fun _ => Iff.rfl) l
theorem envelope_ok {M : Type} {c : Borsh.Codec M} {P : M → Prop} (h : ∀ a, c.ok a ↔ P a) (e : EnvelopeOf M) :
    (Borsh.envelopeOf c).ok e ↔ P e.manifest ∧ ShortApprovals e.manifestSetApprovals ∧ ShortApprovals e.shareSetApprovals := by
  simp only [Borsh.envelopeOf, Borsh.imap, Borsh.pair, h, approvals_ok]

theorem slice_iff {α : Type} {c : Borsh.Codec α} (h : Borsh.Lawful c) {f : α → Bytes} (hf : ∀ a, c.enc a = f a) {P : α → Prop}
    (hp : ∀ a, c.ok a ↔ P a) {buf : Bytes} {a : α} : Borsh.tryFromSlice c buf = some a ↔ buf = f a ∧ P a := by
  constructor
  · intro hd
    obtain ⟨h1, h2⟩ := Borsh.tryFromSlice_some h hd
    exact ⟨by rw [h1, hf], (hp a).mp h2⟩
  · rintro ⟨rfl, h2⟩
    rw [← hf]
    exact Borsh.tryFromSlice_enc h ((hp a).mpr h2)

/-- C73: bytes are the Borsh form of a V1 manifest exactly if they are its fields in the documented order and widths. -/
theorem borsh_v1_read (buf : Bytes) (m : Manifest) : Borsh.tryFromSlice Borsh.manifest buf = some m ↔ BorshV1 buf m :=
  slice_iff Borsh.lawful_manifest manifestV1_enc manifestV1_ok

/-- C73: the same for V0. -/
theorem borsh_v0_read (buf : Bytes) (m : ManifestV0) : Borsh.tryFromSlice Borsh.manifestV0 buf = some m ↔ BorshV0 buf m :=
  slice_iff Borsh.lawful_manifestV0 manifestV0_enc manifestV0_ok

/-- C73: the same for V1 envelopes. -/
theorem borsh_envelope_v1_read (buf : Bytes) (e : EnvelopeOf Manifest) :
    Borsh.tryFromSlice (Borsh.envelopeOf Borsh.manifest) buf = some e ↔ BorshEnvelopeV1 buf e :=
  slice_iff (Borsh.lawful_envelopeOf Borsh.lawful_manifest) (envelope_enc manifestV1_enc) (envelope_ok manifestV1_ok)

/-- C73: the same for V0 envelopes. -/
theorem borsh_envelope_v0_read (buf : Bytes) (e : EnvelopeOf ManifestV0) :
    Borsh.tryFromSlice (Borsh.envelopeOf Borsh.manifestV0) buf = some e ↔ BorshEnvelopeV0 buf e :=
  slice_iff (Borsh.lawful_envelopeOf Borsh.lawful_manifestV0) (envelope_enc manifestV0_enc) (envelope_ok manifestV0_ok)

/-! ### Files -/

theorem json_iff {α : Type} {c : JCodec α} {Doc : Json → α → Prop} (h : ∀ v a, c.dec v = some a ↔ Doc v a) {buf : Bytes} {a : α} :
    fromJsonSlice c buf = some a ↔ JsonOf Doc buf a := by
  unfold fromJsonSlice JsonOf
  cases hp : Json.parse buf with
  | none => simp
  | some v => simp [h]

theorem lookup_first {k : String} {x : Json} {l : List (String × Json)} :
    lookup k l = some x ↔ ∃ before after, l = before ++ (k, x) :: after ∧ ∀ kv ∈ before, kv.1 ≠ k := by
  induction l with
  | nil => simp [lookup]
  | cons kv l ih =>
    obtain ⟨k', v⟩ := kv
    simp only [lookup]
    by_cases e : k = k'
    · subst e
      rw [if_pos rfl]
      constructor
      · rintro h; cases h; exact ⟨[], l, rfl, by simp⟩
      · rintro ⟨b, a, h1, h2⟩
        cases b with
        | nil => simp only [List.nil_append, List.cons.injEq, Prod.mk.injEq, true_and] at h1; rw [h1.1]
        | cons y b =>
          simp only [List.cons_append, List.cons.injEq] at h1
          exact absurd (by rw [← h1.1]) (h2 y (by simp))
    · rw [if_neg e, ih]
      constructor
      · rintro ⟨b, a, rfl, h2⟩
        refine ⟨(k', v) :: b, a, rfl, ?_⟩
        intro kv hkv
        rcases List.mem_cons.mp hkv with rfl | h
        · exact fun h => e h.symm
        · exact h2 kv h
      · rintro ⟨b, a, h1, h2⟩
        cases b with
        | nil =>
          simp only [List.nil_append, List.cons.injEq, Prod.mk.injEq] at h1
          exact absurd h1.1.1.symm e
        | cons y b =>
          simp only [List.cons_append, List.cons.injEq] at h1
          exact ⟨b, a, h1.2, fun kv h => h2 kv (List.mem_cons_of_mem _ h)⟩

theorem get_iff {v : Json} {k : String} {x : Json} : v.get k = some x ↔ LastMember v k x := by
  unfold LastMember
  cases v with
  | obj kvs =>
    simp only [Json.get, lookup_first, Json.obj.injEq]
    constructor
    · rintro ⟨b, a, h1, h2⟩
      refine ⟨a.reverse, b.reverse, ?_, fun kv h => h2 kv (List.mem_reverse.mp h)⟩
      have := congrArg List.reverse h1
      simpa using this
    · rintro ⟨b, a, rfl, h2⟩
      exact ⟨a.reverse, b.reverse, by simp, fun kv h => h2 kv (List.mem_reverse.mp h)⟩
  | _ => simp [Json.get]

theorem declares_iff {buf : Bytes} : declaresVersion buf = true ↔ Declares buf := by
  unfold declaresVersion Declares
  cases Json.parse buf with
  | none => simp
  | some v => simp [Option.isSome_iff_exists, get_iff]

theorem envelopeDeclares_iff {buf : Bytes} : envelopeDeclaresVersion buf = true ↔ EnvelopeDeclares buf := by
  unfold envelopeDeclaresVersion EnvelopeDeclares
  cases Json.parse buf with
  | none => simp
  | some v =>
    simp only [Option.some.injEq]
    constructor
    · intro h
      cases hm : v.get "manifest" with
      | none => rw [hm] at h; cases h
      | some m =>
        rw [hm] at h
        obtain ⟨ver, hv⟩ := Option.isSome_iff_exists.mp h
        exact ⟨v, m, ver, rfl, get_iff.mp hm, get_iff.mp hv⟩
    · rintro ⟨_, m, ver, rfl, h1, h2⟩
      rw [get_iff.mpr h1]
      exact Option.isSome_iff_exists.mpr ⟨ver, get_iff.mpr h2⟩

theorem none_iff {α : Type} {o : Option α} {P : α → Prop} (h : ∀ a, o = some a ↔ P a) : o = none ↔ ¬ ∃ a, P a := by
  cases o with
  | none => simp [← h]
  | some a => simp [← h]

theorem decodeBorsh_iff {α β γ : Type} {c : Borsh.Codec α} {d : Borsh.Codec β} {f : α → γ} {g : β → γ} {buf : Bytes} {x : γ}
    {P : α → Prop} {Q : β → Prop} (hp : ∀ a, Borsh.tryFromSlice c buf = some a ↔ P a)
    (hq : ∀ a, Borsh.tryFromSlice d buf = some a ↔ Q a) : Borsh.decodeBorsh c d f g buf = some x ↔
      (∃ a, x = f a ∧ P a ∧ ¬ ∃ b, Q b) ∨ ∃ b, x = g b ∧ Q b ∧ ¬ ∃ a, P a := by
  unfold Borsh.decodeBorsh
  cases h1 : Borsh.tryFromSlice c buf with
  | some a =>
    have pa : ∀ a', P a' ↔ a' = a := fun a' => by rw [← hp, h1]; simp [eq_comm]
    cases h2 : Borsh.tryFromSlice d buf with
    | some b =>
      have qb : ∀ a', Q a' ↔ a' = b := fun a' => by rw [← hq, h2]; simp [eq_comm]
      simp [pa, qb]
    | none =>
      have qb : ∀ a', ¬ Q a' := fun a' => by rw [← hq, h2]; simp
      simp [pa, qb, eq_comm]
  | none =>
    have pa : ∀ a', ¬ P a' := fun a' => by rw [← hp, h1]; simp
    cases h2 : Borsh.tryFromSlice d buf with
    | some b =>
      have qb : ∀ a', Q a' ↔ a' = b := fun a' => by rw [← hq, h2]; simp [eq_comm]
      simp [pa, qb, eq_comm]
    | none =>
      have qb : ∀ a', ¬ Q a' := fun a' => by rw [← hq, h2]; simp
      simp [pa, qb]

/-- C73: the exact condition for reading a file as a manifest: which version, and what each field is. -/
theorem manifest_read (buf : Bytes) (m : VersionedManifest) :
    VersionedManifest.tryFromSliceCompat buf = some m ↔ ManifestRead buf m := by
  have h2 := fun a => json_iff manifest_v2_read (buf := buf) (a := a)
  have h1 := fun a => json_iff manifest_v1_read (buf := buf) (a := a)
  have h0 := fun a => json_iff manifest_v0_read (buf := buf) (a := a)
  have hb : ∀ x, Borsh.decodeManifest buf = some x ↔ _ := fun x =>
    decodeBorsh_iff (f := VersionedManifest.v1) (g := .v0) (x := x) (borsh_v1_read buf) (borsh_v0_read buf)
  unfold VersionedManifest.tryFromSliceCompat ManifestRead
  by_cases hd : declaresVersion buf = true
  · rw [if_pos hd]
    have hD := declares_iff.mp hd
    rw [Option.map_eq_some_iff]
    simp only [h2]
    cases m with
    | v2 m => simp [FileRead, hD]
    | v1 m => simp [FileRead, hD]
    | v0 m => simp [FileRead, hD]
  · rw [if_neg hd]
    have hD : ¬ Declares buf := fun h => hd (declares_iff.mpr h)
    cases e1 : fromJsonSlice JCodec.manifest buf with
    | some a =>
      have pa : ∀ a', JsonOf ManifestDocV1 buf a' ↔ a' = a := fun a' => by rw [← h1, e1]; simp [eq_comm]
      cases m <;> simp [FileRead, hD, pa, eq_comm]
    | none =>
      have pa : ∀ a', ¬ JsonOf ManifestDocV1 buf a' := fun a' => by rw [← h1, e1]; simp
      cases e0 : fromJsonSlice JCodec.manifestV0 buf with
      | some b =>
        have qb : ∀ a', JsonOf ManifestDocV0 buf a' ↔ a' = b := fun a' => by rw [← h0, e0]; simp [eq_comm]
        cases m <;> simp [FileRead, hD, pa, qb, eq_comm]
      | none =>
        have qb : ∀ a', ¬ JsonOf ManifestDocV0 buf a' := fun a' => by rw [← h0, e0]; simp
        simp only [hb]
        cases m <;> simp [FileRead, hD, pa, qb]

/-- C73: the same for an envelope. -/
theorem envelope_read (buf : Bytes) (e : Envelope) : Envelope.tryFromSliceCompat buf = some e ↔ EnvelopeRead buf e := by
  have h2 := fun a => json_iff (fun _ _ => envelopeV2_iff) (buf := buf) (a := a)
  have h1 := fun a => json_iff (fun _ _ => envelopeV1_iff) (buf := buf) (a := a)
  have h0 := fun a => json_iff (fun _ _ => envelopeV0_iff) (buf := buf) (a := a)
  have hb : ∀ x, Borsh.decodeEnvelope buf = some x ↔ _ := fun x =>
    decodeBorsh_iff (f := Envelope.v1) (g := .v0) (x := x) (borsh_envelope_v1_read buf) (borsh_envelope_v0_read buf)
  unfold Envelope.tryFromSliceCompat EnvelopeRead
  by_cases hd : envelopeDeclaresVersion buf = true
  · rw [if_pos hd]
    have hD := envelopeDeclares_iff.mp hd
    rw [Option.map_eq_some_iff]
    simp only [h2]
    cases e <;> simp [FileRead, hD]
  · rw [if_neg hd]
    have hD : ¬ EnvelopeDeclares buf := fun h => hd (envelopeDeclares_iff.mpr h)
    cases e1 : fromJsonSlice JCodec.envelopeV1 buf with
    | some a =>
      have pa : ∀ a', JsonOf EnvelopeDocV1 buf a' ↔ a' = a := fun a' => by rw [← h1, e1]; simp [eq_comm]
      cases e <;> simp [FileRead, hD, pa, eq_comm]
    | none =>
      have pa : ∀ a', ¬ JsonOf EnvelopeDocV1 buf a' := fun a' => by rw [← h1, e1]; simp
      cases e0 : fromJsonSlice JCodec.envelopeV0 buf with
      | some b =>
        have qb : ∀ a', JsonOf EnvelopeDocV0 buf a' ↔ a' = b := fun a' => by rw [← h0, e0]; simp [eq_comm]
        cases e <;> simp [FileRead, hD, pa, qb, eq_comm]
      | none =>
        have qb : ∀ a', ¬ JsonOf EnvelopeDocV0 buf a' := fun a' => by rw [← h0, e0]; simp
        simp only [hb]
        cases e <;> simp [FileRead, hD, pa, qb]

/-- C73: the same for an envelope inside a JSON request. -/
theorem envelope_in_request (v : Json) (e : Envelope) : Envelope.decUntagged v = some e ↔ EnvelopeSays v e := by
  have h2 : ∀ a, JCodec.envelopeV2.dec v = some a ↔ _ := fun a => envelopeV2_iff
  have h1 : ∀ a, JCodec.envelopeV1.dec v = some a ↔ _ := fun a => envelopeV1_iff
  have h0 : ∀ a, JCodec.envelopeV0.dec v = some a ↔ _ := fun a => envelopeV0_iff
  unfold Envelope.decUntagged EnvelopeSays
  cases e2 : JCodec.envelopeV2.dec v with
  | some a =>
    have pa : ∀ a', EnvelopeDocV2 v a' ↔ a' = a := fun a' => by rw [← h2, e2]; simp [eq_comm]
    cases e <;> simp [pa, eq_comm]
  | none =>
    have pa : ∀ a', ¬ EnvelopeDocV2 v a' := fun a' => by rw [← h2, e2]; simp
    cases e1 : JCodec.envelopeV1.dec v with
    | some b =>
      have qb : ∀ a', EnvelopeDocV1 v a' ↔ a' = b := fun a' => by rw [← h1, e1]; simp [eq_comm]
      cases e <;> simp [pa, qb, eq_comm]
    | none =>
      have qb : ∀ a', ¬ EnvelopeDocV1 v a' := fun a' => by rw [← h1, e1]; simp
      cases e0 : JCodec.envelopeV0.dec v with
      | some c =>
        have rc : ∀ a', EnvelopeDocV0 v a' ↔ a' = c := fun a' => by rw [← h0, e0]; simp [eq_comm]
        cases e <;> simp [pa, qb, rc, eq_comm]
      | none =>
        have rc : ∀ a', ¬ EnvelopeDocV0 v a' := fun a' => by rw [← h0, e0]; simp
        cases e <;> simp [pa, qb, rc]

end Qos.Format
