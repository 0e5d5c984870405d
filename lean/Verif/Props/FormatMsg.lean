import Verif.Lemmas.FormatMsg
import Verif.Props.Wire
/-!
# C74: the protocol messages in JSON, field by field
-/
namespace Qos.Format
open Json Services

/-- Field lists of this file read their own names only. -/
local macro "recs" : tactic => `(tactic|
  repeat' (first | exact reads_req | exact reads_opt | exact reads_orEmpty | apply reads_imap | (refine reads_both ?_ ?_ (by simp [Fields.req, Fields.opt, Fields.orEmpty, Fields.both]))))

/-- A struct is read as the record of its fields. -/
local macro "fields" : tactic => `(tactic| (
  refine Iff.trans (struct_iff (by recs)) ?_
  refine exists_congr fun field => and_congr Iff.rfl ?_))

/-- A struct is read as the record of its fields. -/
local macro "record" : tactic => `(tactic| (
  fields
  refine Iff.trans (imap_iff (by intro a; rfl) (by intro a; rfl)) ?_
  simp only [both_iff, req_iff, hexVec_iff, hexArray_iff, text_iff, flag_iff, texts_iff, u16_iff, u32_iff]))

theorem longDigest_iff {v : Json} {b : Bytes} : (JCodec.hexArray 64).dec v = some b ↔ IsLongDigest v b := by
  unfold IsLongDigest
  rw [← hexVec_iff]
  cases v with
  | str s =>
    have h1 : (JCodec.hexArray 64).dec (.str s) = some b ↔ Hex.decodeToBuf (utf8 s) 64 = .ok b := by
      simp only [JCodec.hexArray]
      cases Hex.decodeToBuf (utf8 s) 64 <;> simp [Except.toOption]
    have h2 : JCodec.hexVec.dec (.str s) = some b ↔ Hex.decode (utf8 s) = .ok b := by
      simp only [JCodec.hexVec]
      cases Hex.decode (utf8 s) <;> simp [Except.toOption]
    rw [h1, h2, decodeToBuf_iff (by decide)]
  | _ => simp [JCodec.hexArray, JCodec.hexVec]

theorem mem_sortSet {n : UInt16} {l : List UInt16} : n ∈ Borsh.sortSet l ↔ n ∈ l := by
  simp [Borsh.sortSet]

theorem sortSet_iff {given set : List UInt16} : Borsh.sortSet given = set ↔ SetOf given set := by
  constructor
  · rintro rfl; exact ⟨isSet_sortSet given, fun _ => mem_sortSet⟩
  · rintro ⟨h1, h2⟩
    refine List.Pairwise.eq_of_mem_iff (r := (· < ·)) (isSet_sortSet given) h1 fun n => ?_
    rw [mem_sortSet, h2]

theorem numbers_iff {v : Json} {set : List UInt16} : JCodec.setU16.dec v = some set ↔ NumbersDoc v set := by
  unfold NumbersDoc
  simp only [JCodec.setU16, Option.map_eq_some_iff, vec_iff fun _ _ => u16_iff, sortSet_iff]

theorem phase_iff {v : Json} {p : Phase} : JCodec.phase.dec v = some p ↔ PhaseDoc v p := by
  refine Iff.trans (enum_iff (names := fun p => [(phaseKind p).1, phaseAlias p]) (said := fun _ => none) (by decide +kernel) (fun x => (phaseKind x).2) ?_ ?_) ?_
  · simp only [Phase.variants, List.map, List.forall_mem_cons]
    refine ⟨?_, ?_, ?_, ?_, ?_, ?_, by simp⟩ <;> exact gives_unit rfl rfl
  · intro a
    cases a
    · exact .inl ⟨_, rfl, takes_unit rfl rfl⟩
    · exact .inl ⟨_, rfl, takes_unit rfl rfl⟩
    · exact .inl ⟨_, rfl, takes_unit rfl rfl⟩
    · exact .inl ⟨_, rfl, takes_unit rfl rfl⟩
    · exact .inl ⟨_, rfl, takes_unit rfl rfl⟩
    · exact .inl ⟨_, rfl, takes_unit rfl rfl⟩
  · simp [PhaseDoc, Variant]

theorem nsmError_iff {v : Json} {e : NsmErrorCode} : JCodec.nsmErrorCode.dec v = some e ↔ IsName v (nsmErrorKind e).1 := by
  refine Iff.trans (enum_iff (names := fun e => [(nsmErrorKind e).1]) (said := fun _ => none) (by decide +kernel) (fun x => (nsmErrorKind x).2) ?_ ?_) ?_
  · simp only [NsmErrorCode.variants, List.map, List.forall_mem_cons]
    refine ⟨?_, ?_, ?_, ?_, ?_, ?_, ?_, ?_, ?_, by simp⟩ <;> exact gives_unit rfl rfl
  · intro a
    cases a <;> exact .inl ⟨_, rfl, takes_unit rfl rfl⟩
  · simp [Variant]

theorem digest_iff {v : Json} {e : NsmDigest} : JCodec.nsmDigest.dec v = some e ↔ IsName v (digestKind e).1 := by
  refine Iff.trans (enum_iff (names := fun e => [(digestKind e).1]) (said := fun _ => none) (by decide +kernel) (fun x => (digestKind x).2) ?_ ?_) ?_
  · simp only [NsmDigest.variants, List.map, List.forall_mem_cons]
    refine ⟨?_, ?_, ?_, by simp⟩ <;> exact gives_unit rfl rfl
  · intro a
    cases a <;> exact .inl ⟨_, rfl, takes_unit rfl rfl⟩
  · simp [Variant]

/-- One field. -/
theorem one_iff {α : Type} {k : String} {c : JCodec α} {P : Json → α → Prop} (h : ∀ v a, c.dec v = some a ↔ P v a) (v : Json) (a : α) :
    (JCodec.struct false (.req k c)).dec v = some a ↔ ∃ field, Record false [k] v field ∧ Has field k (P · a) := by
  fields
  simp only [req_iff, h]

/-- Two fields. -/
theorem two_iff {α β : Type} {k l : String} {c : JCodec α} {d : JCodec β} {P : Json → α → Prop} {Q : Json → β → Prop}
    (hkl : k ≠ l) (h : ∀ v a, c.dec v = some a ↔ P v a) (h' : ∀ v a, d.dec v = some a ↔ Q v a) (v : Json) (ab : α × β) :
    (JCodec.struct false (.both (.req k c) (.req l d))).dec v = some ab ↔
      ∃ field, Record false [k, l] v field ∧ Has field k (P · ab.1) ∧ Has field l (Q · ab.2) := by
  refine Iff.trans (struct_iff (reads_both reads_req reads_req ?_)) ?_
  · intro x hx hy
    rw [List.mem_singleton.mp hx] at hy
    exact hkl (List.mem_singleton.mp hy)
  refine exists_congr fun field => and_congr Iff.rfl ?_
  simp only [both_iff, req_iff, h, h']

theorem may_iff {α : Type} {k : String} {c : JCodec α} {P : Json → α → Prop} (hn : c.dec .null = none)
    (h : ∀ v a, c.dec v = some a ↔ P v a) {l : String → Option Json} {a : Option α} :
    (Fields.opt k c).dec l = some a ↔ MayHave l k P a := by
  rw [opt_iff hn]
  simp only [MayHave, h]

/-- Two fields, the second of which may be missing. -/
theorem two_may_iff {α β : Type} {k l : String} {c : JCodec α} {d : JCodec β} {P : Json → α → Prop} {Q : Json → β → Prop}
    (hkl : k ≠ l) (hn : d.dec .null = none) (h : ∀ v a, c.dec v = some a ↔ P v a) (h' : ∀ v a, d.dec v = some a ↔ Q v a) (v : Json)
    (ab : α × Option β) : (JCodec.struct false (.both (.req k c) (.opt l d))).dec v = some ab ↔
      ∃ field, Record false [k, l] v field ∧ Has field k (P · ab.1) ∧ MayHave field l Q ab.2 := by
  refine Iff.trans (struct_iff (reads_both reads_req reads_opt ?_)) ?_
  · intro x hx hy
    rw [List.mem_singleton.mp hx] at hy
    exact hkl (List.mem_singleton.mp hy)
  refine exists_congr fun field => and_congr Iff.rfl ?_
  simp only [both_iff, req_iff, may_iff hn h', h]

theorem nsm_iff {v : Json} {r : NsmResponse} : JCodec.nsmResponse.dec v = some r ↔ NsmDoc v r := by
  have h1 := two_iff (k := "lock") (l := "data") (by decide) (fun _ _ => flag_iff) (fun _ _ => hexVec_iff)
  have h2 := fun k => one_iff (k := k) (fun _ _ => hexVec_iff)
  have h3 : ∀ v (x : UInt16 × UInt16 × UInt16 × String × UInt16 × List UInt16 × NsmDigest),
      (JCodec.struct false (.both (.req "version_major" .u16) (.both (.req "version_minor" .u16)
       (.both (.req "version_patch" .u16) (.both (.req "module_id" .string) (.both (.req "max_pcrs" .u16)
         (.both (.req "locked_pcrs" .setU16) (.req "digest" .nsmDigest)))))))).dec v = some x ↔ ∃ field,
      Record false ["version_major", "version_minor", "version_patch", "module_id", "max_pcrs", "locked_pcrs", "digest"] v field ∧
      Has field "version_major" (IsNumber · x.1.toNat) ∧ Has field "version_minor" (IsNumber · x.2.1.toNat) ∧
      Has field "version_patch" (IsNumber · x.2.2.1.toNat) ∧ Has field "module_id" (IsText · x.2.2.2.1) ∧
      Has field "max_pcrs" (IsNumber · x.2.2.2.2.1.toNat) ∧ Has field "locked_pcrs" (NumbersDoc · x.2.2.2.2.2.1) ∧
      Has field "digest" (IsName · (digestKind x.2.2.2.2.2.2).1) := by
    intro v x
    fields
    simp only [both_iff, req_iff, u16_iff, text_iff, numbers_iff, digest_iff]
  refine Iff.trans (enum_iff (names := fun e => [(nsmKind e).1]) (said := nsmSays) (by decide +kernel) (fun x => (nsmKind x).2) ?_ ?_) ?_
  · simp only [NsmResponse.variants, List.map, List.forall_mem_cons]
    refine ⟨?_, ?_, ?_, ?_, ?_, ?_, ?_, ?_, by simp⟩
    · exact gives_data (fun _ => rfl) (fun _ => rfl) h1
    · exact gives_data (fun _ => rfl) (fun _ => rfl) (h2 _)
    · exact gives_unit rfl rfl
    · exact gives_unit rfl rfl
    · exact gives_data (fun _ => rfl) (fun _ => rfl) h3
    · exact gives_data (fun _ => rfl) (fun _ => rfl) (h2 _)
    · exact gives_data (fun _ => rfl) (fun _ => rfl) (h2 _)
    · exact gives_data (fun _ => rfl) (fun _ => rfl) (fun _ _ => nsmError_iff)
  · intro a
    cases a with
    | describePCR l d => exact .inl ⟨_, rfl, takes_data (l, d) rfl rfl rfl h1⟩
    | extendPCR d => exact .inl ⟨_, rfl, takes_data d rfl rfl rfl (h2 _)⟩
    | lockPCR => exact .inl ⟨_, rfl, takes_unit rfl rfl⟩
    | lockPCRs => exact .inl ⟨_, rfl, takes_unit rfl rfl⟩
    | describeNSM a b c d e f g => exact .inl ⟨_, rfl, takes_data (a, b, c, d, e, f, g) rfl rfl rfl h3⟩
    | attestation d => exact .inl ⟨_, rfl, takes_data d rfl rfl rfl (h2 _)⟩
    | getRandom d => exact .inl ⟨_, rfl, takes_data d rfl rfl rfl (h2 _)⟩
    | error e => exact .inl ⟨_, rfl, takes_data e rfl rfl rfl (fun _ _ => nsmError_iff)⟩
  · simp [NsmDoc]

theorem keyError_iff {v : Json} {e : P256Error} : JCodec.p256Error.dec v = some e ↔ KeyErrorDoc v e := by
  refine Iff.trans (enum_iff (names := fun e => [(keyErrorKind e).1]) (said := keyErrorSays) (by decide +kernel) (fun x => (keyErrorKind x).2) ?_ ?_) ?_
  · simp only [P256Error.variants, List.map, List.forall_mem_cons]
    repeat' (first | exact gives_unit rfl rfl | exact gives_data (fun _ => rfl) (fun _ => rfl) (fun _ _ => text_iff) | refine And.intro ?_ ?_)
    simp
  · intro a
    cases a with
    | qosHex s => exact .inl ⟨_, rfl, takes_data s rfl rfl rfl (fun _ _ => text_iff)⟩
    | ioError s => exact .inl ⟨_, rfl, takes_data s rfl rfl rfl (fun _ _ => text_iff)⟩
    | _ => exact .inl ⟨_, rfl, takes_unit rfl rfl⟩
  · simp [KeyErrorDoc]

theorem pair_iff (v : Json) (x : String × String) : JCodec.expectedActual.dec v = some x ↔ PairDoc x.1 x.2 v :=
  two_iff (by decide) (fun _ _ => text_iff) (fun _ _ => text_iff) v x

theorem nonces_iff (v : Json) (x : UInt32 × UInt32) :
    (JCodec.struct false (.both (.req "expected" .u32) (.req "actual" .u32))).dec v = some x ↔
      ∃ field, Record false ["expected", "actual"] v field ∧ Has field "expected" (IsNumber · x.1.toNat) ∧
        Has field "actual" (IsNumber · x.2.toNat) :=
  two_iff (by decide) (fun _ _ => u32_iff) (fun _ _ => u32_iff) v x

theorem phases_iff (v : Json) (x : Phase × Phase) : (JCodec.tuple2 JCodec.phase JCodec.phase).dec v = some x ↔
    ∃ a b, v = .arr [a, b] ∧ PhaseDoc a x.1 ∧ PhaseDoc b x.2 := by
  obtain ⟨p, q⟩ := x
  cases v with
  | arr items =>
    match items with
    | [] => simp [JCodec.tuple2]
    | [_] => simp [JCodec.tuple2]
    | _ :: _ :: _ :: _ => simp [JCodec.tuple2]
    | [a, b] =>
      simp only [JCodec.tuple2, Json.arr.injEq, List.cons.injEq, and_true, ← phase_iff]
      constructor
      · intro h
        cases h1 : JCodec.phase.dec a <;> cases h2 : JCodec.phase.dec b <;> rw [h1, h2] at h <;> cases h
        exact ⟨a, b, ⟨rfl, rfl⟩, h1, h2⟩
      · rintro ⟨_, _, ⟨rfl, rfl⟩, h1, h2⟩
        rw [h1, h2]
  | _ => simp [JCodec.tuple2]

theorem error_iff {v : Json} {e : ProtocolError} : JCodec.protocolError.dec v = some e ↔ ErrorDoc v e := by
  refine Iff.trans (enum_iff (names := fun e => [(errorKind e).1]) (said := errorSays) (by decide +kernel) (fun x => (errorKind x).2) ?_ ?_) ?_
  · simp only [ProtocolError.variants, List.map, List.forall_mem_cons]
    repeat' (first | exact gives_unit rfl rfl | exact gives_data (fun _ => rfl) (fun _ => rfl) (fun _ _ => text_iff) | exact gives_data (fun _ => rfl) (fun _ => rfl) (fun _ _ => keyError_iff) | exact gives_data (fun _ => rfl) (fun _ => rfl) pair_iff | exact gives_data (fun _ => rfl) (fun _ => rfl) nonces_iff | exact gives_data (fun _ => rfl) (fun _ => rfl) phases_iff | exact gives_data (fun _ => rfl) (fun _ => rfl) (fun _ _ => approval_iff) | exact gives_data (fun _ => rfl) (fun _ => rfl) (fun _ _ => phase_iff) | refine And.intro ?_ ?_)
    simp
  · intro a
    cases a with
    | invalidManifestApproval x => exact .inl ⟨_, rfl, takes_data x rfl rfl rfl (fun _ _ => approval_iff)⟩
    | noMatchingRoute x => exact .inl ⟨_, rfl, takes_data x rfl rfl rfl (fun _ _ => phase_iff)⟩
    | invalidPivotHash x y => exact .inl ⟨_, rfl, takes_data (x, y) rfl rfl rfl pair_iff⟩
    | failedToGetEphemeralKey x => exact .inl ⟨_, rfl, takes_data x rfl rfl rfl (fun _ _ => keyError_iff)⟩
    | cannotDeleteEphemeralKey x => exact .inl ⟨_, rfl, takes_data x rfl rfl rfl (fun _ _ => text_iff)⟩
    | failedToGetQuorumKey x => exact .inl ⟨_, rfl, takes_data x rfl rfl rfl (fun _ _ => keyError_iff)⟩
    | appClientConnectError x => exact .inl ⟨_, rfl, takes_data x rfl rfl rfl (fun _ _ => text_iff)⟩
    | appClientSendError x => exact .inl ⟨_, rfl, takes_data x rfl rfl rfl (fun _ _ => text_iff)⟩
    | appClientError x => exact .inl ⟨_, rfl, takes_data x rfl rfl rfl (fun _ _ => text_iff)⟩
    | p256Error x => exact .inl ⟨_, rfl, takes_data x rfl rfl rfl (fun _ _ => keyError_iff)⟩
    | invalidP256DRKey x => exact .inl ⟨_, rfl, takes_data x rfl rfl rfl (fun _ _ => keyError_iff)⟩
    | qosAttestError x => exact .inl ⟨_, rfl, takes_data x rfl rfl rfl (fun _ _ => text_iff)⟩
    | differentQuorumKey x y => exact .inl ⟨_, rfl, takes_data (x, y) rfl rfl rfl pair_iff⟩
    | differentManifestSet x y => exact .inl ⟨_, rfl, takes_data (x, y) rfl rfl rfl pair_iff⟩
    | differentNamespaceName x y => exact .inl ⟨_, rfl, takes_data (x, y) rfl rfl rfl pair_iff⟩
    | lowNonce x y => exact .inl ⟨_, rfl, takes_data (x, y) rfl rfl rfl nonces_iff⟩
    | differentPcr3 x y => exact .inl ⟨_, rfl, takes_data (x, y) rfl rfl rfl pair_iff⟩
    | invalidStateTransition x y => exact .inl ⟨_, rfl, takes_data (x, y) rfl rfl rfl phases_iff⟩
    | differentManifest x y => exact .inl ⟨_, rfl, takes_data (x, y) rfl rfl rfl pair_iff⟩
    | qosCrypto x => exact .inl ⟨_, rfl, takes_data x rfl rfl rfl (fun _ _ => text_iff)⟩
    | invalidPivotEnv x => exact .inl ⟨_, rfl, takes_data x rfl rfl rfl (fun _ _ => text_iff)⟩
    | _ => exact .inl ⟨_, rfl, takes_unit rfl rfl⟩
  · simp [ErrorDoc]

theorem genesisSet_iff {v : Json} {s : GenesisSet} : JCodec.genesisSet.dec v = some s ↔ GenesisSetDoc v s := by
  unfold JCodec.genesisSet GenesisSetDoc
  record
  simp only [vec_iff fun _ _ => member_iff]

theorem memberOutput_iff {v : Json} {s : MemberOutput} : JCodec.memberOutput.dec v = some s ↔ MemberOutputDoc v s := by
  unfold JCodec.memberOutput MemberOutputDoc
  record
  simp only [member_iff, longDigest_iff]

theorem shard_iff {v : Json} {s : MemberShard} : JCodec.memberShard.dec v = some s ↔ ShardDoc v s := by
  unfold JCodec.memberShard ShardDoc
  record
  simp only [member_iff]

theorem genesis_doc_iff {v : Json} {s : GenesisOutput} : JCodec.genesisOutput.dec v = some s ↔ GenesisDoc v s := by
  unfold JCodec.genesisOutput GenesisDoc
  record
  simp only [genesisSet_iff, may_iff (show JCodec.hexVec.dec .null = none from rfl) (fun _ _ => hexVec_iff),
    vec_iff fun _ _ => memberOutput_iff, vec_iff fun _ _ => vec_iff fun _ _ => shard_iff, longDigest_iff]

theorem envelope_null : JCodec.envelope.dec .null = none := by decide +kernel

theorem maybe_envelope_iff (v : Json) (e : Option Envelope) :
    (JCodec.struct false (.opt "manifest_envelope" JCodec.envelope)).dec v = some e ↔
      ∃ field, Record false ["manifest_envelope"] v field ∧ MayHave field "manifest_envelope" EnvelopeSays e := by
  fields
  exact may_iff envelope_null envelope_in_request

theorem version_doc_iff (v : Json) (x : String × String) :
    (JCodec.struct false (.both (.req "version" .string) (.req "commit" .string))).dec v = some x ↔
      ∃ field, Record false ["version", "commit"] v field ∧ Has field "version" (IsText · x.1) ∧ Has field "commit" (IsText · x.2) :=
  two_iff (by decide) (fun _ _ => text_iff) (fun _ _ => text_iff) v x

/-- C74: a JSON document is a message exactly if it is the name of the message with its members, under the documented names. -/
theorem message_document (v : Json) (m : Msg) : JCodec.msg.dec v = some m ↔ MsgDoc v m := by
  have henv : ∀ v e, JCodec.envelope.dec v = some e ↔ EnvelopeSays v e := envelope_in_request
  have hboot := two_iff (k := "manifest_envelope") (l := "pivot") (by decide) henv (fun _ _ => hexVec_iff)
  have hnsm := one_iff (k := "nsm_response") (fun _ _ => nsm_iff)
  have hgen := two_may_iff (k := "set") (l := "dr_key") (by decide) (show JCodec.hexVec.dec .null = none from rfl)
    (fun _ _ => genesisSet_iff) (fun _ _ => hexVec_iff)
  have hout := two_iff (k := "nsm_response") (l := "genesis_output") (by decide) (fun _ _ => nsm_iff) (fun _ _ => genesis_doc_iff)
  have hprov := two_iff (k := "share") (l := "approval") (by decide) (fun _ _ => hexVec_iff) (fun _ _ => approval_iff)
  have hrec := one_iff (k := "reconstructed") (fun _ _ => flag_iff)
  have hdata := one_iff (k := "data") (fun _ _ => hexVec_iff)
  have hlive := two_may_iff (k := "nsm_response") (l := "manifest_envelope") (by decide) envelope_null (fun _ _ => nsm_iff)
    henv
  have hexp := two_iff (k := "manifest_envelope") (l := "cose_sign1_attestation_doc") (by decide) henv
    (fun _ _ => hexVec_iff)
  have hkey := two_iff (k := "encrypted_quorum_key") (l := "signature") (by decide) (fun _ _ => hexVec_iff) (fun _ _ => hexVec_iff)
  refine Iff.trans (enum_iff (names := fun m : Msg => [m.kind.1]) (said := msgSays) (by decide +kernel) (fun x => x.kind.2) ?_ ?_) ?_
  · simp only [Msg.jvariants, List.forall_mem_cons]
    refine ⟨?_, ?_, ?_, ?_, ?_, ?_, ?_, ?_, ?_, ?_, ?_, ?_, ?_, ?_, ?_, ?_, ?_, ?_, ?_, ?_, ?_, ?_, ?_, by simp⟩
    · exact gives_data (fun _ => rfl) (fun _ => rfl) (fun _ _ => error_iff)
    · exact gives_unit rfl rfl
    · exact gives_data (fun _ => rfl) (fun _ => rfl) (fun _ _ => phase_iff)
    · exact gives_data (fun _ => rfl) (fun _ => rfl) hboot
    · exact gives_data (fun _ => rfl) (fun _ => rfl) hnsm
    · exact gives_data (fun _ => rfl) (fun _ => rfl) hgen
    · exact gives_data (fun _ => rfl) (fun _ => rfl) hout
    · exact gives_data (fun _ => rfl) (fun _ => rfl) hprov
    · exact gives_data (fun _ => rfl) (fun _ => rfl) hrec
    · exact gives_data (fun _ => rfl) (fun _ => rfl) hdata
    · exact gives_data (fun _ => rfl) (fun _ => rfl) hdata
    · exact gives_unit rfl rfl
    · exact gives_data (fun _ => rfl) (fun _ => rfl) hlive
    · exact gives_data (fun _ => rfl) (fun _ => rfl) hboot
    · exact gives_data (fun _ => rfl) (fun _ => rfl) hnsm
    · exact gives_data (fun _ => rfl) (fun _ => rfl) hexp
    · exact gives_data (fun _ => rfl) (fun _ => rfl) hkey
    · exact gives_data (fun _ => rfl) (fun _ => rfl) hkey
    · exact gives_unit rfl rfl
    · exact gives_unit rfl rfl
    · exact gives_data (fun _ => rfl) (fun _ => rfl) maybe_envelope_iff
    · exact gives_unit rfl rfl
    · exact gives_data (fun _ => rfl) (fun _ => rfl) version_doc_iff
  · intro a
    cases a with
    | protocolErrorResponse e => exact .inl ⟨_, rfl, takes_data e rfl rfl rfl (fun _ _ => error_iff)⟩
    | statusResponse p => exact .inl ⟨_, rfl, takes_data p rfl rfl rfl (fun _ _ => phase_iff)⟩
    | bootStandardRequest e p => exact .inl ⟨_, rfl, takes_data (e, p) rfl rfl rfl hboot⟩
    | bootStandardResponse r => exact .inl ⟨_, rfl, takes_data r rfl rfl rfl hnsm⟩
    | bootGenesisRequest s k => exact .inl ⟨_, rfl, takes_data (s, k) rfl rfl rfl hgen⟩
    | bootGenesisResponse s k => exact .inl ⟨_, rfl, takes_data (s, k) rfl rfl rfl hout⟩
    | provisionRequest s k => exact .inl ⟨_, rfl, takes_data (s, k) rfl rfl rfl hprov⟩
    | provisionResponse b => exact .inl ⟨_, rfl, takes_data b rfl rfl rfl hrec⟩
    | proxyRequest b => exact .inl ⟨_, rfl, takes_data b rfl rfl rfl hdata⟩
    | proxyResponse b => exact .inl ⟨_, rfl, takes_data b rfl rfl rfl hdata⟩
    | liveAttestationDocResponse r e => exact .inl ⟨_, rfl, takes_data (r, e) rfl rfl rfl hlive⟩
    | bootKeyForwardRequest e p => exact .inl ⟨_, rfl, takes_data (e, p) rfl rfl rfl hboot⟩
    | bootKeyForwardResponse r => exact .inl ⟨_, rfl, takes_data r rfl rfl rfl hnsm⟩
    | exportKeyRequest e p => exact .inl ⟨_, rfl, takes_data (e, p) rfl rfl rfl hexp⟩
    | exportKeyResponse e p => exact .inl ⟨_, rfl, takes_data (e, p) rfl rfl rfl hkey⟩
    | injectKeyRequest e p => exact .inl ⟨_, rfl, takes_data (e, p) rfl rfl rfl hkey⟩
    | manifestEnvelopeResponse e => exact .inl ⟨_, rfl, takes_data e rfl rfl rfl maybe_envelope_iff⟩
    | versionResponse e p => exact .inl ⟨_, rfl, takes_data (e, p) rfl rfl rfl version_doc_iff⟩
    | bootStandardJsonEnvelopeRequest e p =>
      right
      rintro o ⟨_, _, h⟩
      exact h
    | _ => exact .inl ⟨_, rfl, takes_unit rfl rfl⟩
  · simp [MsgDoc]

end Qos.Format
