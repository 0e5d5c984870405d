import Verif.Lemmas.WireJson
import Verif.Lemmas.JsonChars
import Verif.Props.Borsh
import Verif.Props.Genesis
import Verif.Spec.Wire
/-! Borsh laws of the message types. -/
namespace Qos
open Borsh

/-- Decoding an encoding gives the value and leaves the rest. -/
def Borsh.Fwd {α : Type} (c : Codec α) : Prop := ∀ a r, c.ok a → c.dec (c.enc a ++ r) = some (a, r)

theorem Borsh.Lawful.fwd {α : Type} {c : Codec α} (h : Lawful c) : Fwd c := h.dec_enc

theorem Borsh.fwd_pair {α β : Type} {c : Codec α} {d : Codec β} (hc : Fwd c) (hd : Fwd d) : Fwd (pair c d) := by
  intro ab r h
  simp only [pair] at *
  rw [List.append_assoc]
  simp only [hc _ _ h.1, hd _ _ h.2]

/-- What follows the tag can be read back. -/
def BVariant.LawAt {α : Type} (v : BVariant α) (a : α) : Prop := v.ok a → ∀ r, v.dec (v.enc a ++ r) = some (a, r)

/-- Same, when nothing follows. -/
def BVariant.WholeAt {α : Type} (v : BVariant α) (a : α) : Prop := v.ok a → v.dec (v.enc a) = some (a, [])

/-- What a variant reads belongs to it. -/
def BVariant.Reads {α : Type} (tag : α → Nat) (v : BVariant α) (i : Nat) : Prop :=
  ∀ bs a r, v.dec bs = some (a, r) → tag a = i

theorem BVariant.LawAt.whole {α : Type} {v : BVariant α} {a : α} (h : v.LawAt a) : v.WholeAt a := by
  intro hok
  have := h hok []
  rwa [List.append_nil] at this

theorem BVariant.unit_lawAt {α : Type} {a : α} : (BVariant.unit a).LawAt a := fun _ _ => rfl

theorem BVariant.unit_reads {α : Type} {tag : α → Nat} {a : α} {i : Nat} (h : tag a = i) :
    (BVariant.unit a).Reads tag i := by
  intro bs b r hb
  cases hb
  exact h

theorem BVariant.data_lawAt {α β : Type} {c : Codec β} {inj : β → α} {proj : α → Option β} (hc : Fwd c) {a : α} {b : β}
    (hp : proj a = some b) (hi : inj b = a) : (BVariant.data c inj proj).LawAt a := by
  intro h r
  have h : c.ok b := by simpa only [BVariant.data, hp] using h
  simp only [BVariant.data, hp, hc b r h, hi]

theorem BVariant.data_wholeAt {α β : Type} {c : Codec β} {inj : β → α} {proj : α → Option β} {a : α} {b : β}
    (hp : proj a = some b) (hi : inj b = a) (hc : c.ok b → c.dec (c.enc b) = some (b, [])) :
    (BVariant.data c inj proj).WholeAt a := by
  intro h
  have h : c.ok b := by simpa only [BVariant.data, hp] using h
  simp only [BVariant.data, hp, hc h, hi]

theorem BVariant.data_reads {α β : Type} {tag : α → Nat} {c : Codec β} {inj : β → α} {proj : α → Option β} {i : Nat}
    (ht : ∀ b, tag (inj b) = i) : (BVariant.data c inj proj).Reads tag i := by
  intro bs a r h
  simp only [BVariant.data] at h
  split at h
  · cases h; exact ht _
  · cases h

theorem Borsh.fwd_enum {α : Type} {tag : α → Nat} {vs : List (BVariant α)} (hlen : vs.length ≤ 256)
    (hl : ∀ a v, vs[tag a]? = some v → v.LawAt a) : Fwd (Borsh.enum tag vs) := by
  intro a r h
  simp only [Borsh.enum] at h ⊢
  cases hv : vs[tag a]? with
  | none => simp [hv] at h
  | some v =>
    simp only [hv] at h
    have ht : tag a < 256 := by
      have := (List.getElem?_eq_some_iff.mp hv).1
      omega
    have : (UInt8.ofNat (tag a)).toNat = tag a := by simp; omega
    simp only [List.cons_append, this, hv]
    exact hl a v hv h r

theorem Borsh.fwd_setU16 : Fwd setU16 := by
  intro l r h
  simp only [setU16] at *
  rw [(lawful_vec lawful_u16).dec_enc l r h.1]
  simp only [sortSet_of_isSet h.2]

theorem Borsh.fwd_phase : Fwd phase := by
  refine fwd_enum (by decide) ?_
  intro a v h
  cases a <;> (obtain rfl := Option.some.inj h; exact BVariant.unit_lawAt)

theorem Borsh.fwd_nsmErrorCode : Fwd nsmErrorCode := by
  refine fwd_enum (by decide) ?_
  intro a v h
  cases a <;> (obtain rfl := Option.some.inj h; exact BVariant.unit_lawAt)

theorem Borsh.fwd_nsmDigest : Fwd nsmDigest := by
  refine fwd_enum (by decide) ?_
  intro a v h
  cases a <;> (obtain rfl := Option.some.inj h; exact BVariant.unit_lawAt)

theorem Borsh.fwd_nsmResponse : Fwd nsmResponse := by
  refine fwd_enum (by decide) ?_
  intro a v h
  cases a <;> obtain rfl := Option.some.inj h
  · exact BVariant.data_lawAt (fwd_pair lawful_bool.fwd lawful_bytes.fwd) rfl rfl
  · exact BVariant.data_lawAt lawful_bytes.fwd rfl rfl
  · exact BVariant.unit_lawAt
  · exact BVariant.unit_lawAt
  · exact BVariant.data_lawAt (fwd_pair lawful_u16.fwd (fwd_pair lawful_u16.fwd (fwd_pair lawful_u16.fwd
      (fwd_pair lawful_string.fwd (fwd_pair lawful_u16.fwd (fwd_pair fwd_setU16 fwd_nsmDigest)))))) rfl rfl
  · exact BVariant.data_lawAt lawful_bytes.fwd rfl rfl
  · exact BVariant.data_lawAt lawful_bytes.fwd rfl rfl
  · exact BVariant.data_lawAt fwd_nsmErrorCode rfl rfl

theorem Borsh.fwd_p256Error : Fwd p256Error := by
  refine fwd_enum (by decide) ?_
  intro a v h
  cases a <;> (obtain rfl := Option.some.inj h
               first
                 | exact BVariant.unit_lawAt
                 | exact BVariant.data_lawAt lawful_string.fwd rfl rfl)

theorem Borsh.fwd_protocolError : Fwd protocolError := by
  refine fwd_enum (by decide +kernel) ?_
  intro a v h
  cases a <;> (obtain rfl := Option.some.inj h
               first
                 | exact BVariant.unit_lawAt
                 | exact BVariant.data_lawAt lawful_string.fwd rfl rfl
                 | exact BVariant.data_lawAt fwd_p256Error rfl rfl
                 | exact BVariant.data_lawAt (fwd_pair lawful_string.fwd lawful_string.fwd) rfl rfl
                 | exact BVariant.data_lawAt fwd_phase rfl rfl
                 | exact BVariant.data_lawAt lawful_approval.fwd rfl rfl
                 | exact BVariant.data_lawAt (fwd_pair lawful_u32.fwd lawful_u32.fwd) rfl rfl
                 | exact BVariant.data_lawAt (fwd_pair fwd_phase fwd_phase) rfl rfl)

/-! ### Messages -/

/-- What a decoded message's tag is. -/
theorem Borsh.msg_dec_tag {t : UInt8} {r : Bytes} {m : Msg} {rest : Bytes} (h : Borsh.msg.dec (t :: r) = some (m, rest)) :
    Msg.ctorIdx m = t.toNat ∧ ∃ v, Msg.bvariants[t.toNat]? = some v ∧ v.dec r = some (m, rest) := by
  simp only [Borsh.msg, Borsh.enum] at h
  split at h
  · rename_i v hv
    refine ⟨?_, v, hv, h⟩
    have hall : ∀ (i : Nat) (v : BVariant Msg), Msg.bvariants[i]? = some v → v.Reads Msg.ctorIdx i := by
      intro i v hv
      obtain ⟨hi, rfl⟩ := List.getElem?_eq_some_iff.mp hv
      have hi' : i < 24 := hi
      interval_cases i
      all_goals first | exact BVariant.unit_reads rfl | exact BVariant.data_reads (fun _ => rfl)
    exact hall _ _ hv _ _ _ h
  · cases h

/-- A Borsh message inside a pair that begins with an envelope can never be read. -/
theorem Borsh.pair_envelope_dec (bs : Bytes) : (Borsh.pair Borsh.envelope Borsh.bytes).dec bs = none := by
  simp only [pair, envelope]
  cases decodeEnvelope bs with
  | none => rfl
  | some e =>
    simp only [Option.map_some]
    have : bytes.dec [] = none := by decide
    simp only [this]

theorem Borsh.not_readable {bs : Bytes} {m : Msg} {r : Bytes} (h : Borsh.msg.dec bs = some (m, r)) :
    (∀ e p, m ≠ .bootStandardRequest e p) ∧ (∀ e p, m ≠ .bootKeyForwardRequest e p) ∧
    (∀ e p, m ≠ .exportKeyRequest e p) := by
  cases bs with
  | nil => cases h
  | cons t bs =>
    obtain ⟨ht, v, hv, hd⟩ := msg_dec_tag h
    refine ⟨?_, ?_, ?_⟩
    all_goals
      rintro e p rfl
      rw [← ht] at hv
      obtain rfl := Option.some.inj hv
      simp only [BVariant.data, pair_envelope_dec] at hd
      cases hd


theorem Borsh.envelope_whole (e : Envelope) (ha : ¬ Ambiguous e) (h : Borsh.envelope.ok e) :
    Borsh.envelope.dec (Borsh.envelope.enc e) = some (e, []) := by
  have : decodeEnvelope ((encodeEnvelope e).getD []) = some e := by
    refine (borsh_envelope_decode_iff _ _).mpr ?_
    cases e with
    | v2 x => exact False.elim h
    | v1 x => exact Or.inl ⟨x, rfl, h, rfl, ha⟩
    | v0 x => exact Or.inr ⟨x, rfl, h, rfl, ha⟩
  simp only [Borsh.envelope, this, Option.map_some]

theorem Borsh.option_envelope_whole (o : Option Envelope) (ha : ∀ e, o = some e → ¬ Ambiguous e)
    (h : (Borsh.option Borsh.envelope).ok o) :
    (Borsh.option Borsh.envelope).dec ((Borsh.option Borsh.envelope).enc o) = some (o, []) := by
  cases o with
  | none => rfl
  | some e =>
    have := envelope_whole e (ha e rfl) h
    simp only [option, if_neg (show (1 : UInt8) ≠ 0 by decide), if_true, this]

theorem Borsh.fwd_jsonEnvelope : Fwd jsonEnvelope := by
  intro e r h
  simp only [jsonEnvelope] at *
  have h1 := lawful_bytes.dec_enc (Json.writeBytes e.encUntagged) r h.2
  have h2 : fromJsonSlice JCodec.envelope (Json.writeBytes e.encUntagged) = some e := by
    show fromJsonSlice JCodec.envelope (Json.writeBytes (JCodec.envelope.enc e)) = some e
    rw [fromJsonSlice_some (JCodec.lawful_envelope.parse_write (by decide +kernel) h.1)]
    exact JCodec.lawful_envelope.dec_enc e h.1
  simp only [h1, h2]

theorem lawful_genesisSetCodec : Borsh.Lawful Services.genesisSetCodec :=
  Borsh.lawful_imap (Borsh.lawful_pair (Borsh.lawful_vec Borsh.lawful_quorumMember) Borsh.lawful_u32) (fun _ => rfl)
    (fun _ _ => rfl)

theorem Borsh.msg_whole (m : Msg) (hr : Readable m) (h : Borsh.msg.ok m) :
    Borsh.tryFromSlice Borsh.msg (Borsh.msg.enc m) = some m := by
  have hw : ∀ v, Msg.bvariants[Msg.ctorIdx m]? = some v → v.WholeAt m := by
    intro v hv
    cases m <;> obtain rfl := Option.some.inj hv
    · exact BVariant.LawAt.whole (BVariant.data_lawAt fwd_protocolError rfl rfl)
    · exact BVariant.LawAt.whole BVariant.unit_lawAt
    · exact BVariant.LawAt.whole (BVariant.data_lawAt fwd_phase rfl rfl)
    · exact False.elim hr
    · exact BVariant.LawAt.whole (BVariant.data_lawAt fwd_nsmResponse rfl rfl)
    · exact BVariant.LawAt.whole (BVariant.data_lawAt (fwd_pair lawful_genesisSetCodec.fwd (lawful_option lawful_bytes).fwd) rfl rfl)
    · exact BVariant.LawAt.whole (BVariant.data_lawAt (fwd_pair fwd_nsmResponse lawful_genesisOutput.fwd) rfl rfl)
    · exact BVariant.LawAt.whole (BVariant.data_lawAt (fwd_pair lawful_bytes.fwd lawful_approval.fwd) rfl rfl)
    · exact BVariant.LawAt.whole (BVariant.data_lawAt lawful_bool.fwd rfl rfl)
    · exact BVariant.LawAt.whole (BVariant.data_lawAt lawful_bytes.fwd rfl rfl)
    · exact BVariant.LawAt.whole (BVariant.data_lawAt lawful_bytes.fwd rfl rfl)
    · exact BVariant.LawAt.whole BVariant.unit_lawAt
    · refine BVariant.data_wholeAt rfl rfl fun hok => ?_
      simp only [pair] at hok ⊢
      simp only [fwd_nsmResponse _ _ hok.1, option_envelope_whole _ hr hok.2]
    · exact False.elim hr
    · exact BVariant.LawAt.whole (BVariant.data_lawAt fwd_nsmResponse rfl rfl)
    · exact False.elim hr
    · exact BVariant.LawAt.whole (BVariant.data_lawAt (fwd_pair lawful_bytes.fwd lawful_bytes.fwd) rfl rfl)
    · exact BVariant.LawAt.whole (BVariant.data_lawAt (fwd_pair lawful_bytes.fwd lawful_bytes.fwd) rfl rfl)
    · exact BVariant.LawAt.whole BVariant.unit_lawAt
    · exact BVariant.LawAt.whole BVariant.unit_lawAt
    · exact BVariant.data_wholeAt rfl rfl fun hok => option_envelope_whole _ hr hok
    · exact BVariant.LawAt.whole BVariant.unit_lawAt
    · exact BVariant.LawAt.whole (BVariant.data_lawAt (fwd_pair lawful_string.fwd lawful_string.fwd) rfl rfl)
    · exact BVariant.LawAt.whole (BVariant.data_lawAt (fwd_pair fwd_jsonEnvelope lawful_bytes.fwd) rfl rfl)
  simp only [Borsh.msg, Borsh.enum, tryFromSlice] at h ⊢
  cases hv : Msg.bvariants[Msg.ctorIdx m]? with
  | none => simp [hv] at h
  | some v =>
    simp only [hv] at h
    have ht : Msg.ctorIdx m < 24 := (List.getElem?_eq_some_iff.mp hv).1
    have : (UInt8.ofNat (Msg.ctorIdx m)).toNat = Msg.ctorIdx m := by simp; omega
    simp only [this, hv, hw v hv h]

/-! ### Borsh messages are not JSON -/

theorem fromJsonSlice_none {bs : Bytes} {b : UInt8} (hb : b ∈ bs)
    (h : ¬ (32 ≤ b.toNat ∨ b.toNat = 9 ∨ b.toNat = 10 ∨ b.toNat = 13)) :
    fromJsonSlice JCodec.msg bs = none := by
  unfold fromJsonSlice
  cases hp : Json.parse bs with
  | none => rfl
  | some v => exact absurd (Json.parse_bytes hp b hb) h

theorem leBytes_small {n : Nat} (h : n ≤ Wire.maxEncodedMsgLen) : ∃ b ∈ leBytes 4 n, b.toNat ≤ 8 := by
  refine ⟨UInt8.ofNat (n / 256 / 256 / 256 % 256), by simp [leBytes], ?_⟩
  have : n ≤ 134217728 := h
  simp
  omega

theorem Borsh.pair_prefix {α β : Type} {c : Codec α} {d : Codec β} (x : α × β) {p : Bytes}
    (h : ∃ r, c.enc x.1 = p ++ r) : ∃ r, (pair c d).enc x = p ++ r := by
  obtain ⟨r, hr⟩ := h
  exact ⟨r ++ d.enc x.2, by simp only [pair, hr, List.append_assoc]⟩

theorem Borsh.envelope_enc_prefix {e : Envelope} (h : Borsh.envelope.ok e) :
    ∃ s r, Borsh.envelope.enc e = Borsh.string.enc s ++ r := by
  cases e with
  | v2 x => exact False.elim h
  | v1 x => exact ⟨x.manifest.namespace.name, pair_prefix _ (pair_prefix _ (pair_prefix _ ⟨[], (List.append_nil _).symm⟩))⟩
  | v0 x => exact ⟨x.manifest.namespace.name, pair_prefix _ (pair_prefix _ (pair_prefix _ ⟨[], (List.append_nil _).symm⟩))⟩

/-- Bytes with a length prefix have a control byte in the prefix unless they are very long. -/
theorem lengthPrefix_control {b rest : Bytes} (h : (leBytes 4 b.length ++ b ++ rest).length ≤ Wire.maxEncodedMsgLen) :
    ∃ x ∈ leBytes 4 b.length ++ b ++ rest, ¬ (32 ≤ x.toNat ∨ x.toNat = 9 ∨ x.toNat = 10 ∨ x.toNat = 13) := by
  obtain ⟨x, hx, hl⟩ := leBytes_small (n := b.length) (by simp only [List.length_append] at h; omega)
  exact ⟨x, by simp [hx], by omega⟩

/-- A Borsh message within the size limit is never also a JSON message. -/
theorem Borsh.msg_not_json (m : Msg) (h : Borsh.msg.ok m) (hl : (Borsh.msg.enc m).length ≤ Wire.maxEncodedMsgLen) :
    fromJsonSlice JCodec.msg (Borsh.msg.enc m) = none := by
  have key : ∀ t rest, Borsh.msg.enc m = t :: rest →
      (∃ x ∈ t :: rest, ¬ (32 ≤ x.toNat ∨ x.toNat = 9 ∨ x.toNat = 10 ∨ x.toNat = 13)) →
      fromJsonSlice JCodec.msg (Borsh.msg.enc m) = none := by
    intro t rest he hx
    obtain ⟨x, hx, hc⟩ := hx
    rw [he]
    exact fromJsonSlice_none hx hc
  cases m
  case proxyRequest d =>
    have he : Borsh.msg.enc (.proxyRequest d) = 9 :: (leBytes 4 d.length ++ d ++ []) := by
      rw [List.append_nil]; rfl
    refine key _ _ he ?_
    rw [he, List.length_cons] at hl
    obtain ⟨x, hx, hc⟩ := lengthPrefix_control (b := d) (rest := []) (by omega)
    exact ⟨x, List.mem_cons_of_mem _ hx, hc⟩
  case proxyResponse d =>
    have he : Borsh.msg.enc (.proxyResponse d) = 10 :: (leBytes 4 d.length ++ d ++ []) := by
      rw [List.append_nil]; rfl
    refine key _ _ he ?_
    rw [he, List.length_cons] at hl
    obtain ⟨x, hx, hc⟩ := lengthPrefix_control (b := d) (rest := []) (by omega)
    exact ⟨x, List.mem_cons_of_mem _ hx, hc⟩
  case bootKeyForwardRequest e p =>
    have hok : Borsh.envelope.ok e := h.1
    obtain ⟨s, r, hs⟩ := envelope_enc_prefix hok
    have he : Borsh.msg.enc (.bootKeyForwardRequest e p) =
        13 :: (leBytes 4 (utf8 s).length ++ utf8 s ++ (r ++ bytes.enc p)) := by
      have : Borsh.msg.enc (.bootKeyForwardRequest e p) = 13 :: (Borsh.envelope.enc e ++ bytes.enc p) := rfl
      rw [this, hs]
      simp only [string, bytes, List.append_assoc]
    refine key _ _ he ?_
    rw [he, List.length_cons] at hl
    obtain ⟨x, hx, hc⟩ := lengthPrefix_control (b := utf8 s) (rest := r ++ bytes.enc p) (by omega)
    exact ⟨x, List.mem_cons_of_mem _ hx, hc⟩
  all_goals
    refine key _ _ rfl ⟨_, List.mem_cons_self, ?_⟩
    simp [Msg.ctorIdx]

end Qos
