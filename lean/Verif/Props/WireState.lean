import Verif.Props.Wire
import Verif.Props.Boot
/-!
# C24: what the wire can carry

Every message the enclave decodes satisfies the well-formedness that the histories of C06–C20 assume, so those theorems
hold for arbitrary bytes on the wire.
-/
namespace Qos.Wire
open Qos Json StateMachine Services

theorem json_wellFormed {m : Msg} (h : JCodec.msg.ok m) : m.WellFormed := by
  cases m <;> try trivial
  case bootStandardRequest e p =>
    have h' : JCodec.envelope.ok e ∧ JCodec.hexVec.ok p := h
    exact h'.1
  case bootKeyForwardRequest e p =>
    have h' : JCodec.envelope.ok e ∧ JCodec.hexVec.ok p := h
    exact h'.1

theorem fromJsonSlice_dec {α : Type} {c : JCodec α} {b : Bytes} {a : α} (h : fromJsonSlice c b = some a) :
    ∃ v, c.dec v = some a := by
  unfold fromJsonSlice at h
  split at h
  · exact ⟨_, h⟩
  · cases h

theorem jsonEnvelope_ok {bs r : Bytes} {e : Envelope} (h : Borsh.jsonEnvelope.dec bs = some (e, r)) : e.Ok := by
  simp only [Borsh.jsonEnvelope] at h
  split at h
  · split at h
    · rename_i e' he
      cases h
      obtain ⟨v, hv⟩ := fromJsonSlice_dec he
      exact JCodec.lawful_envelope.dec_ok v e hv
    · cases h
  · cases h

/-- C24: every message decoded from the wire, in either encoding, is well-formed. -/
theorem decoded_well_formed (bs : Bytes) (m : Msg) (enc : Encoding) (h : fromWire bs = .ok (m, enc)) : m.WellFormed := by
  rcases fromWire_cases bs with ⟨m', h1, h'⟩ | ⟨_, m', h1, _, h'⟩ | ⟨_, _, h'⟩ | ⟨_, _, h'⟩
  · rw [h] at h'
    cases h'
    obtain ⟨v, hv⟩ := fromJsonSlice_dec h1
    exact json_wellFormed (JCodec.lawful_msg.dec_ok v m hv)
  · rw [h] at h'
    cases h'
    have hd : Borsh.msg.dec bs = some (m, []) := by
      unfold Borsh.tryFromSlice at h1
      split at h1
      · cases h1; assumption
      · cases h1
    have hn := Borsh.not_readable hd
    cases m <;> try trivial
    case bootStandardRequest => exact absurd rfl (hn.1 _ _)
    case bootKeyForwardRequest => exact absurd rfl (hn.2.1 _ _)
    case bootStandardJsonEnvelopeRequest e p =>
      cases bs with
      | nil => cases hd
      | cons t bs =>
        obtain ⟨ht, v, hv, hd⟩ := Borsh.msg_dec_tag hd
        rw [← ht] at hv
        obtain rfl := Option.some.inj hv
        simp only [BVariant.data] at hd
        split at hd
        · rename_i b r hb
          cases hd
          simp only [Borsh.pair] at hb
          split at hb
          · rename_i a r' ha
            split at hb
            · cases hb
              exact jsonEnvelope_ok ha
            · cases hb
          · cases hb
        · cases hd
  · rw [h] at h'; cases h'
  · rw [h] at h'; cases h'

end Qos.Wire
