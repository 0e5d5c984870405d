import Verif.Model.Hex
namespace Qos.Hex

theorem uint8_forall {P : UInt8 → Prop} (h : ∀ n : Fin 256, P (UInt8.ofNat n.val)) (b : UInt8) : P b := by
  have := h ⟨b.toNat, b.toNat_lt⟩
  simpa using this

theorem decodePair_byteChars (b : UInt8) :
    decodePair (nibbleChar (b >>> 4)) (nibbleChar (b &&& 15)) = .ok b := by
  revert b
  apply uint8_forall
  decide +kernel

theorem decodePairs_encode (bs : Bytes) : decodePairs (encode bs) = .ok bs := by
  induction bs with
  | nil => rfl
  | cons b bs ih =>
    have : encode (b :: bs) = nibbleChar (b >>> 4) :: nibbleChar (b &&& 15) :: encode bs := by
      simp [encode, byteChars]
    rw [this]
    simp [decodePairs, decodePair_byteChars, ih]

@[simp] theorem encode_length (bs : Bytes) : (encode bs).length = 2 * bs.length := by
  induction bs with
  | nil => rfl
  | cons b bs ih =>
    have : encode (b :: bs) = byteChars b ++ encode bs := by simp [encode]
    rw [this]; simp [ih, byteChars]; omega

theorem nibble_ne_x (b : UInt8) : nibbleChar (b &&& 15) ≠ 120 := by
  revert b; apply uint8_forall; decide +kernel

theorem stripPrefix_encode (bs : Bytes) : stripPrefix (encode bs) = encode bs := by
  cases bs with
  | nil => rfl
  | cons b bs =>
    have : encode (b :: bs) = nibbleChar (b >>> 4) :: nibbleChar (b &&& 15) :: encode bs := by
      simp [encode, byteChars]
    rw [this]
    have hx := nibble_ne_x b
    unfold stripPrefix
    split
    · rename_i h; simp at h; exact absurd h.2.1 hx
    · rfl

theorem stripPrefix_0x (s : Bytes) : stripPrefix (48 :: 120 :: s) = s := rfl

theorem decodePairs_length {s r : Bytes} (h : decodePairs s = .ok r) (he : s.length % 2 = 0) :
    s.length = 2 * r.length := by
  fun_induction decodePairs s generalizing r with
  | case1 => simp at h
  | case2 => simp at h
  | case3 a b rest v hv vs hvs ih =>
    simp at h; subst h
    have := ih hvs (by simp at he; omega)
    simp; omega
  | case4 s hs =>
    simp at h; subst h
    match s, hs with
    | [], _ => rfl
    | [_], _ => simp at he
    | _ :: _ :: _, hs => exact absurd rfl (hs _ _ _)

end Qos.Hex
