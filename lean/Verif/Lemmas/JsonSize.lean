import Verif.Lemmas.JsonCanon
import Verif.Model.Wire
import Verif.Lemmas.Hex
/-!
# A bound on the length of JSON texts

Used to show that concrete messages fit into a frame without computing their texts.
-/
namespace Qos.Json

/-- A string literal of `n` characters takes at most this many bytes. -/
def strSize (n : Nat) : Nat := 6 * n + 2

mutual
/-- At least the length of the text. -/
def extent : Json → Nat
  | .null => 4
  | .bool _ => 5
  | .int i => strSize (intText i).length
  | .float t => 4 * t.length
  | .str s => strSize s.toList.length
  | .arr vs => 2 + extentArr vs
  | .obj kvs => 2 + extentObj kvs
/-- Elements. -/
def extentArr : List Json → Nat
  | [] => 0
  | v :: vs => extent v + 1 + extentArr vs
/-- Members. -/
def extentObj : List (String × Json) → Nat
  | [] => 0
  | (k, v) :: kvs => strSize k.toList.length + extent v + 2 + extentObj kvs
end

/-- Bytes of a text. -/
def textBytes (t : List Char) : Nat := (t.flatMap String.utf8EncodeChar).length

theorem textBytes_nil : textBytes [] = 0 := rfl
theorem textBytes_cons (c : Char) (t : List Char) : textBytes (c :: t) = c.utf8Size + textBytes t := by
  simp [textBytes]
theorem textBytes_append (a b : List Char) : textBytes (a ++ b) = textBytes a + textBytes b := by
  simp [textBytes]
theorem utf8Size_le (c : Char) : c.utf8Size ≤ 4 := Char.utf8Size_le_four c

theorem textBytes_le (t : List Char) : textBytes t ≤ 4 * t.length := by
  induction t with
  | nil => simp [textBytes_nil]
  | cons c t ih =>
    rw [textBytes_cons, List.length_cons]
    have := utf8Size_le c
    omega

theorem escape_le (c : Char) : textBytes (escapeChar c) ≤ 6 := by
  have hx : ∀ n, n < 16 → (hexChar n).utf8Size = 1 := by decide +kernel
  unfold escapeChar
  split
  · decide +kernel
  split
  · decide +kernel
  split
  · decide +kernel
  split
  · decide +kernel
  split
  · decide +kernel
  split
  · decide +kernel
  split
  · decide +kernel
  split
  · rename_i h
    have h1 := hx (c.toNat / 16) (by omega)
    have h2 := hx (c.toNat % 16) (by omega)
    simp only [textBytes_cons, textBytes_nil, h1, h2]
    decide +kernel
  · simp only [textBytes_cons, textBytes_nil]
    have := utf8Size_le c
    omega

theorem textBytes_writeString (s : String) : textBytes (writeString s) ≤ strSize s.toList.length := by
  unfold writeString strSize
  rw [textBytes_cons, textBytes_append]
  have : ∀ l : List Char, textBytes (l.flatMap escapeChar) ≤ 6 * l.length := by
    intro l
    induction l with
    | nil => simp [textBytes_nil]
    | cons c l ih =>
      rw [List.flatMap_cons, textBytes_append, List.length_cons]
      have := escape_le c
      omega
  have h := this s.toList
  have h1 : textBytes ['"'] = 1 := by decide
  have h2 : ('"').utf8Size = 1 := by decide
  omega

theorem textBytes_commaSep (l : List (List Char)) : textBytes (commaSep l) ≤ (l.map fun t => textBytes t + 1).sum := by
  induction l with
  | nil => simp [commaSep, textBytes_nil]
  | cons t ts ih =>
    cases ts with
    | nil => simp [commaSep]
    | cons u us =>
      rw [commaSep, textBytes_append, textBytes_cons]
      have h2 : (',').utf8Size = 1 := by decide
      simp only [List.map_cons, List.sum_cons] at ih ⊢
      omega
      · simp

mutual
theorem textBytes_write : ∀ v, textBytes (write v) ≤ extent v
  | .null => by decide +kernel
  | .bool true => by decide +kernel
  | .bool false => by decide +kernel
  | .int i => by
    simp only [write, extent, strSize]
    have := textBytes_le (intText i)
    omega
  | .float t => by
    simp only [write, extent]
    exact textBytes_le t
  | .str s => by
    simp only [write, extent]
    exact textBytes_writeString s
  | .arr vs => by
    rw [write, extent, textBytes_cons, textBytes_append]
    have h1 := textBytes_commaSep (writeArr vs)
    have h2 := textBytes_writeArr vs
    have h3 : textBytes [']'] = 1 := by decide
    have h4 : ('[').utf8Size = 1 := by decide
    omega
  | .obj kvs => by
    rw [write, extent, textBytes_cons, textBytes_append]
    have h1 := textBytes_commaSep (writeObj kvs)
    have h2 := textBytes_writeObj kvs
    have h3 : textBytes ['}'] = 1 := by decide
    have h4 : ('{').utf8Size = 1 := by decide
    omega
theorem textBytes_writeArr : ∀ vs, ((writeArr vs).map fun t => textBytes t + 1).sum ≤ extentArr vs
  | [] => by simp [writeArr, extentArr]
  | v :: vs => by
    have h1 := textBytes_write v
    have h2 := textBytes_writeArr vs
    simp only [writeArr, extentArr, List.map_cons, List.sum_cons]
    omega
theorem textBytes_writeObj : ∀ kvs, ((writeObj kvs).map fun t => textBytes t + 1).sum ≤ extentObj kvs
  | [] => by simp [writeObj, extentObj]
  | (k, v) :: kvs => by
    have h1 := textBytes_write v
    have h2 := textBytes_writeObj kvs
    have h3 := textBytes_writeString k
    have h4 : (':').utf8Size = 1 := by decide
    simp only [writeObj, extentObj, List.map_cons, List.sum_cons, textBytes_append, textBytes_cons]
    omega
end

theorem length_writeBytes (v : Json) : (writeBytes v).length ≤ extent v := textBytes_write v

theorem extentObj_perm {l m : List (String × Json)} (h : l.Perm m) : extentObj l = extentObj m := by
  induction h with
  | nil => rfl
  | cons x _ ih => obtain ⟨k, v⟩ := x; simp only [extentObj, ih]
  | swap x y l => obtain ⟨k, v⟩ := x; obtain ⟨k', v'⟩ := y; simp only [extentObj]; omega
  | trans _ _ ih1 ih2 => rw [ih1, ih2]

mutual
theorem extent_norm : ∀ v, extent (norm v) ≤ extent v
  | .null => by simp [norm]
  | .bool _ => by simp [norm]
  | .int i => by simp [norm, extent]
  | .float _ => by simp [norm]
  | .str _ => by simp [norm]
  | .arr vs => by have := extentArr_norm vs; simp only [norm, extent]; omega
  | .obj kvs => by
    have := extentObj_norm kvs
    simp only [norm, extent]
    have h : extentObj (sortEntries (normObj kvs)) = extentObj (normObj kvs) :=
      extentObj_perm (List.perm_insertionSort _ _)
    omega
theorem extentArr_norm : ∀ vs, extentArr (normArr vs) ≤ extentArr vs
  | [] => by simp [normArr]
  | v :: vs => by
    have h1 := extent_norm v
    have h2 := extentArr_norm vs
    simp only [normArr, extentArr]; omega
theorem extentObj_norm : ∀ kvs, extentObj (normObj kvs) ≤ extentObj kvs
  | [] => by simp [normObj]
  | (k, v) :: kvs => by
    have h1 := extent_norm v
    have h2 := extentObj_norm kvs
    simp only [normObj]
    split
    · simp only [extentObj]; omega
    · simp only [extentObj]; omega
end

theorem length_canonical (v : Json) : (writeBytes (norm v)).length ≤ extent v :=
  Nat.le_trans (length_writeBytes _) (extent_norm v)

theorem extent_hex (b : Bytes) : extent (.str (JCodec.bytesText (Hex.encode b))) = strSize (2 * b.length) := by
  simp only [extent, JCodec.bytesText, String.toList_ofList, List.length_map, Hex.encode_length]

theorem extentObj_append (a b : List (String × Json)) : extentObj (a ++ b) = extentObj a + extentObj b := by
  induction a with
  | nil => simp [extentObj]
  | cons x a ih => obtain ⟨k, v⟩ := x; simp only [List.cons_append, extentObj, ih]; omega

theorem extentArr_map {α : Type} (f : α → Json) (n : Nat) (l : List α) (h : ∀ a ∈ l, extent (f a) ≤ n) :
    extentArr (l.map f) ≤ (n + 1) * l.length := by
  induction l with
  | nil => simp [extentArr]
  | cons a l ih =>
    have h1 := h a (List.mem_cons_self ..)
    have h2 := ih fun x hx => h x (List.mem_cons_of_mem _ hx)
    simp only [List.map_cons, extentArr, List.length_cons, Nat.mul_add, Nat.mul_one]
    omega

theorem hexText_length (b : Bytes) : (JCodec.bytesText (Hex.encode b)).toList.length = 2 * b.length := by
  simp only [JCodec.bytesText, String.toList_ofList, List.length_map, Hex.encode_length]
theorem len_alias : "alias".toList.length = 5 := by decide
theorem len_pubKey : "pubKey".toList.length = 6 := by decide
theorem len_threshold : "threshold".toList.length = 9 := by decide
theorem len_members : "members".toList.length = 7 := by decide
theorem len_name : "name".toList.length = 4 := by decide
theorem len_nonce : "nonce".toList.length = 5 := by decide
theorem len_quorumKey : "quorumKey".toList.length = 9 := by decide
theorem len_hash : "hash".toList.length = 4 := by decide
theorem len_restart : "restart".toList.length = 7 := by decide
theorem len_bridgeConfig : "bridgeConfig".toList.length = 12 := by decide
theorem len_debugMode : "debugMode".toList.length = 9 := by decide
theorem len_args : "args".toList.length = 4 := by decide
theorem len_pcr0 : "pcr0".toList.length = 4 := by decide
theorem len_pcr1 : "pcr1".toList.length = 4 := by decide
theorem len_pcr2 : "pcr2".toList.length = 4 := by decide
theorem len_pcr3 : "pcr3".toList.length = 4 := by decide
theorem len_awsRootCertificate : "awsRootCertificate".toList.length = 18 := by decide
theorem len_qosCommit : "qosCommit".toList.length = 9 := by decide
theorem len_namespace : "namespace".toList.length = 9 := by decide
theorem len_pivot : "pivot".toList.length = 5 := by decide
theorem len_manifestSet : "manifestSet".toList.length = 11 := by decide
theorem len_shareSet : "shareSet".toList.length = 8 := by decide
theorem len_enclave : "enclave".toList.length = 7 := by decide
theorem len_patchSet : "patchSet".toList.length = 8 := by decide
theorem len_signature : "signature".toList.length = 9 := by decide
theorem len_member : "member".toList.length = 6 := by decide
theorem len_manifest : "manifest".toList.length = 8 := by decide
theorem len_manifestSetApprovals : "manifestSetApprovals".toList.length = 20 := by decide
theorem len_shareSetApprovals : "shareSetApprovals".toList.length = 17 := by decide
theorem len_nsm_response : "nsm_response".toList.length = 12 := by decide
theorem len_manifest_envelope : "manifest_envelope".toList.length = 17 := by decide
theorem len_manifestEnvelopeResponse : "manifestEnvelopeResponse".toList.length = 24 := by decide
theorem len_liveAttestationDocResponse : "liveAttestationDocResponse".toList.length = 26 := by decide
theorem len_attestation : "attestation".toList.length = 11 := by decide
theorem len_document : "document".toList.length = 8 := by decide
theorem len_ns : "ns".toList.length = 2 := by decide
theorem len_never : "never".toList.length = 5 := by decide
theorem len_bootStandardRequest : "bootStandardRequest".toList.length = 19 := by decide
theorem len_provisionRequest : "provisionRequest".toList.length = 16 := by decide
theorem len_share : "share".toList.length = 5 := by decide
theorem len_approval : "approval".toList.length = 8 := by decide
theorem len_version : "version".toList.length = 7 := by decide
theorem len_env : "env".toList.length = 3 := by decide
theorem len_dns : "dns".toList.length = 3 := by decide
theorem len_empty : "".toList.length = 0 := by decide

/-- Unfold the extent of an encoded value into numbers. -/
macro "extents" : tactic => `(tactic| simp only [JCodec.struct, Fields.imap, Fields.both, Fields.req, Fields.opt, extent, extentObj, extentArr,
  extentObj_append, JCodec.string, JCodec.hexVec, JCodec.hexArray, JCodec.vec, JCodec.bool, List.map_cons, List.map_nil, hexText_length, strSize, len_alias, len_pubKey, len_threshold, len_members, len_name, len_nonce, len_quorumKey, len_hash, len_restart,
  len_bridgeConfig, len_debugMode, len_args, len_pcr0, len_pcr1, len_pcr2, len_pcr3, len_awsRootCertificate,
  len_qosCommit, len_namespace, len_pivot, len_manifestSet, len_shareSet, len_enclave, len_patchSet,
  len_signature, len_member, len_manifest, len_manifestSetApprovals, len_shareSetApprovals, len_nsm_response,
  len_manifest_envelope, len_manifestEnvelopeResponse, len_liveAttestationDocResponse, len_attestation,
  len_document, len_ns, len_never, len_bootStandardRequest, len_provisionRequest, len_share, len_approval,
  len_version, len_env, len_dns, len_empty])


end Qos.Json
