import Verif.Model.Borsh
import Verif.Lemmas.Basic
import Verif.Lemmas.Text
namespace Qos.Borsh

/-- The two directions of a Borsh codec: decoding an encoding gives the value and leaves the rest;
whatever decodes was an encoding of an encodable value (canonicity). -/
structure Lawful {α : Type} (c : Codec α) : Prop where
  dec_enc : ∀ a r, c.ok a → c.dec (c.enc a ++ r) = some (a, r)
  enc_dec : ∀ bs a r, c.dec bs = some (a, r) → bs = c.enc a ++ r ∧ c.ok a

theorem takeN_append (b r : Bytes) : takeN b.length (b ++ r) = some (b, r) := by
  induction b with
  | nil => rfl
  | cons x b ih => simp [takeN, ih]

theorem takeN_some {n : Nat} {bs x r : Bytes} (h : takeN n bs = some (x, r)) :
    bs = x ++ r ∧ x.length = n := by
  induction n generalizing bs x with
  | zero => simp only [takeN, Option.some.injEq, Prod.mk.injEq] at h; obtain ⟨rfl, rfl⟩ := h; simp
  | succ n ih =>
    cases bs with
    | nil => simp [takeN] at h
    | cons b bs =>
      simp only [takeN] at h
      split at h
      · rename_i y r' hy
        simp only [Option.some.injEq, Prod.mk.injEq] at h
        obtain ⟨rfl, rfl⟩ := h
        obtain ⟨h1, h2⟩ := ih hy
        simp [h1, h2]
      · cases h

theorem lawful_u8 : Lawful u8 where
  dec_enc a r _ := rfl
  enc_dec bs a r h := by
    cases bs with
    | nil => simp [u8] at h
    | cons b bs => simp [u8] at h; obtain ⟨rfl, rfl⟩ := h; simp [u8]

theorem lawful_fixed (n : Nat) : Lawful (fixed n) where
  dec_enc a r h := by
    simp only [fixed] at *; subst h; exact takeN_append a r
  enc_dec bs a r h := takeN_some h

theorem lawful_le (k : Nat) : Lawful (le k) where
  dec_enc a r h := by
    have hl : (leBytes k a).length = k := leBytes_length k a
    have := takeN_append (leBytes k a) r
    rw [hl] at this
    simp only [le, this]
    rw [leNat_leBytes_of_lt h]
  enc_dec bs a r h := by
    simp only [le] at h
    split at h
    · rename_i x r' hx
      simp only [Option.some.injEq, Prod.mk.injEq] at h
      obtain ⟨rfl, rfl⟩ := h
      obtain ⟨h1, h2⟩ := takeN_some hx
      subst h2
      refine ⟨?_, leNat_lt x⟩
      simp only [le]
      rw [leBytes_leNat, h1]
    · cases h

theorem lawful_imap {α β : Type} {f : α → β} {g : β → α} {c : Codec α} (h : Lawful c)
    (hfg : ∀ b, f (g b) = b) (hgf : ∀ a, c.ok a → g (f a) = a) : Lawful (imap f g c) where
  dec_enc b r hb := by simp only [imap] at *; simp [h.dec_enc _ r hb, hfg]
  enc_dec bs b r hd := by
    simp only [imap] at *
    split at hd
    · rename_i a r' ha
      simp only [Option.some.injEq, Prod.mk.injEq] at hd
      obtain ⟨rfl, rfl⟩ := hd
      obtain ⟨h1, h2⟩ := h.enc_dec _ _ _ ha
      rw [hgf a h2]
      exact ⟨h1, h2⟩
    · cases hd

theorem lawful_u16 : Lawful u16 :=
  lawful_imap (lawful_le 2) (fun b => by simp) (fun a ha => by
    simp only [le] at ha
    rw [UInt16.toNat_ofNat_of_lt']
    exact ha)

theorem lawful_u32 : Lawful u32 :=
  lawful_imap (lawful_le 4) (fun b => by simp) (fun a ha => by
    simp only [le] at ha
    rw [UInt32.toNat_ofNat_of_lt']
    exact ha)

theorem ok_u16 (x : UInt16) : u16.ok x := x.toNat_lt
theorem ok_u32 (x : UInt32) : u32.ok x := x.toNat_lt

theorem lawful_bool : Lawful bool where
  dec_enc a r _ := by cases a <;> simp [bool]
  enc_dec bs a r h := by
    cases bs with
    | nil => simp [bool] at h
    | cons b bs =>
      simp only [bool] at h
      split at h
      · rename_i hb; simp at h; obtain ⟨rfl, rfl⟩ := h; simp [bool, hb]
      · split at h
        · rename_i hb; simp at h; obtain ⟨rfl, rfl⟩ := h; simp [bool, hb]
        · cases h

theorem lawful_unit : Lawful unit where
  dec_enc a r _ := rfl
  enc_dec bs a r h := by simp [unit] at h; simp [unit, h]

theorem lawful_pair {α β : Type} {c : Codec α} {d : Codec β} (hc : Lawful c) (hd : Lawful d) :
    Lawful (pair c d) where
  dec_enc ab r h := by
    simp only [pair] at *
    rw [List.append_assoc, hc.dec_enc _ _ h.1]
    simp [hd.dec_enc _ _ h.2]
  enc_dec bs ab r h := by
    simp only [pair] at *
    split at h
    · rename_i a r1 h1
      split at h
      · rename_i b r2 h2
        simp only [Option.some.injEq, Prod.mk.injEq] at h
        obtain ⟨rfl, rfl⟩ := h
        obtain ⟨e1, o1⟩ := hc.enc_dec _ _ _ h1
        obtain ⟨e2, o2⟩ := hd.enc_dec _ _ _ h2
        exact ⟨by rw [e1, e2, List.append_assoc], o1, o2⟩
      · cases h
    · cases h

theorem decMany_enc {α : Type} {c : Codec α} (hc : Lawful c) (l : List α) (r : Bytes)
    (h : ∀ a ∈ l, c.ok a) : decMany c l.length (l.flatMap c.enc ++ r) = some (l, r) := by
  induction l with
  | nil => rfl
  | cons a l ih =>
    simp only [List.flatMap_cons, List.length_cons, decMany, List.append_assoc]
    rw [hc.dec_enc _ _ (h a (by simp))]
    simp [ih fun a ha => h a (by simp [ha])]

theorem decMany_some {α : Type} {c : Codec α} (hc : Lawful c) {n : Nat} {bs : Bytes} {l : List α} {r : Bytes}
    (h : decMany c n bs = some (l, r)) : bs = l.flatMap c.enc ++ r ∧ l.length = n ∧ ∀ a ∈ l, c.ok a := by
  induction n generalizing bs l with
  | zero => simp [decMany] at h; obtain ⟨rfl, rfl⟩ := h; simp
  | succ n ih =>
    simp only [decMany] at h
    split at h
    · rename_i a r1 h1
      split at h
      · rename_i as r2 h2
        simp only [Option.some.injEq, Prod.mk.injEq] at h
        obtain ⟨rfl, rfl⟩ := h
        obtain ⟨e1, o1⟩ := hc.enc_dec _ _ _ h1
        obtain ⟨e2, l2, o2⟩ := ih h2
        refine ⟨by simp [e1, e2], by simp [l2], ?_⟩
        intro x hx
        rcases List.mem_cons.mp hx with rfl | hx
        · exact o1
        · exact o2 x hx
      · cases h
    · cases h

theorem lawful_vec {α : Type} {c : Codec α} (hc : Lawful c) : Lawful (vec c) where
  dec_enc l r h := by
    have := (lawful_le 4).dec_enc l.length (l.flatMap c.enc ++ r) (by simpa [le] using h.1)
    simp only [le] at this
    simp only [vec, le, List.append_assoc, this]
    exact decMany_enc hc l r h.2
  enc_dec bs l r h := by
    simp only [vec] at h
    split at h
    · rename_i n r1 h1
      obtain ⟨e1, o1⟩ := (lawful_le 4).enc_dec _ _ _ h1
      obtain ⟨e2, l2, o2⟩ := decMany_some hc h
      subst l2
      refine ⟨?_, by simpa [le] using o1, o2⟩
      rw [e1, e2]; simp [vec, le]
    · cases h

theorem lawful_bytes : Lawful bytes where
  dec_enc b r h := by
    have := (lawful_le 4).dec_enc b.length (b ++ r)
      (by have h' : b.length < 2 ^ 32 := h; simpa [le] using h')
    simp only [le] at this
    simp only [bytes, le, List.append_assoc, this]
    exact takeN_append b r
  enc_dec bs b r h := by
    simp only [bytes] at h
    split at h
    · rename_i n r1 h1
      obtain ⟨e1, o1⟩ := (lawful_le 4).enc_dec _ _ _ h1
      obtain ⟨e2, l2⟩ := takeN_some h
      subst l2
      refine ⟨?_, (show b.length < 2 ^ 32 by simpa [le] using o1)⟩
      rw [e1, e2]; simp [bytes, le]
    · cases h

theorem lawful_string : Lawful string where
  dec_enc s r h := by
    have h' : bytes.ok (utf8 s) := h
    simp only [string, lawful_bytes.dec_enc _ r h', utf8Decode_utf8]
  enc_dec bs s r h := by
    simp only [string] at h
    split at h
    · rename_i b r1 h1
      split at h
      · rename_i s' h2
        simp only [Option.some.injEq, Prod.mk.injEq] at h
        obtain ⟨rfl, rfl⟩ := h
        obtain ⟨e1, o1⟩ := lawful_bytes.enc_dec _ _ _ h1
        have := utf8_of_utf8Decode h2
        subst this
        exact ⟨e1, o1⟩
      · cases h
    · cases h

theorem lawful_option {α : Type} {c : Codec α} (hc : Lawful c) : Lawful (option c) where
  dec_enc a r h := by
    cases a with
    | none => simp [option]
    | some a => simp [option, hc.dec_enc a r h]
  enc_dec bs a r h := by
    cases bs with
    | nil => simp [option] at h
    | cons b bs =>
      simp only [option] at h
      split at h
      · rename_i hb; simp at h; obtain ⟨rfl, rfl⟩ := h; simp [option, hb]
      · split at h
        · rename_i hb
          split at h
          · rename_i a' r' ha
            simp at h; obtain ⟨rfl, rfl⟩ := h
            obtain ⟨e, o⟩ := hc.enc_dec _ _ _ ha
            exact ⟨by simp [option, hb, e], o⟩
          · cases h
        · cases h

theorem lawful_sum {α β : Type} {c : Codec α} {d : Codec β} (hc : Lawful c) (hd : Lawful d) :
    Lawful (sum c d) where
  dec_enc a r h := by
    cases a with
    | inl a => simp [sum, hc.dec_enc a r h]
    | inr a => simp [sum, hd.dec_enc a r h]
  enc_dec bs a r h := by
    cases bs with
    | nil => simp [sum] at h
    | cons b bs =>
      simp only [sum] at h
      split at h
      · rename_i hb
        split at h
        · rename_i a' r' ha
          simp at h; obtain ⟨rfl, rfl⟩ := h
          obtain ⟨e, o⟩ := hc.enc_dec _ _ _ ha
          exact ⟨by simp [sum, hb, e], o⟩
        · cases h
      · split at h
        · rename_i hb
          split at h
          · rename_i a' r' ha
            simp at h; obtain ⟨rfl, rfl⟩ := h
            obtain ⟨e, o⟩ := hd.enc_dec _ _ _ ha
            exact ⟨by simp [sum, hb, e], o⟩
          · cases h
        · cases h

/-! ### Consequences -/

theorem tryFromSlice_enc {α : Type} {c : Codec α} (h : Lawful c) {a : α} (ha : c.ok a) :
    tryFromSlice c (c.enc a) = some a := by
  have := h.dec_enc a [] ha
  rw [List.append_nil] at this
  simp [tryFromSlice, this]

theorem tryFromSlice_some {α : Type} {c : Codec α} (h : Lawful c) {a : α} {bs : Bytes}
    (hd : tryFromSlice c bs = some a) : bs = c.enc a ∧ c.ok a := by
  unfold tryFromSlice at hd
  split at hd
  · rename_i a' ha
    cases hd
    obtain ⟨e, o⟩ := h.enc_dec _ _ _ ha
    exact ⟨by simpa using e, o⟩
  · cases hd

theorem enc_prefix_free {α : Type} {c : Codec α} (h : Lawful c) {a b : α} {r s : Bytes}
    (ha : c.ok a) (hb : c.ok b) (e : c.enc a ++ r = c.enc b ++ s) : a = b ∧ r = s := by
  have h1 := h.dec_enc a r ha
  have h2 := h.dec_enc b s hb
  rw [e, h2] at h1
  simp only [Option.some.injEq, Prod.mk.injEq] at h1
  exact ⟨h1.1.symm, h1.2.symm⟩

theorem enc_injective {α : Type} {c : Codec α} (h : Lawful c) {a b : α} (ha : c.ok a) (hb : c.ok b)
    (e : c.enc a = c.enc b) : a = b :=
  (enc_prefix_free h ha hb (r := []) (s := []) (by simpa using e)).1

end Qos.Borsh
