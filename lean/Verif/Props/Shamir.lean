import Verif.Lemmas.Shamir
/-!
# C20, C21: Shamir sharing

Reconstruction from any threshold-many shares in any order, and perfect secrecy below the threshold. `vsss_rs` itself is
not in the repository: these theorems are about the scheme it documents (see `Model/Shamir.lean`).
-/
namespace Qos.Shamir

/-- The byte arithmetic of the shares is that of the field of AES, polynomials over GF(2) modulo x^8+x^4+x^3+x+1: addition is
exclusive or, the product is bilinear, commutative and associative with unit 1, and multiplying by x (the byte 2) shifts and
reduces. These equations determine every product. -/
theorem field_is_aes : (∀ a b c, mul (a ^^^ b) c = mul a c ^^^ mul b c) ∧ (∀ a b, mul a b = mul b a) ∧
    (∀ a b c, mul (mul a b) c = mul a (mul b c)) ∧ (∀ a, mul 1 a = a) ∧
    (∀ a : UInt8, a.toNat < 128 → (mul 2 a).toNat = 2 * a.toNat) ∧
    (∀ a : UInt8, 128 ≤ a.toNat → mul 2 a = UInt8.ofNat (2 * (a.toNat - 128)) ^^^ 0x1b) ∧
    ∀ a, a ≠ 0 → mul a (inv a) = 1 := by
  refine ⟨mul_add_left, mul_comm', mul_assoc', fun a => by rw [mul_comm', mul_one'], byte_forall (by decide +kernel),
    byte_forall (by decide +kernel), fun a h => ?_⟩
  have h' : @Ne GF a 0 := h
  exact @mul_inv_cancel₀ GF _ a h'

/-- Which sharings are possible. -/
theorem generate_iff (secret : Bytes) (count threshold : Nat) (coeffs : Nat → Nat → UInt8) :
    (∃ all, sharesGenerate secret count threshold coeffs = .ok all) ↔
      secret ≠ [] ∧ 2 ≤ threshold ∧ threshold ≤ count ∧ count ≤ 255 := by
  unfold sharesGenerate splitArray
  by_cases h1 : count > 255
  · simp [h1]
  rw [if_neg h1]
  by_cases h2 : secret = []
  · simp [h2]
  rw [if_neg (by simpa using h2)]
  by_cases h3 : threshold < 2
  · simp [h3]
  rw [if_neg h3]
  by_cases h4 : count < threshold
  · simp [h4]
  rw [if_neg h4]
  simp [h2]; omega

/-- The shares, one for each identifier 1, 2, …, count. -/
theorem generate_eq {secret : Bytes} {count threshold : Nat} {coeffs : Nat → Nat → UInt8} {all : List Bytes}
    (h : sharesGenerate secret count threshold coeffs = .ok all) :
    all = (List.range count).map fun i => UInt8.ofNat (i + 1) ::
      shareBytes (fun j => (List.range (threshold - 1)).map (coeffs j)) (UInt8.ofNat (i + 1)) 0 secret := by
  unfold sharesGenerate splitArray at h
  by_cases h1 : count > 255
  · simp [h1] at h
  rw [if_neg h1] at h
  by_cases h2 : secret = []
  · simp [h2] at h
  rw [if_neg (by simpa using h2)] at h
  by_cases h3 : threshold < 2
  · simp [h3] at h
  rw [if_neg h3] at h
  by_cases h4 : count < threshold
  · simp [h4] at h
  rw [if_neg h4] at h
  exact (Except.ok.inj h).symm

theorem ident_nonzero {i : Nat} (h : i < 255) : UInt8.ofNat (i + 1) ≠ 0 := by
  intro hc
  have := congrArg UInt8.toNat hc
  rw [UInt8.toNat_ofNat_of_lt' (by show i + 1 < 256; omega)] at this
  simp at this

theorem ident_inj {i j : Nat} (hi : i < 255) (hj : j < 255) (h : UInt8.ofNat (i + 1) = UInt8.ofNat (j + 1)) : i = j := by
  have := congrArg UInt8.toNat h
  rw [UInt8.toNat_ofNat_of_lt' (by show i + 1 < 256; omega), UInt8.toNat_ofNat_of_lt' (by show j + 1 < 256; omega)] at this
  omega

/-- C20: there are exactly `count` shares, all different even in the identifier (first byte, never zero), each one byte
longer than the secret. -/
theorem shares_shape {secret : Bytes} {count threshold : Nat} {coeffs : Nat → Nat → UInt8} {all : List Bytes}
    (h : sharesGenerate secret count threshold coeffs = .ok all) :
    all.length = count ∧ (all.map (·.headD 0)).Nodup ∧ ∀ s ∈ all, s.length = secret.length + 1 ∧ s.headD 0 ≠ 0 := by
  obtain ⟨-, -, -, hc⟩ := (generate_iff ..).1 ⟨all, h⟩
  rw [generate_eq h]
  refine ⟨by simp, ?_, ?_⟩
  · rw [List.map_map]
    refine List.Nodup.map_on ?_ List.nodup_range
    intro i hi j hj he
    rw [List.mem_range] at hi hj
    exact ident_inj (by omega) (by omega) he
  · intro s hs
    obtain ⟨i, hi, rfl⟩ := List.mem_map.1 hs
    rw [List.mem_range] at hi
    exact ⟨by simp [shareBytes_length], ident_nonzero (by omega)⟩

/-- C20: any list of at least `threshold` different shares, in any order and with any extra shares, reconstructs the
secret. -/
theorem threshold_shares_reconstruct {secret : Bytes} {count threshold : Nat} {coeffs : Nat → Nat → UInt8}
    {all : List Bytes} (h : sharesGenerate secret count threshold coeffs = .ok all) {l : List Bytes} (hn : l.Nodup)
    (hm : ∀ s ∈ l, s ∈ all) (hk : threshold ≤ l.length) : sharesReconstruct l = .ok secret := by
  obtain ⟨hs, h2, htc, hc⟩ := (generate_iff ..).1 ⟨all, h⟩
  have hall := generate_eq h
  obtain ⟨ha1, ha2, ha3⟩ := shares_shape h
  have hlen : ∀ s ∈ l, s.length = secret.length + 1 := fun s hs => (ha3 s (hm s hs)).1
  have hspos : 0 < secret.length := List.length_pos_iff.2 hs
  obtain ⟨s0, l', rfl⟩ : ∃ s0 l', l = s0 :: l' := by
    cases l with
    | nil => simp at hk; omega
    | cons a b => exact ⟨a, b, rfl⟩
  have h0 : s0.length = secret.length + 1 := hlen s0 List.mem_cons_self
  have hids : ((s0 :: l').map ident).Nodup := by
    refine List.Nodup.map_on ?_ hn
    intro a ha b hb he
    exact List.inj_on_of_nodup_map ha2 (hm a ha) (hm b hb) he
  unfold sharesReconstruct combineArray
  have g1 : ¬ (s0 :: l').length < 2 := by omega
  have g2 : ¬ ((s0 :: l').headD []).length < 2 := by rw [List.headD_cons]; omega
  have g3 : ¬ ((s0 :: l').any (fun s => s.length ≠ ((s0 :: l').headD []).length)) = true := by
    rw [List.headD_cons, Bool.not_eq_true, List.any_eq_false]
    intro s hs
    simp [hlen s hs, h0]
  have g4 : ¬ ((s0 :: l').any (fun s => ident s = 0)) = true := by
    rw [Bool.not_eq_true, List.any_eq_false]
    intro s hs
    have := (ha3 s (hm s hs)).2
    simpa [ident] using this
  rw [if_neg g1, if_neg g2, if_neg g3, if_neg g4, if_pos hids, List.headD_cons]
  congr 1
  refine List.ext_getElem (by simp [h0]) ?_
  intro j hj1 hj2
  rw [List.getElem_map, List.getElem_range]
  let cs : List UInt8 := secret.getD j 0 :: (List.range (threshold - 1)).map (coeffs j)
  have hmap : (s0 :: l').map (fun s => (ident s, s.getD (j + 1) 0)) =
      ((s0 :: l').map ident).map (fun x => (x, eval x cs)) := by
    rw [List.map_map]
    refine List.map_congr_left ?_
    intro s hs
    have := hm s hs
    rw [hall] at this
    obtain ⟨i, -, rfl⟩ := List.mem_map.1 this
    rw [List.getD_cons_succ, shareBytes_getD _ _ _ _ hj2, Nat.zero_add]
    rfl
  rw [hmap]
  rw [interpolate_eval _ hids _ _ (by
    rw [List.length_cons, List.length_map, List.length_range, List.length_map]; omega)]
  simp [List.getD, hj2]

/-- Non-vacuity: a 2-of-3 sharing, and two of its shares in another order. -/
example : ∃ all, sharesGenerate [7, 200] 3 2 (fun _ _ => 99) = .ok all ∧
    sharesReconstruct [all.getD 2 [], all.getD 0 []] = .ok [7, 200] := by
  obtain ⟨all, h⟩ := (generate_iff [7, 200] 3 2 (fun _ _ => 99)).2 (by decide)
  refine ⟨all, h, ?_⟩
  obtain ⟨h1, h2, h3⟩ := shares_shape h
  have hn : all.Nodup := List.Nodup.of_map _ h2
  match all, h1, hn with
  | [a, b, c], _, hn =>
    refine threshold_shares_reconstruct h ?_ ?_ (by simp)
    · simp at hn ⊢; exact fun hc => hn.1.2 hc.symm
    · simp

/-! ## C21 -/

/-- All random choices for a secret of `len` bytes: `threshold - 1` coefficients per byte. -/
abbrev Coeffs (len threshold : Nat) := Fin len → Fin (threshold - 1) → UInt8

/-- The choices as the parameter of `sharesGenerate`, which looks only at these entries. -/
def Coeffs.at {len threshold : Nat} (c : Coeffs len threshold) (j i : Nat) : UInt8 :=
  if h : j < len ∧ i < threshold - 1 then c ⟨j, h.1⟩ ⟨i, h.2⟩ else 0

/-- The identifier at a position, as a field element. -/
def identOf (i : Nat) : GF := UInt8.ofNat (i + 1)

theorem shareBytes_congr {coeffs coeffs' : Nat → List UInt8} {x : UInt8} {s s' : Bytes} (hl : s.length = s'.length)
    (h : ∀ j < s.length, eval x (s.getD j 0 :: coeffs j) = eval x (s'.getD j 0 :: coeffs' j)) :
    shareBytes coeffs x 0 s = shareBytes coeffs' x 0 s' := by
  refine List.ext_getElem (by rw [shareBytes_length, shareBytes_length, hl]) ?_
  intro j h1 h2
  rw [shareBytes_length] at h1 h2
  have e1 := shareBytes_getD coeffs x 0 s h1
  have e2 := shareBytes_getD coeffs' x 0 s' h2
  rw [Nat.zero_add] at e1 e2
  have := h j h1
  rw [← e1, ← e2] at this
  simpa [List.getD, shareBytes_length, h1, h2] using this

/-- C21, perfect secrecy: for two secrets of the same length and any fewer than `threshold` positions, there is a
one-to-one rearrangement of the random choices under which the shares at these positions are the same. So these shares
have the same distribution for both secrets. -/
theorem below_threshold_reveals_nothing {secret secret' : Bytes} {len : Nat} (hl : secret.length = len)
    (hl' : secret'.length = len) {count threshold : Nat} (I : Finset Nat) (hI : I.card < threshold)
    (hc : ∀ i ∈ I, i < count) :
    ∃ σ : Equiv.Perm (Coeffs len threshold), ∀ c all, sharesGenerate secret count threshold c.at = .ok all →
      ∃ all', sharesGenerate secret' count threshold (σ c).at = .ok all' ∧ ∀ i ∈ I, all[i]? = all'[i]? := by
  by_cases hpos : count ≤ 255
  case neg =>
    refine ⟨Equiv.refl _, fun c all h => ?_⟩
    exact absurd ((generate_iff ..).1 ⟨all, h⟩).2.2.2 hpos
  let ids : Finset GF := I.image identOf
  have hids : ∀ x ∈ ids, x ≠ 0 := by
    intro x hx
    obtain ⟨i, hi, rfl⟩ := Finset.mem_image.1 hx
    exact ident_nonzero (by have := hc i hi; omega)
  have hcard : ids.card < threshold := lt_of_le_of_lt Finset.card_image_le hI
  have hmask : ∀ j : Nat, ∃ d : Nat → UInt8, ∀ x ∈ ids,
      eval x ((secret.getD j 0 ^^^ secret'.getD j 0) :: (List.range (threshold - 1)).map d) = 0 :=
    fun j => mask_exists ids hids hcard (secret.getD j 0 ^^^ secret'.getD j 0)
  choose d hd using hmask
  let mask : Coeffs len threshold := fun j i => d j i
  let σ : Coeffs len threshold → Coeffs len threshold := fun c j i => c j i ^^^ mask j i
  have hσ : Function.Involutive σ := by
    intro c
    funext j i
    show (c j i ^^^ mask j i) ^^^ mask j i = c j i
    rw [UInt8.xor_assoc, UInt8.xor_self, UInt8.xor_zero]
  refine ⟨Function.Involutive.toPerm σ hσ, ?_⟩
  intro c all h
  obtain ⟨h1, h2, h3, h4⟩ := (generate_iff ..).1 ⟨all, h⟩
  show ∃ all', sharesGenerate secret' count threshold (σ c).at = .ok all' ∧ _
  obtain ⟨all', h'⟩ := (generate_iff secret' count threshold (σ c).at).2
    ⟨by rintro rfl; simp at hl'; rw [← hl'] at hl; exact h1 (List.length_eq_zero_iff.1 hl), h2, h3, h4⟩
  refine ⟨all', h', ?_⟩
  intro i hi
  have hin := hc i hi
  rw [generate_eq h, generate_eq h']
  simp only [List.getElem?_map, List.getElem?_range hin, Option.map_some]
  congr 2
  refine shareBytes_congr (hl.trans hl'.symm) ?_
  intro j hj
  have hx : identOf i ∈ ids := Finset.mem_image_of_mem _ hi
  have hmask : eval (UInt8.ofNat (i + 1)) _ = 0 := hd j _ hx
  have e : ∀ t, (List.range t).map (fun i => c.at j i ^^^ (if i < threshold - 1 then d j i else 0)) =
      (List.range t).map ((σ c).at j) := by
    intro t
    refine List.map_congr_left ?_
    intro k _
    unfold Coeffs.at
    by_cases hk : k < threshold - 1
    · rw [dif_pos ⟨by omega, hk⟩, dif_pos ⟨by omega, hk⟩, if_pos hk]
    · rw [dif_neg (fun h => hk h.2), dif_neg (fun h => hk h.2), if_neg hk]; rfl
  rw [← e]
  have e2 : (List.range (threshold - 1)).map (fun i => c.at j i ^^^ (if i < threshold - 1 then d j i else 0)) =
      (List.range (threshold - 1)).map (fun i => c.at j i ^^^ d j i) := by
    refine List.map_congr_left ?_
    intro k hk
    rw [if_pos (List.mem_range.1 hk)]
  rw [e2]
  have e3 : secret'.getD j 0 = secret.getD j 0 ^^^ (secret.getD j 0 ^^^ secret'.getD j 0) := by
    rw [← UInt8.xor_assoc, UInt8.xor_self, UInt8.zero_xor]
  rw [e3, eval_add, hmask, UInt8.xor_zero]

/-- C21: with exactly `threshold - 1` known shares, each candidate secret is explained by exactly one choice of
randomness. -/
theorem one_explanation_per_secret {secret secret' : Bytes} {len : Nat} (hl : secret.length = len)
    (hl' : secret'.length = len) {count threshold : Nat} (I : Finset Nat) (hI : I.card + 1 = threshold)
    (hc : ∀ i ∈ I, i < count) (c : Coeffs len threshold) (all : List Bytes)
    (h : sharesGenerate secret count threshold c.at = .ok all) :
    ∃! c' : Coeffs len threshold, ∃ all', sharesGenerate secret' count threshold c'.at = .ok all' ∧
      ∀ i ∈ I, all[i]? = all'[i]? := by
  obtain ⟨σ, hσ⟩ := below_threshold_reveals_nothing hl hl' (count := count) (threshold := threshold) I (by omega) hc
  refine ⟨σ c, hσ c all h, ?_⟩
  obtain ⟨a1, ha1, hv1⟩ := hσ c all h
  rintro c' ⟨a2, ha2, hv2⟩
  obtain ⟨-, -, -, h4⟩ := (generate_iff ..).1 ⟨all, h⟩
  funext j k
  have hv : ∀ i ∈ I, a2[i]? = a1[i]? := fun i hi => (hv2 i hi).symm.trans (hv1 i hi)
  rw [generate_eq ha1, generate_eq ha2] at hv
  have hj : j.val < secret'.length := by rw [hl']; exact j.isLt
  have hval : ∀ i ∈ I, eval (UInt8.ofNat (i + 1)) (secret'.getD j 0 :: (List.range (threshold - 1)).map (c'.at j)) =
      eval (UInt8.ofNat (i + 1)) (secret'.getD j 0 :: (List.range (threshold - 1)).map ((σ c).at j)) := by
    intro i hi
    have := hv i hi
    simp only [List.getElem?_map, List.getElem?_range (hc i hi), Option.map_some, Option.some.injEq, List.cons.injEq,
      true_and] at this
    have := congrArg (fun l => l.getD j.val 0) this
    rw [shareBytes_getD _ _ _ _ hj, shareBytes_getD _ _ _ _ hj, Nat.zero_add] at this
    exact this
  have := coeffs_unique (ids := I.image identOf) (m := threshold - 1)
    (by
      intro x hx
      obtain ⟨i, hi, rfl⟩ := Finset.mem_image.1 hx
      exact ident_nonzero (by have := hc i hi; omega))
    (by
      rw [Finset.card_image_of_injOn]
      · omega
      · intro a ha b hb he
        have h1 := hc a ha
        have h2 := hc b hb
        exact ident_inj (by omega) (by omega) he)
    (by
      intro x hx
      obtain ⟨i, hi, rfl⟩ := Finset.mem_image.1 hx
      exact hval i hi) k k.isLt
  unfold Coeffs.at at this
  rwa [dif_pos ⟨j.isLt, k.isLt⟩, dif_pos ⟨j.isLt, k.isLt⟩] at this

/-- Non-vacuity: one share of a 2-of-3 sharing, explained for another secret. -/
example : ∃ c : Coeffs 2 2, ∃ all all', sharesGenerate [7, 200] 3 2 (Coeffs.at (len := 2) (threshold := 2)
    fun _ _ => 99) = .ok all ∧ sharesGenerate [8, 9] 3 2 c.at = .ok all' ∧ all[1]? = all'[1]? := by
  obtain ⟨all, h⟩ := (generate_iff [7, 200] 3 2 (Coeffs.at (len := 2) (threshold := 2) fun _ _ => 99)).2 (by decide)
  obtain ⟨c, ⟨all', h', hv⟩, -⟩ := one_explanation_per_secret (secret := [7, 200]) (secret' := [8, 9])
    (len := 2) (count := 3) (threshold := 2) rfl rfl {1} rfl (by simp) _ all h
  exact ⟨c, all, all', h, h', hv 1 (by simp)⟩

end Qos.Shamir
