import Verif.Spec.Pool
import Verif.Lemmas.Text
import Mathlib.Data.List.Chain
/-!
# C37: socket pools
-/
namespace Qos.Pool
open NChooseK (Overflow)

variable {m : Overflow}

/-! ## Names -/

theorem splitAtLast_iff {path stem num : List Char} :
    splitAtLast path = some (stem, num) ↔ path = stem ++ '_' :: num ∧ '_' ∉ num := by
  unfold splitAtLast
  constructor
  · intro h
    have hsplit := List.takeWhile_append_dropWhile (p := fun c => decide (c ≠ '_')) (l := path.reverse)
    generalize hd : path.reverse.dropWhile (fun c => decide (c ≠ '_')) = d at *
    cases d with
    | nil => simp at h
    | cons c before =>
      simp only [Option.some.injEq, Prod.mk.injEq] at h
      obtain ⟨rfl, rfl⟩ := h
      have hc : c = '_' := by
        have := List.head?_dropWhile_not (fun c => decide (c ≠ '_')) path.reverse
        rw [hd] at this
        simpa using this
      subst hc
      refine ⟨?_, ?_⟩
      · have := congrArg List.reverse hsplit
        simpa using this.symm
      · intro hmem
        rw [List.mem_reverse] at hmem
        have := List.all_takeWhile (p := fun c => decide (c ≠ '_')) (l := path.reverse)
        rw [List.all_eq_true] at this
        have := this _ hmem
        simp at this
  · rintro ⟨rfl, hn⟩
    have h1 : ∀ c ∈ num.reverse, decide (c ≠ '_') = true := by
      intro c hc
      simp only [decide_eq_true_eq]
      rintro rfl
      exact hn (List.mem_reverse.1 hc)
    have e : (stem ++ '_' :: num).reverse = num.reverse ++ '_' :: stem.reverse := by simp
    rw [e, List.dropWhile_append_of_pos h1, List.takeWhile_append_of_pos h1]
    simp

theorem numbered_iff {path stem : List Char} {N : Nat} :
    Numbered path stem N ↔ ∃ num, splitAtLast path = some (stem, num) ∧ parseUnsigned (2 ^ 64) num = some N := by
  unfold Numbered
  simp only [splitAtLast_iff]
  constructor
  · rintro ⟨num, h1, h2, h3⟩; exact ⟨num, ⟨h1, h2⟩, h3⟩
  · rintro ⟨num, ⟨h1, h2⟩, h3⟩; exact ⟨num, h1, h2, h3⟩

theorem natText_no_underscore (n : Nat) : '_' ∉ natText n := by
  intro h
  have := natText_digits n _ h
  revert this
  decide

theorem numbered_natText (stem : List Char) {k : Nat} (h : k < 2 ^ 64) : Numbered (stem ++ '_' :: natText k) stem k :=
  ⟨natText k, rfl, natText_no_underscore k, parseUnsigned_natText h⟩

theorem incr_ok {bound n x : Nat} (h : incr m bound n = .ok x) (hn : n < bound) : x = (n + 1) % bound := by
  unfold incr at h
  by_cases hlt : n + 1 < bound
  · rw [if_pos hlt, Except.ok.injEq] at h
    rw [← h, Nat.mod_eq_of_lt hlt]
  · rw [if_neg hlt] at h
    cases m with
    | panics => cases h
    | wraps => exact (Except.ok.inj h).symm

theorem nextPath_numbered {path stem p : List Char} {N : Nat} (h : Numbered path stem N) (hp : nextPath m path = .ok p) :
    p = stem ++ '_' :: natText ((N + 1) % 2 ^ 64) := by
  obtain ⟨num, h1, h2⟩ := numbered_iff.1 h
  unfold nextPath at hp
  rw [h1] at hp
  simp only [h2] at hp
  cases hi : incr m (2 ^ 64) N with
  | error e => rw [hi] at hp; cases hp
  | ok x =>
    rw [hi] at hp
    simp only [Except.ok.injEq] at hp
    rw [← hp, incr_ok hi (parseUnsigned_lt h2)]

theorem nextPath_plain {path p : List Char} (h : ∀ stem N, ¬ Numbered path stem N) (hp : nextPath m path = .ok p) :
    p = path ++ '_' :: natText 0 := by
  unfold nextPath at hp
  rw [natText_zero]
  cases hs : splitAtLast path with
  | none => rw [hs] at hp; exact (Except.ok.inj hp).symm
  | some x =>
    obtain ⟨stem, num⟩ := x
    rw [hs] at hp
    simp only at hp
    cases hq : parseUnsigned (2 ^ 64) num with
    | none => rw [hq] at hp; exact (Except.ok.inj hp).symm
    | some N => exact absurd (numbered_iff.2 ⟨num, hs, hq⟩) (h stem N)

theorem next_unix {path : List Char} {a : Address} (h : (Address.unix path).next m = .ok a) :
    ∃ p, nextPath m path = .ok p ∧ a = .unix p := by
  unfold Address.next at h
  by_cases h0 : path = []
  · simp [h0] at h
  · simp only [h0, if_false] at h
    cases hp : nextPath m path with
    | error e => rw [hp] at h; cases h
    | ok p =>
      rw [hp] at h
      simp only [unixAddr] at h
      by_cases hl : (p.flatMap String.utf8EncodeChar).length < 108
      · rw [if_pos hl] at h
        exact ⟨p, rfl, (Except.ok.inj h).symm⟩
      · rw [if_neg hl] at h; cases h

/-- One step leads from one address to the next one. -/
theorem isNth_step {base a b : Address} {i : Nat} (hi : i < 255) (h : IsNth base i a) (hn : a.next m = .ok b) : IsNth base (i + 1) b := by
  have hport : ∀ cid port flags i, (Address.vsock cid (UInt32.ofNat (port.toNat + i)) flags).next m = .ok b →
      IsNth (.vsock cid port flags) (i + 1) b := by
    intro cid port flags i hn
    unfold Address.next at hn
    simp only at hn
    cases hi : incr m (2 ^ 32) (UInt32.ofNat (port.toNat + i)).toNat with
    | error e => rw [hi] at hn; cases hn
    | ok p =>
      rw [hi] at hn
      have hp := incr_ok hi (UInt32.toNat_lt _)
      simp only [Except.ok.injEq] at hn
      subst hn
      have : UInt32.ofNat p = UInt32.ofNat (port.toNat + (i + 1)) := by
        rw [hp]
        apply UInt32.toNat.inj
        simp only [UInt32.toNat_ofNat']
        omega
      rw [this]
      exact .port ..
  cases h with
  | zero =>
    cases base with
    | vsock cid port flags =>
      refine hport cid port flags 0 ?_
      rw [Nat.add_zero, UInt32.ofNat_toNat]
      exact hn
    | unix path =>
      obtain ⟨p, hp, rfl⟩ := next_unix hn
      by_cases hnum : ∃ stem N, Numbered path stem N
      · obtain ⟨stem, N, hnum⟩ := hnum
        rw [nextPath_numbered hnum hp]
        exact .numbered hnum 0
      · have hnum : ∀ stem N, ¬ Numbered path stem N := fun stem N h => hnum ⟨stem, N, h⟩
        rw [nextPath_plain hnum hp]
        exact .plain hnum 0
  | port cid port flags i => exact hport cid port flags i hn
  | @numbered path stem N hnum i =>
    obtain ⟨p, hp, rfl⟩ := next_unix hn
    rw [nextPath_numbered (numbered_natText stem (Nat.mod_lt _ (by decide))) hp]
    have : ((N + i + 1) % 2 ^ 64 + 1) % 2 ^ 64 = (N + (i + 1) + 1) % 2 ^ 64 := by omega
    rw [this]
    exact .numbered hnum (i + 1)
  | @plain path hnum i =>
    obtain ⟨p, hp, rfl⟩ := next_unix hn
    rw [nextPath_numbered (numbered_natText path (show i < 2 ^ 64 by omega)) hp, Nat.mod_eq_of_lt (by omega)]
    exact .plain hnum (i + 1)


theorem isNth_vsock {cid port : UInt32} {flags : UInt8} {i : Nat} {a : Address} (h : IsNth (.vsock cid port flags) i a) :
    a = .vsock cid (UInt32.ofNat (port.toNat + i)) flags := by
  generalize hb : Address.vsock cid port flags = b at h
  cases h with
  | zero => rw [← hb, Nat.add_zero, UInt32.ofNat_toNat]
  | port c p f i => cases hb; rfl
  | numbered _ _ => cases hb
  | plain _ _ => cases hb

theorem isNth_unix {path : List Char} {i : Nat} {a : Address} (h : IsNth (.unix path) i a) :
    (i = 0 ∧ a = .unix path) ∨ ∃ j, i = j + 1 ∧
      ((∃ stem N, Numbered path stem N ∧ a = .unix (stem ++ '_' :: natText ((N + j + 1) % 2 ^ 64))) ∨
        ((∀ stem N, ¬ Numbered path stem N) ∧ a = .unix (path ++ '_' :: natText j))) := by
  generalize hb : Address.unix path = b at h
  cases h with
  | zero => exact .inl ⟨rfl, rfl⟩
  | port c p f i => cases hb
  | numbered h i => cases hb; exact .inr ⟨i, rfl, .inl ⟨_, _, h, rfl⟩⟩
  | plain h i => cases hb; exact .inr ⟨i, rfl, .inr ⟨h, rfl⟩⟩

theorem numbered_unique {path stem stem' : List Char} {N N' : Nat} (h : Numbered path stem N) (h' : Numbered path stem' N') :
    stem = stem' ∧ N = N' := by
  obtain ⟨num, h1, h2⟩ := numbered_iff.1 h
  obtain ⟨num', h3, h4⟩ := numbered_iff.1 h'
  rw [h1] at h3
  simp only [Option.some.injEq, Prod.mk.injEq] at h3
  obtain ⟨rfl, rfl⟩ := h3
  rw [h2] at h4
  exact ⟨rfl, Option.some.inj h4⟩

/-- Different numbers below 256 are different addresses. -/
theorem isNth_inj {base a : Address} {i j : Nat} (hi : i < 256) (hj : j < 256) (h : IsNth base i a) (h' : IsNth base j a) :
    i = j := by
  have hnot : ∀ path stem N i, Numbered path stem N → i < 256 →
      path ≠ stem ++ '_' :: natText ((N + i + 1) % 2 ^ 64) := by
    intro path stem N i hn hi he
    have h3 := numbered_natText stem (k := (N + i + 1) % 2 ^ 64) (Nat.mod_lt _ (by decide))
    rw [← he] at h3
    have h4 := (numbered_unique hn h3).2
    obtain ⟨num, _, _, h2⟩ := hn
    have := parseUnsigned_lt h2
    omega
  cases base with
  | vsock cid port flags =>
    have h1 := isNth_vsock h
    rw [isNth_vsock h'] at h1
    simp only [Address.vsock.injEq, true_and, and_true] at h1
    have := congrArg UInt32.toNat h1
    simp only [UInt32.toNat_ofNat'] at this
    omega
  | unix path =>
    rcases isNth_unix h with ⟨rfl, rfl⟩ | ⟨i, rfl, ⟨stem, N, hn, rfl⟩ | ⟨hn, rfl⟩⟩
    · rcases isNth_unix h' with ⟨rfl, _⟩ | ⟨j, rfl, ⟨stem, N, hn, he⟩ | ⟨hn, he⟩⟩
      · rfl
      · exact absurd (Address.unix.inj he) (hnot _ _ _ _ hn (by omega))
      · have := congrArg List.length (Address.unix.inj he)
        simp at this
    · rcases isNth_unix h' with ⟨rfl, he⟩ | ⟨j, rfl, ⟨stem', N', hn', he⟩ | ⟨hn', he⟩⟩
      · exact absurd (Address.unix.inj he).symm (hnot _ _ _ _ hn (by omega))
      · obtain ⟨rfl, rfl⟩ := numbered_unique hn hn'
        have := Address.unix.inj he
        rw [List.append_cancel_left_eq, List.cons.injEq] at this
        have := natText_injective this.2
        omega
      · exact absurd hn (hn' _ _)
    · rcases isNth_unix h' with ⟨rfl, he⟩ | ⟨j, rfl, ⟨stem', N', hn', he⟩ | ⟨hn', he⟩⟩
      · have := congrArg List.length (Address.unix.inj he)
        simp at this
      · exact absurd hn' (hn _ _)
      · have := Address.unix.inj he
        rw [List.append_cancel_left_eq, List.cons.injEq] at this
        have := natText_injective this.2
        omega

/-! ## Pools -/

/-- The addresses are number 0, 1, 2, … from `base`, at most 255 of them. -/
structure Counted (base : Address) (l : List Address) : Prop where
  nonempty : l ≠ []
  limit : l.length ≤ 255
  nth : ∀ i a, l[i]? = some a → IsNth base i a

theorem Counted.snoc {base last a : Address} {l : List Address} (h : Counted base l) (hl : l.getLast? = some last)
    (hn : last.next m = .ok a) (hlim : l.length < 255) : Counted base (l ++ [a]) where
  nonempty := by simp
  limit := by simp; omega
  nth i x hx := by
    by_cases hi : i < l.length
    · rw [List.getElem?_append_left hi] at hx
      exact h.nth i x hx
    · rw [List.getElem?_append_right (by omega)] at hx
      have h0 : i - l.length = 0 := by
        by_contra hc
        rw [List.getElem?_eq_none (by simp; omega)] at hx
        cases hx
      rw [h0] at hx
      simp only [List.getElem?_cons_zero, Option.some.injEq] at hx
      subst hx
      have hpos : 0 < l.length := List.length_pos_iff.2 h.nonempty
      rw [List.getLast?_eq_getElem?] at hl
      have := isNth_step (by omega) (h.nth _ _ hl) hn
      rwa [show l.length - 1 + 1 = i by omega] at this

theorem addressesFrom_counted (base : Address) {addr : Address} {count : Nat} {l : List Address}
    (h : addressesFrom m addr count = .ok l) {k : Nat} (hk : IsNth base k addr) (hlim : k + count < 255) :
    l.length = count + 1 ∧ ∀ i a, l[i]? = some a → IsNth base (k + i) a := by
  induction count generalizing addr l k with
  | zero =>
    unfold addressesFrom at h
    cases h
    refine ⟨rfl, fun i a hi => ?_⟩
    cases i with
    | zero => cases hi; exact hk
    | succ i => simp at hi
  | succ n ih =>
    unfold addressesFrom at h
    cases hn : addr.next m with
    | error e => rw [hn] at h; cases h
    | ok b =>
      rw [hn] at h
      simp only at h
      cases hr : addressesFrom m b n with
      | error e => rw [hr] at h; cases h
      | ok t =>
        rw [hr] at h
        cases h
        obtain ⟨h1, h2⟩ := ih hr (isNth_step (by omega) hk hn) (by omega)
        refine ⟨by simp [h1], fun i a hi => ?_⟩
        cases i with
        | zero => cases hi; exact hk
        | succ i =>
          have := h2 i a (by simpa using hi)
          rwa [show k + 1 + i = k + (i + 1) by omega] at this

/-- Growing: the old addresses stay in front, the new ones continue the count. -/
theorem grow_spec {base last : Address} (todo : Nat) {p : Pool} (h : Counted base p.addresses)
    (hl : p.addresses.getLast? = some last) (hlim : p.addresses.length + todo ≤ 255) :
    ∃ added, (p.grow m last todo).2 = ⟨p.addresses ++ added, p.handles ++ added⟩ ∧ Counted base (p.addresses ++ added) ∧
      added.length ≤ todo ∧ ((p.grow m last todo).1 = .ok () → added.length = todo) := by
  induction todo generalizing p last with
  | zero => exact ⟨[], by simp [Pool.grow], by simpa using h, by simp, by simp⟩
  | succ n ih =>
    unfold Pool.grow
    cases hn : last.next m with
    | error e => exact ⟨[], by simp, by simpa using h, by simp, by simp⟩
    | ok a =>
      obtain ⟨added, h1, h2, h3, h4⟩ := ih (p := ⟨p.addresses ++ [a], p.handles ++ [a]⟩) (last := a)
        (h.snoc hl hn (by omega)) (by simp) (by simp; omega)
      refine ⟨a :: added, by simpa using h1, by simpa using h2, by simp; omega, fun hok => ?_⟩
      have := h4 hok
      simp [this]

theorem growListening_spec {base last : Address} (bindOk : Address → Bool) (todo : Nat) {p : Pool}
    (h : Counted base p.addresses) (hl : p.addresses.getLast? = some last) (hlim : p.addresses.length + todo ≤ 255)
    (bound : List Address) :
    ∃ added, (p.growListening m bindOk last bound todo).2 = ⟨p.addresses ++ added, p.handles⟩ ∧
      Counted base (p.addresses ++ added) ∧ added.length ≤ todo ∧
      (∀ l, (p.growListening m bindOk last bound todo).1 = .ok l →
        added.length = todo ∧ l = bound ++ added ∧ ∀ a ∈ added, bindOk a) := by
  induction todo generalizing p last bound with
  | zero => exact ⟨[], by simp [Pool.growListening], by simpa using h, by simp, by
      intro l hl; simp [Pool.growListening] at hl; simp [hl]⟩
  | succ n ih =>
    unfold Pool.growListening
    cases hn : last.next m with
    | error e => exact ⟨[], by simp, by simpa using h, by simp, by simp⟩
    | ok a =>
      simp only
      have hc := h.snoc hl hn (by omega)
      by_cases hb : bindOk a
      · rw [if_pos hb]
        obtain ⟨added, h1, h2, h3, h4⟩ := ih (p := ⟨p.addresses ++ [a], p.handles⟩) (last := a) hc (by simp)
          (by simp; omega) (bound ++ [a])
        refine ⟨a :: added, by simpa using h1, by simpa using h2, by simp; omega, fun l hok => ?_⟩
        obtain ⟨g1, g2, g3⟩ := h4 l hok
        exact ⟨by simp [g1], by simpa using g2, by simpa [hb] using g3⟩
      · rw [if_neg hb]
        exact ⟨[a], by simp, hc, by simp, by simp⟩

theorem expandTo_spec {base : Address} {p : Pool} (h : Counted base p.addresses) (size : UInt8) :
    ∃ added, (p.expandTo m size).2 = ⟨p.addresses ++ added, p.handles ++ added⟩ ∧ Counted base (p.addresses ++ added) ∧
      (p.addresses ++ added).length ≤ max p.addresses.length size.toNat ∧
      ((p.expandTo m size).1 = .ok () → (p.addresses ++ added).length = max p.addresses.length size.toNat) := by
  obtain ⟨last, hl⟩ : ∃ last, p.addresses.getLast? = some last := by
    cases hg : p.addresses.getLast? with
    | none => exact absurd (List.getLast?_eq_none_iff.1 hg) h.nonempty
    | some x => exact ⟨x, rfl⟩
  unfold Pool.expandTo
  rw [hl]
  have hs := size.toNat_lt
  have hlim := h.limit
  obtain ⟨added, h1, h2, h3, h4⟩ := grow_spec (m := m) (size.toNat - p.addresses.length) h hl (by omega)
  refine ⟨added, h1, h2, by rw [List.length_append]; omega, fun hok => ?_⟩
  have := h4 hok
  simp
  omega

theorem listenTo_spec {base : Address} {p : Pool} (h : Counted base p.addresses) (bindOk : Address → Bool) (size : UInt8) :
    ∃ added, (p.listenTo m bindOk size).2 = ⟨p.addresses ++ added, p.handles⟩ ∧ Counted base (p.addresses ++ added) ∧
      (p.addresses ++ added).length ≤ max p.addresses.length size.toNat ∧
      (∀ l, (p.listenTo m bindOk size).1 = .ok l → (p.addresses ++ added).length = max p.addresses.length size.toNat ∧
        l = added ∧ ∀ a ∈ added, bindOk a) := by
  obtain ⟨last, hl⟩ : ∃ last, p.addresses.getLast? = some last := by
    cases hg : p.addresses.getLast? with
    | none => exact absurd (List.getLast?_eq_none_iff.1 hg) h.nonempty
    | some x => exact ⟨x, rfl⟩
  unfold Pool.listenTo
  rw [hl]
  have hs := size.toNat_lt
  have hlim := h.limit
  obtain ⟨added, h1, h2, h3, h4⟩ := growListening_spec (m := m) bindOk (size.toNat - p.addresses.length) h hl (by omega) []
  refine ⟨added, h1, h2, by rw [List.length_append]; omega, fun l hok => ?_⟩
  obtain ⟨g1, g2, g3⟩ := h4 l hok
  refine ⟨by simp; omega, by simpa using g2, g3⟩

theorem new_spec {base : Address} {count : UInt8} {p : Pool} (h : Pool.new m base count = .ok p) :
    p.handles = p.addresses ∧ p.addresses.length = count.toNat ∧ Counted base p.addresses := by
  unfold Pool.new at h
  have hs := count.toNat_lt
  cases hc : count.toNat with
  | zero => rw [hc] at h; cases h
  | succ n =>
    rw [hc] at h
    simp only at h
    cases hr : addressesFrom m base n with
    | error e => rw [hr] at h; cases h
    | ok l =>
      rw [hr] at h
      cases h
      obtain ⟨h1, h2⟩ := addressesFrom_counted base hr (.zero base) (by omega)
      refine ⟨rfl, h1, ?_, by show l.length ≤ 255; omega, fun i a hi => ?_⟩
      · intro h0
        simp only at h0
        rw [h0] at h1
        simp at h1
      · have := h2 i a hi
        rwa [Nat.zero_add] at this

theorem made_counted {base : Address} {p : Pool} (h : Made m base p) :
    Counted base p.addresses ∧ p.handles.Sublist p.addresses := by
  induction h with
  | new h =>
    obtain ⟨h1, _, h3⟩ := new_spec h
    exact ⟨h3, by rw [h1]⟩
  | expand size h ih =>
    obtain ⟨added, h1, h2, _⟩ := expandTo_spec (m := m) ih.1 size
    rw [h1]
    exact ⟨h2, ih.2.append (List.Sublist.refl _)⟩
  | listen bindOk size h ih =>
    obtain ⟨added, h1, h2, _⟩ := listenTo_spec (m := m) ih.1 bindOk size
    rw [h1]
    exact ⟨h2, ih.2.trans (List.sublist_append_left _ _)⟩

/-! ## Property theorems -/

/-- C37: a new pool has as many addresses as asked for; every pool has pairwise distinct addresses, the `i`-th one
depends on the base address and `i` only, and no two client streams use the same address. -/
theorem pool_addresses {base : Address} :
    (∀ (count : UInt8) (p : Pool), Pool.new m base count = .ok p →
      p.addresses.length = count.toNat ∧ p.handles = p.addresses) ∧
    ∀ p, Made m base p → p.addresses.Nodup ∧ p.handles.Nodup ∧ (∀ a ∈ p.handles, a ∈ p.addresses) ∧
      ∀ (i : Nat) (a : Address), p.addresses[i]? = some a → IsNth base i a := by
  refine ⟨fun count p h => ⟨(new_spec h).2.1, (new_spec h).1⟩, fun p h => ?_⟩
  obtain ⟨hc, hs⟩ := made_counted h
  have hnd : p.addresses.Nodup := by
    rw [List.Nodup, List.pairwise_iff_getElem]
    intro i j hi hj hij he
    have hlim := hc.limit
    have h1 := hc.nth i _ (List.getElem?_eq_getElem hi)
    have h2 := hc.nth j _ (List.getElem?_eq_getElem hj)
    rw [← he] at h2
    have := isNth_inj (by omega) (by omega) h1 h2
    omega
  exact ⟨hnd, hnd.sublist hs, fun a ha => hs.subset ha, hc.nth⟩

/-- C37: the `i`-th address is unique. -/
theorem nth_unique {base a b : Address} {i : Nat} (h : IsNth base i a) (h' : IsNth base i b) : a = b := by
  cases base with
  | vsock cid port flags => rw [isNth_vsock h, isNth_vsock h']
  | unix path =>
    rcases isNth_unix h with ⟨rfl, rfl⟩ | ⟨i, rfl, ⟨stem, N, hn, rfl⟩ | ⟨hn, rfl⟩⟩
    · rcases isNth_unix h' with ⟨_, rfl⟩ | ⟨j, hj, _⟩
      · rfl
      · omega
    · rcases isNth_unix h' with ⟨hj, _⟩ | ⟨j, hj, ⟨stem', N', hn', rfl⟩ | ⟨hn', _⟩⟩
      · omega
      · obtain ⟨rfl, rfl⟩ := numbered_unique hn hn'
        obtain rfl : i = j := by omega
        rfl
      · exact absurd hn (hn' _ _)
    · rcases isNth_unix h' with ⟨hj, _⟩ | ⟨j, hj, ⟨stem', N', hn', _⟩ | ⟨_, rfl⟩⟩
      · omega
      · exact absurd hn' (hn _ _)
      · obtain rfl : i = j := by omega
        rfl

/-- C37: expanding keeps the existing addresses and streams in front, whether it succeeds or not; it never makes the
pool larger than asked for, and changes nothing when the pool is large enough. -/
theorem expand_keeps {base : Address} {p : Pool} (h : Made m base p) (size : UInt8) :
    p.addresses <+: (p.expandTo m size).2.addresses ∧ p.handles <+: (p.expandTo m size).2.handles ∧
    (p.expandTo m size).2.addresses.length ≤ max p.addresses.length size.toNat ∧
    ((p.expandTo m size).1 = .ok () →
      (p.expandTo m size).2.addresses.length = max p.addresses.length size.toNat) ∧
    (size.toNat ≤ p.addresses.length → (p.expandTo m size) = (.ok (), p)) := by
  obtain ⟨added, h1, h2, h3, h4⟩ := expandTo_spec (m := m) (made_counted h).1 size
  rw [h1]
  refine ⟨List.prefix_append _ _, List.prefix_append _ _, h3, h4, fun hs => ?_⟩
  unfold Pool.expandTo
  rw [Nat.sub_eq_zero_of_le hs]
  cases p.addresses.getLast? <;> rfl

/-- C37: the same for listening; on success exactly the new addresses are bound. -/
theorem listen_keeps {base : Address} {p : Pool} (h : Made m base p) (bindOk : Address → Bool) (size : UInt8) :
    p.addresses <+: (p.listenTo m bindOk size).2.addresses ∧ (p.listenTo m bindOk size).2.handles = p.handles ∧
    (p.listenTo m bindOk size).2.addresses.length ≤ max p.addresses.length size.toNat ∧
    (∀ l, (p.listenTo m bindOk size).1 = .ok l →
      (p.listenTo m bindOk size).2.addresses = p.addresses ++ l ∧
      (p.addresses ++ l).length = max p.addresses.length size.toNat ∧ ∀ a ∈ l, bindOk a) := by
  obtain ⟨added, h1, h2, h3, h4⟩ := listenTo_spec (m := m) (made_counted h).1 bindOk size
  rw [h1]
  refine ⟨List.prefix_append _ _, rfl, h3, fun l hl => ?_⟩
  obtain ⟨g1, rfl, g3⟩ := h4 l hl
  exact ⟨rfl, g1, g3⟩

example : Pool.new .panics (.unix "/tmp/a.sock".toList) 3 = .ok
    ⟨[.unix "/tmp/a.sock".toList, .unix "/tmp/a.sock_0".toList, .unix "/tmp/a.sock_1".toList],
     [.unix "/tmp/a.sock".toList, .unix "/tmp/a.sock_0".toList, .unix "/tmp/a.sock_1".toList]⟩ := by decide +kernel

example : (Pool.new .panics (.unix "/tmp/a_b_09".toList) 2).toOption.map (·.addresses) =
    some [.unix "/tmp/a_b_09".toList, .unix "/tmp/a_b_10".toList] := by decide +kernel

example : (Pool.new .wraps (.vsock 3 4294967295 1) 2).toOption.map (·.addresses) =
    some [.vsock 3 4294967295 1, .vsock 3 0 1] := by decide +kernel

end Qos.Pool
