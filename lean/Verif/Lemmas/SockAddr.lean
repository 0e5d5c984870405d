import Verif.Spec.SockAddr
import Verif.Lemmas.Ip
import Mathlib.Data.List.TakeWhile
/-! # Reading socket addresses -/
namespace Qos.SockAddr
open Qos (IpAddr)
open HostCli (isDigit expect readIpv4 readOctet readDotted Digits Ipv4)
open Ip (readIpv6 readHex readGroups readEmbedded separated readTail ofGroups isHex expect_some)

/-- What may follow an IPv6 address in brackets. -/
def Close (r : List Char) : Prop := ∃ c q, r = c :: q ∧ (c = ']' ∨ c = '%')

theorem takeWhile_close {f : Char → Bool} {r : List Char} (hr : ∀ c ∈ r.head?, f c = false) (cs : List Char) :
    (cs ++ r).takeWhile f = cs.takeWhile f ∧ (cs ++ r).dropWhile f = cs.dropWhile f ++ r := by
  induction cs with
  | nil =>
    cases r with
    | nil => exact ⟨rfl, rfl⟩
    | cons c q => simp [List.takeWhile, List.dropWhile, hr c rfl]
  | cons c cs ih =>
    cases hc : f c <;> simp [List.takeWhile, List.dropWhile, hc, ih]

theorem close_digit {r : List Char} (h : Close r) : ∀ c ∈ r.head?, isDigit c = false := by
  obtain ⟨c, q, rfl, hc⟩ := h
  intro d hd
  cases hd
  rcases hc with rfl | rfl <;> decide

theorem close_hex {r : List Char} (h : Close r) : ∀ c ∈ r.head?, isHex c = false := by
  obtain ⟨c, q, rfl, hc⟩ := h
  intro d hd
  cases hd
  rcases hc with rfl | rfl <;> decide

/-- With `r` after what is left. -/
def after {α : Type} (r : List Char) (x : α × List Char) : α × List Char := (x.1, x.2 ++ r)

theorem expect_close {c : Char} {r : List Char} (h : Close r) (h1 : c ≠ ']') (h2 : c ≠ '%') (cs : List Char) :
    expect c (cs ++ r) = (expect c cs).map (· ++ r) := by
  cases cs with
  | nil =>
    obtain ⟨d, q, rfl, hd⟩ := h
    have : ¬ d = c := by rcases hd with rfl | rfl <;> [exact fun e => h1 e.symm; exact fun e => h2 e.symm]
    simp [expect, this]
  | cons x cs =>
    simp only [List.cons_append, expect]
    split <;> rfl

theorem readOctet_close {r : List Char} (h : Close r) (cs : List Char) :
    readOctet (cs ++ r) = (readOctet cs).map (after r) := by
  unfold readOctet
  obtain ⟨e1, e2⟩ := takeWhile_close (close_digit h) cs
  rw [e1, e2]
  simp only
  split
  · rfl
  · split
    · rfl
    · split <;> rfl

theorem readHex_close {r : List Char} (h : Close r) (cs : List Char) :
    readHex (cs ++ r) = (readHex cs).map (after r) := by
  unfold readHex
  obtain ⟨e1, e2⟩ := takeWhile_close (close_hex h) cs
  rw [e1, e2]
  simp only
  split <;> rfl

theorem readDotted_close {r : List Char} (h : Close r) (cs : List Char) :
    readDotted (cs ++ r) = (readDotted cs).map (after r) := by
  unfold readDotted
  rw [expect_close h (by decide) (by decide)]
  cases expect '.' cs with
  | none => rfl
  | some x => exact readOctet_close h x

theorem readIpv4_close {r : List Char} (h : Close r) (cs : List Char) :
    readIpv4 (cs ++ r) = (readIpv4 cs).map (after r) := by
  unfold readIpv4
  rw [readOctet_close h]
  cases readOctet cs with
  | none => rfl
  | some x =>
    simp only [Option.map_some, Option.bind_some, after]
    rw [readDotted_close h]
    cases readDotted x.2 with
    | none => rfl
    | some y =>
      simp only [Option.map_some, Option.bind_some, after]
      rw [readDotted_close h]
      cases readDotted y.2 with
      | none => rfl
      | some z =>
        simp only [Option.map_some, Option.bind_some, after]
        rw [readDotted_close h]
        cases readDotted z.2 <;> rfl

theorem separated_close {α : Type} {read : List Char → Option (α × List Char)} {r : List Char} (h : Close r)
    (hr : ∀ cs, read (cs ++ r) = (read cs).map (after r)) (first : Bool) (cs : List Char) :
    separated first read (cs ++ r) = (separated first read cs).map (after r) := by
  unfold separated
  cases first with
  | true => exact hr cs
  | false =>
    simp only [Bool.false_eq_true, if_false]
    rw [expect_close h (by decide) (by decide)]
    cases expect ':' cs with
    | none => rfl
    | some x => exact hr x

theorem readEmbedded_close {r : List Char} (h : Close r) (n : Nat) (first : Bool) (cs : List Char) :
    readEmbedded n first (cs ++ r) = (readEmbedded n first cs).map (after r) := by
  unfold readEmbedded
  split
  · exact separated_close h (readIpv4_close h) first cs
  · rfl

theorem readGroups_close {r : List Char} (h : Close r) : ∀ (n : Nat) (first : Bool) (cs : List Char),
    readGroups n first (cs ++ r) =
      ((readGroups n first cs).1, (readGroups n first cs).2.1, (readGroups n first cs).2.2 ++ r) := by
  intro n
  induction n with
  | zero => intro first cs; rfl
  | succ n ih =>
    intro first cs
    unfold readGroups
    rw [readEmbedded_close h]
    cases readEmbedded (n + 1) first cs with
    | some x => rfl
    | none =>
      simp only [Option.map_none]
      rw [separated_close h (readHex_close h)]
      cases separated first readHex cs with
      | none => rfl
      | some x =>
        simp only [Option.map_some, after]
        rw [ih]

theorem readTail_close {r : List Char} (h : Close r) (hd : List UInt16) (cs : List Char) :
    readTail hd (cs ++ r) = (readTail hd cs).map (after r) := by
  unfold readTail
  rw [expect_close h (by decide) (by decide)]
  cases expect ':' cs with
  | none => rfl
  | some x =>
    simp only [Option.map_some, Option.bind_some]
    rw [expect_close h (by decide) (by decide)]
    cases expect ':' x with
    | none => rfl
    | some y =>
      simp only [Option.map_some, Option.bind_some]
      rw [readGroups_close h]
      simp only
      cases ofGroups (hd ++ List.replicate (8 - hd.length - (readGroups (7 - hd.length) true y).1.length) 0 ++
        (readGroups (7 - hd.length) true y).1) <;> rfl

theorem readIpv6_close {r : List Char} (h : Close r) (cs : List Char) :
    readIpv6 (cs ++ r) = (readIpv6 cs).map (after r) := by
  unfold readIpv6
  rw [readGroups_close h]
  simp only
  split
  · cases ofGroups (readGroups 8 true cs).1 <;> rfl
  · split
    · rfl
    · exact readTail_close h _ _

/-- What is left is the end of the text. -/
theorem readIpv6_suffix {cs r : List Char} {a : Ipv6} (h : readIpv6 cs = some (a, r)) : ∃ t, cs = t ++ r := by
  obtain ⟨t, h1, -⟩ := Ip.read_maybe 8 cs
  unfold readIpv6 at h
  simp only at h
  split at h
  · simp only [Option.map_eq_some_iff, Prod.mk.injEq] at h
    obtain ⟨x, -, -, hn⟩ := h
    exact ⟨t, by rw [← hn]; exact h1⟩
  · split at h
    · cases h
    · unfold readTail at h
      simp only [Option.bind_eq_some_iff, expect_some, Option.map_eq_some_iff, Prod.mk.injEq] at h
      obtain ⟨q, hq, q2, hq2, x, -, -, hn⟩ := h
      obtain ⟨t', g1, -⟩ := Ip.read_maybe (7 - (readGroups 8 true cs).1.length) q2
      refine ⟨t ++ ':' :: ':' :: t', ?_⟩
      rw [hn] at g1
      rw [hq, hq2, g1] at h1
      rw [h1]
      simp

/-- An IPv6 address, then a bracket or a scope. -/
theorem readIpv6_then {cs r : List Char} {a : Ipv6} (hr : Close r) :
    readIpv6 cs = some (a, r) ↔ ∃ t, cs = t ++ r ∧ Ip.Denotes t (.v6 a) := by
  have key : ∀ t, readIpv6 t = some (a, []) ↔ Ip.Denotes t (.v6 a) := by
    intro t
    rw [Ip.readIpv6_iff]
    constructor
    · rintro (⟨b, h⟩ | ⟨b, h, t, hs, ts, k, h1, h2, h3, g, rfl⟩)
      · exact .full a h
      · exact .short a h1 h2 h3 g
    · intro h
      cases h with
      | full _ hp => exact .inl ⟨_, hp⟩
      | @short b h t hs ts k x h1 h2 h3 g => exact .inr ⟨b, h, t, hs, ts, k, h1, h2, h3, g, rfl⟩
  constructor
  · intro h
    obtain ⟨t, rfl⟩ := readIpv6_suffix h
    refine ⟨t, rfl, (key t).mp ?_⟩
    rw [readIpv6_close hr, Option.map_eq_some_iff] at h
    obtain ⟨⟨b, q⟩, h1, h2⟩ := h
    simp only [after, Prod.mk.injEq, List.append_left_eq_self] at h2
    obtain ⟨rfl, rfl⟩ := h2
    exact h1
  · rintro ⟨t, rfl, h⟩
    rw [readIpv6_close hr, (key t).mpr h]
    rfl

theorem digits_all {cs : List Char} {n : Nat} (h : Digits cs n) : ∀ c ∈ cs, isDigit c = true := by
  have : ∀ d, d < 10 → isDigit (Char.ofNat (48 + d)) = true := by decide
  induction h with
  | one d hd => simpa using this d hd
  | snoc cs n d _ hd ih =>
    intro c hc
    rcases List.mem_append.mp hc with hc | hc
    · exact ih c hc
    · rw [List.mem_singleton] at hc
      rw [hc]
      exact this d hd

/-- A number, then something that is not a digit. -/
theorem readDecimal_iff {bound : Nat} {cs r : List Char} {n : Nat} :
    readDecimal bound cs = some (n, r) ↔ ∃ d, cs = d ++ r ∧ Digits d n ∧ n < bound ∧ ∀ c ∈ r.head?, isDigit c = false := by
  unfold readDecimal
  simp only
  constructor
  · intro h
    by_cases h0 : cs.takeWhile isDigit = []
    · rw [if_pos h0] at h; cases h
    · rw [if_neg h0] at h
      cases hn : digitsNat 0 (cs.takeWhile isDigit) with
      | none => rw [hn] at h; cases h
      | some m =>
        rw [hn] at h
        simp only at h
        by_cases hb : m < bound
        · rw [if_pos hb] at h
          cases h
          refine ⟨cs.takeWhile isDigit, List.takeWhile_append_dropWhile.symm, HostCli.digits_iff.mpr ⟨h0, hn⟩, hb, ?_⟩
          intro c hc
          have := List.head?_dropWhile_not isDigit cs
          simp only [Option.mem_def] at hc
          rw [hc] at this
          simpa using this
        · rw [if_neg hb] at h; cases h
  · rintro ⟨d, rfl, hd, hb, hr⟩
    obtain ⟨h0, hn⟩ := HostCli.digits_iff.mp hd
    obtain ⟨e1, e2⟩ := takeWhile_close hr d
    have t1 : d.takeWhile isDigit = d := List.takeWhile_eq_self_iff.mpr (digits_all hd)
    have t2 : d.dropWhile isDigit = [] := List.dropWhile_eq_nil_iff.mpr (digits_all hd)
    rw [e1, e2, t1, t2, if_neg h0, hn]
    simp only
    rw [if_pos hb]
    rfl

theorem readPort_iff {cs : List Char} {p : UInt16} :
    readPort cs = some (p, []) ↔ ∃ d, cs = ':' :: d ∧ Digits d p.toNat := by
  unfold readPort
  simp only [Option.bind_eq_some_iff, expect_some, Option.map_eq_some_iff, Prod.exists, Prod.mk.injEq, readDecimal_iff]
  constructor
  · rintro ⟨r, rfl, n, q, ⟨d, rfl, hd, hb, -⟩, rfl, rfl⟩
    refine ⟨d, by simp, ?_⟩
    rw [show (UInt16.ofNat n).toNat = n from UInt16.toNat_ofNat_of_lt' hb]
    exact hd
  · rintro ⟨d, rfl, hd⟩
    exact ⟨d, rfl, p.toNat, [], ⟨d, by simp, hd, p.toNat_lt, by simp⟩, by simp, rfl⟩

theorem readScope_iff {cs r : List Char} {s : UInt32} : readScope cs = some (s, r) ↔
    ∃ d, cs = '%' :: d ++ r ∧ Digits d s.toNat ∧ ∀ c ∈ r.head?, isDigit c = false := by
  unfold readScope
  simp only [Option.bind_eq_some_iff, expect_some, Option.map_eq_some_iff, Prod.exists, Prod.mk.injEq, readDecimal_iff]
  constructor
  · rintro ⟨r, rfl, n, q, ⟨d, rfl, hd, hb, hr⟩, rfl, rfl⟩
    refine ⟨d, by simp, ?_, hr⟩
    rw [show (UInt32.ofNat n).toNat = n from UInt32.toNat_ofNat_of_lt' hb]
    exact hd
  · rintro ⟨d, rfl, hd, hr⟩
    exact ⟨d ++ r, rfl, s.toNat, r, ⟨d, rfl, hd, s.toNat_lt, hr⟩, by simp, rfl⟩

theorem readV4_iff {cs : List Char} {a : Addr} : readV4 cs = some (a, []) ↔
    ∃ i d, cs = i.chars ++ ':' :: d ∧ a.ip = .v4 i ∧ a.scope = 0 ∧ Digits d a.port.toNat := by
  unfold readV4
  simp only [Option.bind_eq_some_iff, Option.map_eq_some_iff, Prod.exists, Prod.mk.injEq]
  constructor
  · rintro ⟨i, r, h1, p, q, h2, rfl, rfl⟩
    obtain ⟨d, rfl, hd⟩ := readPort_iff.mp h2
    exact ⟨i, d, HostCli.readIpv4_some h1, rfl, rfl, hd⟩
  · rintro ⟨i, d, rfl, h1, h2, hd⟩
    refine ⟨i, ':' :: d, HostCli.readIpv4_chars i _ (by intro c hc; cases hc; decide), a.port, [],
      readPort_iff.mpr ⟨d, rfl, hd⟩, ?_, rfl⟩
    cases a
    simp only at h1 h2
    rw [h1, h2]

/-- What follows the address is what the scope, if there is one, and the closing bracket say. -/
theorem scope_cases {q r : List Char} {s : UInt32} (h : expect ']' ((readScope q).getD (0, q)).2 = some r)
    (hs : ((readScope q).getD (0, q)).1 = s) :
    (q = ']' :: r ∧ s = 0) ∨ ∃ d, q = '%' :: d ++ ']' :: r ∧ Digits d s.toNat := by
  cases hq : readScope q with
  | none =>
    rw [hq] at h hs
    exact .inl ⟨expect_some.mp h, hs.symm⟩
  | some x =>
    obtain ⟨n, t⟩ := x
    rw [hq] at h hs
    simp only [Option.getD_some] at h hs
    subst hs
    obtain ⟨d, h1, h2, -⟩ := readScope_iff.mp hq
    rw [expect_some] at h
    exact .inr ⟨d, by rw [h1, h], h2⟩

theorem readV6_iff {cs : List Char} {a : Addr} : readV6 cs = some (a, []) ↔
    ∃ x t d, Ip.Denotes t (.v6 x) ∧ a.ip = .v6 x ∧ Digits d a.port.toNat ∧
      ((cs = '[' :: t ++ ']' :: ':' :: d ∧ a.scope = 0) ∨
        ∃ e, cs = '[' :: t ++ '%' :: e ++ ']' :: ':' :: d ∧ Digits e a.scope.toNat) := by
  unfold readV6
  simp only [Option.bind_eq_some_iff, Option.map_eq_some_iff, Prod.exists, Prod.mk.injEq]
  constructor
  · rintro ⟨r, h0, x, q, h1, r2, h2, p, q2, h3, rfl, rfl⟩
    rw [expect_some] at h0
    obtain ⟨d, rfl, hd⟩ := readPort_iff.mp h3
    rcases scope_cases h2 rfl with ⟨g1, g2⟩ | ⟨e, g1, g2⟩
    · obtain ⟨t, rfl, ht⟩ := (readIpv6_then ⟨']', ':' :: d, g1, .inl rfl⟩).mp h1
      exact ⟨x, t, d, ht, rfl, hd, .inl ⟨by rw [h0, g1]; rfl, g2⟩⟩
    · obtain ⟨t, rfl, ht⟩ := (readIpv6_then ⟨'%', e ++ ']' :: ':' :: d, g1, .inr rfl⟩).mp h1
      exact ⟨x, t, d, ht, rfl, hd, .inr ⟨e, by rw [h0, g1]; simp, g2⟩⟩
  · rintro ⟨x, t, d, ht, hip, hd, ⟨rfl, hs⟩ | ⟨e, rfl, he⟩⟩
    · refine ⟨t ++ ']' :: ':' :: d, rfl, x, ']' :: ':' :: d,
        (readIpv6_then ⟨']', _, rfl, .inl rfl⟩).mpr ⟨t, rfl, ht⟩, ':' :: d, rfl, a.port, [],
        readPort_iff.mpr ⟨d, rfl, hd⟩, ?_, rfl⟩
      cases a
      simp only at hip hs
      rw [hip, hs]
      rfl
    · have hsc : readScope ('%' :: e ++ ']' :: ':' :: d) = some (a.scope, ']' :: ':' :: d) :=
        readScope_iff.mpr ⟨e, rfl, he, by intro c hc; cases hc; decide⟩
      refine ⟨t ++ ('%' :: e ++ ']' :: ':' :: d), by simp [expect], x, '%' :: e ++ ']' :: ':' :: d,
        (readIpv6_then ⟨'%', _, rfl, .inr rfl⟩).mpr ⟨t, rfl, ht⟩, ':' :: d, ?_, a.port, [],
        readPort_iff.mpr ⟨d, rfl, hd⟩, ?_, rfl⟩
      · rw [hsc]; rfl
      · rw [hsc]
        cases a
        simp only at hip
        rw [hip]
        rfl

/-- The texts of socket addresses, by the two readers. -/
theorem denotes_iff {cs : List Char} {a : Addr} :
    Denotes cs a ↔ readV4 cs = some (a, []) ∨ readV6 cs = some (a, []) := by
  rw [readV4_iff, readV6_iff]
  constructor
  · rintro ⟨h, d, rfl, hh, hd⟩
    generalize hip : a.ip = ip at hh
    generalize hsc : a.scope = sc at hh
    cases hh with
    | @v4 _ i g =>
      cases g
      exact .inl ⟨i, d, by rw [HostCli.chars_toList], rfl, rfl, hd⟩
    | @v6 t x g => exact .inr ⟨x, t, d, g, rfl, hd, .inl ⟨by simp, rfl⟩⟩
    | @withScope t e x n g ge => exact .inr ⟨x, t, d, g, rfl, hd, .inr ⟨e, by simp, ge⟩⟩
  · rintro (⟨i, d, rfl, h1, h2, hd⟩ | ⟨x, t, d, ht, hip, hd, ⟨rfl, hs⟩ | ⟨e, rfl, he⟩⟩)
    · refine ⟨i.chars, d, rfl, ?_, hd⟩
      rw [h1, h2, ← HostCli.chars_toList]
      exact .v4 (.v4 i)
    · refine ⟨'[' :: t ++ [']'], d, by simp, ?_, hd⟩
      rw [hip, hs]
      exact .v6 ht
    · refine ⟨'[' :: t ++ '%' :: e ++ [']'], d, by simp, ?_, hd⟩
      rw [hip]
      exact .withScope ht he

theorem readV4_bracket (cs : List Char) : readV4 ('[' :: cs) = none := by
  have : readOctet ('[' :: cs) = none := by
    unfold readOctet
    have : ('[' :: cs).takeWhile isDigit = [] := by
      rw [List.takeWhile_cons_of_neg (by decide)]
    rw [this]
    rfl
  unfold readV4 readIpv4
  rw [this]
  rfl

theorem readV6_some {cs : List Char} {x : Addr × List Char} (h : readV6 cs = some x) : ∃ r, cs = '[' :: r := by
  unfold readV6 at h
  rw [Option.bind_eq_some_iff] at h
  obtain ⟨r, h, -⟩ := h
  exact ⟨r, expect_some.mp h⟩

theorem parse_iff {t : String} {a : Addr} : parse t = some a ↔ Denotes t.toList a := by
  rw [denotes_iff]
  unfold parse
  generalize t.toList = cs
  cases h4 : readV4 cs with
  | none =>
    simp only [Option.orElse_none, reduceCtorEq, false_or]
    cases h6 : readV6 cs with
    | none => simp
    | some x =>
      obtain ⟨b, r⟩ := x
      cases r <;> simp
  | some x =>
    have : ¬ readV6 cs = some (a, []) := by
      intro h
      obtain ⟨r, rfl⟩ := readV6_some h
      rw [readV4_bracket] at h4
      cases h4
    simp only [Option.orElse_some, this, or_false]
    obtain ⟨b, r⟩ := x
    cases r <;> simp

end Qos.SockAddr
