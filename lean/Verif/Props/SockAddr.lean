import Verif.Lemmas.SockAddr
import Verif.Props.Ip
/-!
# Socket addresses

What the standard library's reader makes of a text `host:port`, for C67.
-/
namespace Qos.SockAddr
open Qos (IpAddr)
open HostCli (Digits digits_iff)

/-- C67: a text is read as a socket address exactly if it denotes that address: a host, `:` and the port. -/
theorem parse_exact (t : String) (a : Addr) : parse t = some a ↔ Denotes t.toList a := parse_iff

/-- C67: no text denotes two addresses. -/
theorem denotes_unique {t : List Char} {a b : Addr} (ha : Denotes t a) (hb : Denotes t b) : a = b := by
  have h1 : parse (String.ofList t) = some a := parse_iff.mpr (by rwa [String.toList_ofList])
  have h2 : parse (String.ofList t) = some b := parse_iff.mpr (by rwa [String.toList_ofList])
  rw [h1] at h2
  exact Option.some.inj h2

theorem digits_no_colon {d : List Char} {n : Nat} (h : Digits d n) : ':' ∉ d := by
  intro hc
  have := digits_all h _ hc
  revert this
  decide

theorem last_colon {h h' d d' : List Char} (e : h ++ ':' :: d = h' ++ ':' :: d') (h1 : ':' ∉ d) (h2 : ':' ∉ d') :
    h = h' ∧ d = d' := by
  rcases List.append_eq_append_iff.mp e with ⟨x, rfl, hx⟩ | ⟨x, rfl, hx⟩
  · cases x with
    | nil => simp at hx; simp [hx]
    | cons c x =>
      simp only [List.cons_append, List.cons.injEq] at hx
      exact absurd (by rw [hx.2]; simp) h1
  · cases x with
    | nil => simp at hx; simp [hx]
    | cons c x =>
      simp only [List.cons_append, List.cons.injEq] at hx
      exact absurd (by rw [hx.2]; simp) h2

/-- The text made of a host and a port is an address exactly if the host is one, and then it has this port. -/
theorem host_and_port {host : String} {port : UInt16} {a : Addr} :
    parse (host ++ ":" ++ toString port.toNat) = some a ↔ HostText host.toList a.ip a.scope ∧ a.port = port := by
  have hp : Digits (toString port.toNat).toList port.toNat := by
    rw [Reaper.natText_toString]
    exact digits_iff.mpr ⟨natText_ne_nil _, digitsNat_natText _⟩
  have e : (host ++ ":" ++ toString port.toNat).toList = host.toList ++ ':' :: (toString port.toNat).toList := by
    simp [String.toList_append]
  rw [parse_iff, e]
  constructor
  · rintro ⟨h, d, hh, h1, h2⟩
    obtain ⟨rfl, rfl⟩ := last_colon hh (digits_no_colon hp) (digits_no_colon h2)
    refine ⟨h1, ?_⟩
    have := HostCli.digits_sound h2
    rw [HostCli.digits_sound hp, Option.some.injEq] at this
    exact UInt16.toNat_inj.mp this.symm
  · rintro ⟨h1, rfl⟩
    exact ⟨_, _, rfl, h1, hp⟩

example : Denotes "[fe80::1%3]:080".toList ⟨.v6 ⟨[0xfe80, 0, 0, 0, 0, 0, 0, 1], rfl⟩, 80, 3⟩ :=
  (parse_exact "[fe80::1%3]:080" _).mp (by decide +kernel)

example : ∀ a, ¬ Denotes "[::1]".toList a := by
  intro a h
  have := (parse_exact "[::1]" a).mpr h
  have e : parse "[::1]" = none := by decide +kernel
  rw [e] at this
  cases this

end Qos.SockAddr
