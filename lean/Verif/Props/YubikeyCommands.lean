import Verif.Props.YubikeyLike
/-!
# C71: the smartcard commands of `qos_client`, from the command line

What each command does to a well-behaved card, with the PIN the operator gave.

Concrete cases: `toy_card_life` in `Props/YubikeyCommandsToy.lean`: one card through all the commands.
-/
namespace Qos.Yubi
open Client (Disk Setting Run)
open ClientCli (Outside Call Shown)
open P256 (Pair Public)

variable {der : Bytes → Option Bytes} {args : List String}

theorem program_eq {D : Type} {C : Setting (Plugged D)} {o : Outside (Plugged D)} {P : Piv D} {prompt : Option Bytes} {x : Call}
    (h : ClientCli.client args = .runs x) : program C o der P prompt args = execute C o der P prompt x := by
  unfold program
  rw [h]

theorem quiet_done {S : Type} {x : Run S Unit} {s t : S} {es : List Client.Event} (h : x s = ⟨.ok (), t, es⟩) :
    ClientCli.quiet x s = ⟨.ok .nothing, t, es⟩ := by
  show Run.bind x _ s = _
  unfold Run.bind
  rw [h]
  simp [pure, Run.pure]

theorem quiet_stops {S : Type} {x : Run S Unit} {s t : S} {es : List Client.Event} {e : Client.Stop} (h : x s = ⟨.error e, t, es⟩) :
    ClientCli.quiet x s = ⟨.error e, t, es⟩ := by
  show Run.bind x _ s = _
  unfold Run.bind
  rw [h]

theorem typed_holder {D : Type} (C : Setting (Plugged D)) (P : Piv D) {s : Plugged D} (ho : P.opens s.card = true) (pin : Bytes) :
    openHolder C P (some pin) (.yubikey none) s = ⟨.ok (.yubi pin), s, []⟩ := by
  show (openCard P (.yubiKey .connection) >>= fun _ => Run.lift (readPin C.disk (some pin) none) >>= fun pin =>
    pure (Holder.yubi pin)) s = _
  have h1 : openCard P (.yubiKey .connection) s = ⟨.ok (), s, []⟩ := by
    unfold openCard
    rw [ho]
    rfl
  rw [run_ok' h1]
  rw [Client.Run.lift_ok (x := readPin C.disk (some pin) none) (a := pin) rfl]
  rfl

/-- C71: `yubikey-sign` prints, in hexadecimal, a signature of the bytes the payload spells, by the card's signing key. -/
theorem sign_command (C : Setting (Plugged Card)) (M : Maker C.prims der) (hp : C.prims.Laws) (hd : DerOk C.prims der)
    (o : Outside (Plugged Card)) {c : Card} {pin signing agreement : Bytes} (h : c.Usable C.prims pin signing agreement)
    (hs : C.prims.scalarOk signing = true) {payload : String} {data : Bytes} (hex : Hex.decode (utf8 payload) = .ok data)
    (ha : ClientCli.client args = .runs (.yubikeySign payload)) (l : List (Cmd × Answer)) :
    ∃ sig c' l', program C o der (Card.piv M) (some pin) args ⟨c, l⟩ = ⟨.ok (.text (Hex.encode sig)), ⟨c', l'⟩, []⟩ ∧
      C.prims.sigOk sig = true ∧ C.prims.ecdsaVerify (C.prims.point signing) data sig = true ∧ c.Same c' ∧
      c'.Usable C.prims pin signing agreement := by
  obtain ⟨sig, c', l', h1, h2, h3, h4, h5⟩ := card_signs M hp hd h hs data l
  refine ⟨sig, c', l', ?_, h2, h3, h4, h5⟩
  rw [program_eq ha]
  have e : yubikeySign C der (Card.piv M) (some pin) payload ⟨c, l⟩ = ⟨.ok (Hex.encode sig), ⟨c', l'⟩, []⟩ := by
    unfold yubikeySign
    rw [Client.Run.lift_ok (x := Client.mapStop (Hex.decode (utf8 payload)) fun _ => .error .couldNotDecodeHex) (a := data)
      (by rw [hex]; rfl)]
    rw [run_ok' (typed_holder C (Card.piv M) rfl pin)]
    exact run_ok' (onCard_ok h1)
  exact run_ok' e

/-- C71: a payload that is not hexadecimal is refused, and the card is not touched. -/
theorem sign_command_refuses {D : Type} (C : Setting (Plugged D)) (P : Piv D) (o : Outside (Plugged D)) (prompt : Option Bytes)
    {payload : String} (hex : ∀ data, Hex.decode (utf8 payload) ≠ .ok data)
    (ha : ClientCli.client args = .runs (.yubikeySign payload)) (s : Plugged D) :
    program C o der P prompt args s = ⟨.error (.error .couldNotDecodeHex), s, []⟩ := by
  rw [program_eq ha]
  have e : yubikeySign C der P prompt payload s = ⟨.error (.error .couldNotDecodeHex), s, []⟩ := by
    unfold yubikeySign
    rw [Client.Run.lift_error (x := Client.mapStop (Hex.decode (utf8 payload)) fun _ => .error .couldNotDecodeHex)
      (e := .error .couldNotDecodeHex) ?_]
    cases hx : Hex.decode (utf8 payload) with
    | ok d => exact absurd hx (hex d)
    | error _ => rfl
  exact run_error' e

/-- C71: with a wrong or blocked PIN nothing is signed; nothing on the card changes and it costs one try. -/
theorem sign_command_wrong_pin (C : Setting (Plugged Card)) (M : Maker C.prims der) (hp : C.prims.Laws)
    (o : Outside (Plugged Card)) {c : Card} {pin signing agreement : Bytes} (h : c.Holds C.prims signing agreement)
    (hs : C.prims.scalarOk signing = true) (hw : pin ≠ c.pin ∨ c.tries = 0) {payload : String} {data : Bytes}
    (hex : Hex.decode (utf8 payload) = .ok data)
    (ha : ClientCli.client args = .runs (.yubikeySign payload)) (l : List (Cmd × Answer)) :
    ∃ c' l', program C o der (Card.piv M) (some pin) args ⟨c, l⟩ =
        ⟨.error (.error (.yubiKey .failedToVerifyPin)), ⟨c', l'⟩, []⟩ ∧ c.Same c' ∧ c'.tries = c.tries - 1 := by
  obtain ⟨c', l', h1, h2, h3⟩ := wrong_pin_signs_nothing (der := der) M hp hw h hs data l
  refine ⟨c', l', ?_, h1, h2⟩
  rw [program_eq ha]
  have e : yubikeySign C der (Card.piv M) (some pin) payload ⟨c, l⟩ =
      ⟨.error (.error (.yubiKey .failedToVerifyPin)), ⟨c', l'⟩, []⟩ := by
    unfold yubikeySign
    rw [Client.Run.lift_ok (x := Client.mapStop (Hex.decode (utf8 payload)) fun _ => .error .couldNotDecodeHex) (a := data)
      (by rw [hex]; rfl)]
    rw [run_ok' (typed_holder C (Card.piv M) rfl pin)]
    exact run_error' (onCard_error h3)
  exact run_error' e

/-- C71: `yubikey-public` prints, in hexadecimal, the public key of what the card holds; it needs no PIN. -/
theorem public_command (C : Setting (Plugged Card)) (M : Maker C.prims der) (hp : C.prims.Laws)
    (o : Outside (Plugged Card)) {c : Card} {signing agreement : Bytes} (h : c.Holds C.prims signing agreement)
    (hs : C.prims.scalarOk signing = true) (hg : C.prims.scalarOk agreement = true) (prompt : Option Bytes)
    (ha : ClientCli.client args = .runs .yubikeyPublic) (l : List (Cmd × Answer)) :
    ∃ l', program C o der (Card.piv M) prompt args ⟨c, l⟩ =
      ⟨.ok (.text (Hex.encode (C.prims.point agreement ++ C.prims.point signing))), ⟨c, l'⟩, []⟩ := by
  obtain ⟨l', h1⟩ := card_shows M hp h hs hg l
  refine ⟨l', ?_⟩
  rw [program_eq ha]
  have e : yubikeyPublic (Card.piv M) ⟨c, l⟩ =
      ⟨.ok (Hex.encode (C.prims.point agreement ++ C.prims.point signing)), ⟨c, l'⟩, []⟩ := by
    unfold yubikeyPublic
    rw [run_ok' (open_right M c l _), run_ok' (onCard_ok h1)]
    rfl
  exact run_ok' e

/-- C71: `yubikey-change-pin`. If the first file has the card's PIN, the card has the PIN of the second file afterwards;
otherwise it keeps its PIN and has one try less. Keys and certificates stay. -/
theorem change_pin_command (C : Setting (Plugged Card)) (M : Maker C.prims der) (o : Outside (Plugged Card)) {c : Card}
    (hl : 0 < c.limit) {current new : String} {old fresh : Bytes} {prompt : Option Bytes}
    (h1 : ∃ b, C.disk.file current = some b ∧ PinFile b old) (h2 : ∃ b, C.disk.file new = some b ∧ PinFile b fresh)
    (ha : ClientCli.client args = .runs (.yubikeyChangePin current new)) (l : List (Cmd × Answer)) :
    ∃ c' l', (c.Accepts old → program C o der (Card.piv M) prompt args ⟨c, l⟩ = ⟨.ok .nothing, ⟨c', l'⟩, []⟩ ∧ c'.Accepts fresh) ∧
      (¬ c.Accepts old → program C o der (Card.piv M) prompt args ⟨c, l⟩ =
        ⟨.error (.error (.yubiKey .failedToChangePin)), ⟨c', l'⟩, []⟩ ∧ c'.pin = c.pin ∧ c'.tries = c.tries - 1) ∧
      c'.key = c.key ∧ c'.cert = c.cert := by
  obtain ⟨c', l', k1, k2, k3⟩ := change_pin_exact M hl old fresh l
  have e1 := (pin_file_exact _ _ _).mpr h1
  have e2 := (pin_file_exact _ _ _).mpr h2
  refine ⟨c', l', fun h => ⟨?_, (k1 h).2⟩, fun h => ⟨?_, (k2 h).2⟩, k3⟩
  · rw [program_eq ha]
    refine quiet_done ?_
    unfold yubikeyChangePin
    rw [Client.Run.lift_ok e1, Client.Run.lift_ok e2, run_ok' (open_right M c l _), onCard_ok (k1 h).1]
  · rw [program_eq ha]
    refine quiet_stops ?_
    unfold yubikeyChangePin
    rw [Client.Run.lift_ok e1, Client.Run.lift_ok e2, run_ok' (open_right M c l _), onCard_error (k2 h).1]

/-- C71: `provision-yubikey` makes an empty card usable with two secrets of its own, and writes their public key. -/
theorem provision_command (C : Setting (Plugged Card)) (M : Maker C.prims der) (hp : C.prims.Laws) (o : Outside (Plugged Card))
    {c : Card} {pin : Bytes} (h : c.Accepts pin) (hm : c.factoryMgm = true) (he : ∀ slot, c.cert slot = none) {path : String}
    (hw : C.disk.writable path = true) (ha : ClientCli.client args = .runs (.provisionYubikey path)) (l : List (Cmd × Answer)) :
    ∃ signing agreement c' l', program C o der (Card.piv M) (some pin) args ⟨c, l⟩ =
        ⟨.ok .nothing, ⟨c', l'⟩, [.wrote path (Hex.encode (C.prims.point agreement ++ C.prims.point signing))]⟩ ∧
      c'.Usable C.prims pin signing agreement ∧ C.prims.scalarOk signing = true ∧ C.prims.scalarOk agreement = true := by
  obtain ⟨signing, agreement, c', l', h1, h2, h3, h4, -⟩ := provision_works M hp C h hm he path hw l
  refine ⟨signing, agreement, c', l', ?_, h2, h3, h4⟩
  rw [program_eq ha]
  exact quiet_done h1

/-- C71: `advanced-provision-yubikey` makes an empty card usable with the two secrets of the seed in the file, under the PIN that
was given, by file or by hand. -/
theorem import_command (C : Setting (Plugged Card)) (M : Maker C.prims der) (hp : C.prims.Laws) (o : Outside (Plugged Card))
    {c : Card} {pin : Bytes} (h : c.Accepts pin) (hm : c.factoryMgm = true) (he : ∀ slot, c.cert slot = none) {seedPath : String}
    {pinPath : Option String} {prompt : Option Bytes} (hpin : PinGiven C.disk prompt pin pinPath) {pair : Pair}
    (hpair : Client.pairFromFile C.prims C.disk seedPath = .ok pair)
    (ha : ClientCli.client args = .runs (.advancedProvisionYubikey seedPath pinPath)) (l : List (Cmd × Answer)) :
    ∃ c' l', program C o der (Card.piv M) prompt args ⟨c, l⟩ = ⟨.ok .nothing, ⟨c', l'⟩, []⟩ ∧
      c'.Usable C.prims pin pair.signSecret pair.encSecret := by
  obtain ⟨c', l', h1, h2⟩ := import_works C M hp h hm he hpin hpair l
  refine ⟨c', l', ?_, h2⟩
  rw [program_eq ha]
  exact quiet_done h1

/-- C71: `yubikey-piv-reset` reports success whatever it did. -/
theorem reset_command (C : Setting (Plugged Card)) (M : Maker C.prims der) (o : Outside (Plugged Card)) {c : Card}
    (hl : 0 < c.limit) {prompt : Option Bytes} (ha : ClientCli.client args = .runs .yubikeyPivReset) (l : List (Cmd × Answer)) :
    ∃ c' l', program C o der (Card.piv M) prompt args ⟨c, l⟩ = ⟨.ok .nothing, ⟨c', l'⟩, []⟩ ∧
      (c.tries = 0 ∨ (c.pin ≠ ascii "000000" ∧ c.tries ≤ 3) → c' = Card.factory c.count) ∧
      (¬ (c.tries = 0 ∨ (c.pin ≠ ascii "000000" ∧ c.tries ≤ 3)) → c'.key = c.key ∧ c'.cert = c.cert ∧ c'.pin = c.pin) := by
  obtain ⟨c', l', h1, h2⟩ := reset_exact M hl l
  refine ⟨c', l', ?_, h2⟩
  rw [program_eq ha]
  exact quiet_done h1

end Qos.Yubi
