import Verif.Props.YubikeyCard
import Mathlib.Data.List.TakeWhile
/-!
# C64: provisioning, resetting and PINs of a well-behaved card

Concrete cases: `Props/YubikeyToy.lean` and `Props/YubikeyCommandsToy.lean`.
-/
namespace Qos.Yubi
open Client (Stop ClientError YubiKeyError Setting Run Disk orStop mapStop guardStop)
open P256 (Pair Public)

variable {p : Prims} {der : Bytes → Option Bytes} (M : Maker p der)

/-! ## Running commands -/

theorem run_ok' {S α β : Type} {x : Run S α} {f : α → Run S β} {s s' : S} {a : α} (h : x s = ⟨.ok a, s', []⟩) :
    (x >>= f) s = f a s' := by
  show Run.bind x f s = _
  unfold Run.bind
  rw [h]
  rfl

theorem run_error' {S α β : Type} {x : Run S α} {f : α → Run S β} {s s' : S} {e : Stop} {es : List Client.Event}
    (h : x s = ⟨.error e, s', es⟩) : (x >>= f) s = ⟨.error e, s', es⟩ := by
  show Run.bind x f s = _
  unfold Run.bind
  rw [h]

theorem onCard_ok {D α : Type} {w : YubiKeyError → ClientError} {x : Dev D α} {s t : Plugged D} {a : α} (h : x s = (.ok a, t)) :
    onCard w x s = ⟨.ok a, t, []⟩ := by
  simp [onCard, h, mapStop]

theorem onCard_error {D α : Type} {w : YubiKeyError → ClientError} {x : Dev D α} {s t : Plugged D} {e : YubiKeyError}
    (h : x s = (.error (.error e), t)) : onCard w x s = ⟨.error (.error (w e)), t, []⟩ := by
  simp [onCard, h, mapStop, stopOf]

theorem open_right (c : Card) (l : List (Cmd × Answer)) (e : ClientError) :
    openCard (Card.piv M) e ⟨c, l⟩ = ⟨.ok (), ⟨c, l⟩, []⟩ := rfl

/-! ## `yubikey-change-pin` and PIN files -/

theorem takeWhile_line {line rest : Bytes} (h : 10 ∉ line) : (line ++ 10 :: rest).takeWhile (· ≠ 10) = line := by
  induction line with
  | nil => simp
  | cons x xs ih =>
    simp only [List.mem_cons, not_or] at h
    simp only [List.cons_append, List.takeWhile_cons]
    rw [if_pos (by simpa using fun e => h.1 e.symm), ih h.2]

theorem takeWhile_all {c : Bytes} (h : 10 ∉ c) : c.takeWhile (· ≠ 10) = c := by
  induction c with
  | nil => simp
  | cons x xs ih =>
    simp only [List.mem_cons, not_or] at h
    simp only [List.takeWhile_cons]
    rw [if_pos (by simpa using fun e => h.1 e.symm), ih h.2]

theorem first_line_of_mem {c : Bytes} (h : 10 ∈ c) : ∃ line rest, c = line ++ 10 :: rest ∧ 10 ∉ line := by
  induction c with
  | nil => simp at h
  | cons x xs ih =>
    by_cases hx : x = 10
    · exact ⟨[], xs, by simp [hx], by simp⟩
    · obtain ⟨line, rest, rfl, hl⟩ := ih ((List.mem_cons.mp h).resolve_left fun e => hx e.symm)
      exact ⟨x :: line, rest, rfl, by simp [hl, Ne.symm hx]⟩

/-- The PIN in a file is its first line. -/
theorem pin_file_exact (d : Disk) (path : String) (pin : Bytes) :
    pinFromPath d path = .ok pin ↔ ∃ c, d.file path = some c ∧ PinFile c pin := by
  unfold pinFromPath
  simp only [Client.ebind_ok, Client.orStop_ok, Client.guardStop_ok, Client.epure_ok, decide_eq_true_eq]
  constructor
  · rintro ⟨c, hc, _, hne, t, ht, rfl⟩
    refine ⟨c, hc, hne, ?_⟩
    by_cases h10 : (10 : UInt8) ∈ c
    · right
      obtain ⟨line, rest, rfl, hline⟩ := first_line_of_mem h10
      have e : (line ++ 10 :: rest).takeWhile (· ≠ 10) = line := takeWhile_line hline
      rw [e] at ht
      refine ⟨line, rest, rfl, hline, ⟨t, ht⟩, ?_⟩
      unfold firstLine
      rw [e]
      by_cases h13 : line.getLast? = some 13
      · left
        rw [if_pos ⟨by simp, h13⟩]
        exact (List.dropLast_append_getLast? 13 h13).symm
      · right
        rw [if_neg fun h => h13 h.2]
        exact ⟨rfl, h13⟩
    · left
      have e : c.takeWhile (· ≠ 10) = c := takeWhile_all h10
      rw [e] at ht
      refine ⟨h10, ⟨t, ht⟩, ?_⟩
      unfold firstLine
      rw [e, if_neg fun h => absurd h.1 (by simp)]
  · rintro ⟨c, hc, hne, ⟨h10, ⟨t, ht⟩, rfl⟩ | ⟨line, rest, rfl, hline, ⟨t, ht⟩, hpin⟩⟩
    · have e : pin.takeWhile (· ≠ 10) = pin := takeWhile_all h10
      refine ⟨pin, hc, (), hne, t, by rw [e]; exact ht, ?_⟩
      unfold firstLine
      rw [e, if_neg fun h => absurd h.1 (by simp)]
    · have e : (line ++ 10 :: rest).takeWhile (· ≠ 10) = line := takeWhile_line hline
      refine ⟨_, hc, (), hne, t, by rw [e]; exact ht, ?_⟩
      unfold firstLine
      rw [e]
      rcases hpin with rfl | ⟨rfl, h13⟩
      · rw [if_pos ⟨by simp, by simp⟩, List.dropLast_concat]
      · rw [if_neg fun h => h13 h.2]

/-- The right PIN is replaced by the new one; a wrong one changes nothing and costs one try. -/
theorem change_pin_exact {c : Card} (hl : 0 < c.limit) (old new : Bytes) (l : List (Cmd × Answer)) :
    ∃ c' l', (c.Accepts old → changePin (Card.piv M) old new ⟨c, l⟩ = (.ok (), ⟨c', l'⟩) ∧ c'.Accepts new) ∧
      (¬ c.Accepts old → changePin (Card.piv M) old new ⟨c, l⟩ = (.error (.error .failedToChangePin), ⟨c', l'⟩) ∧
        c'.pin = c.pin ∧ c'.tries = c.tries - 1) ∧ c'.key = c.key ∧ c'.cert = c.cert := by
  by_cases h : c.Accepts old
  · refine ⟨{ c with tries := c.limit, pin := new, verified := false }, l ++ [(.changePin old new, .done [])],
      fun _ => ⟨?_, rfl, hl, hl⟩, fun hn => absurd h hn, rfl, rfl⟩
    have : c.tries ≠ 0 := by have := h.2.1; omega
    simp [changePin, need_run, Card.piv, Card.act, Card.presentPin, this, h.1, succeeded, Answer.isOk]
  · by_cases ht : c.tries = 0
    · refine ⟨c, l ++ [(.changePin old new, .failed)], fun hn => absurd hn h, fun _ => ⟨?_, rfl, by omega⟩, rfl, rfl⟩
      simp [changePin, need_run, Card.piv, Card.act, Card.presentPin, ht, succeeded, Answer.isOk]
    · have hne : old ≠ c.pin := fun e => h ⟨e.symm, by omega, hl⟩
      refine ⟨{ c with tries := c.tries - 1, verified := false }, l ++ [(.changePin old new, .failed)], fun hn => absurd hn h,
        fun _ => ⟨?_, rfl, rfl⟩, rfl, rfl⟩
      simp [changePin, need_run, Card.piv, Card.act, Card.presentPin, ht, hne, succeeded, Answer.isOk]

/-- The PIN is that of the named file, or the one typed if no file was named. -/
theorem pin_given (d : Disk) (prompt : Option Bytes) (path : Option String) (pin : Bytes) :
    readPin d prompt path = .ok pin ↔ PinGiven d prompt pin path := by
  cases path with
  | some path => exact pin_file_exact d path pin
  | none => exact Client.orStop_ok

/-! ## `provision-yubikey` -/

/-- A card with the right PIN, the factory's management key and no certificates is provisioned: afterwards it is usable with two
secrets of its own making, and the file written holds, in hexadecimal, the public key of those. Keys without a certificate do not
stand in the way. -/
theorem provision_works (hp : p.Laws) (C : Setting (Plugged Card)) {c : Card} {pin : Bytes} (h : c.Accepts pin)
    (hm : c.factoryMgm = true) (he : ∀ slot, c.cert slot = none) (path : String) (hw : C.disk.writable path = true)
    (l : List (Cmd × Answer)) :
    ∃ signing agreement c' l', provisionYubikey C (Card.piv M) (some pin) path ⟨c, l⟩ =
        ⟨.ok (), ⟨c', l'⟩, [.wrote path (Hex.encode (p.point agreement ++ p.point signing))]⟩ ∧
      c'.Usable p pin signing agreement ∧ p.scalarOk signing = true ∧ p.scalarOk agreement = true ∧
      Public.fromBytes p (p.point agreement ++ p.point signing) = .ok ⟨p.point agreement, p.point signing⟩ := by
  have hs := M.fresh_ok c.count
  have ha := M.fresh_ok (c.count + 2)
  obtain ⟨l1, h1⟩ := generate_right M hp h hm (he .signature) l
  obtain ⟨l2, h2⟩ : ∃ l2, generateSignedCertificate (Card.piv M) .keyManagement pin .factory .always
      ⟨withKey p c .signature (M.fresh c.count) 2, l1⟩ = (.ok (p.point (M.fresh (c.count + 2))),
        ⟨withKey p (withKey p c .signature (M.fresh c.count) 2) .keyManagement (M.fresh (c.count + 2)) 2, l2⟩) :=
    generate_right M hp (c := withKey p c .signature (M.fresh c.count) 2) (slot := .keyManagement) (pin := pin)
      ⟨h.1, h.2.2, h.2.2⟩ hm (by simp [withKey, update, he]) l1
  have hu : Card.Usable p (withKey p (withKey p c .signature (M.fresh c.count) 2) .keyManagement (M.fresh (c.count + 2)) 2) pin
      (M.fresh c.count) (M.fresh (c.count + 2)) := by
    refine ⟨⟨h.1, h.2.2, h.2.2⟩, ⟨⟨_, .always, .always⟩, ?_, rfl⟩, ⟨⟨_, .always, .always⟩, ?_, rfl⟩, ?_, ?_⟩ <;>
      simp [withKey, update]
  obtain ⟨l3, h3⟩ := card_shows M hp hu.2 hs ha l2
  refine ⟨M.fresh c.count, M.fresh (c.count + 2), _, l3, ?_, hu, hs, ha, ?_⟩
  · unfold provisionYubikey
    rw [run_ok' (open_right M c l _), Client.Run.lift_ok (x := orStop (some pin) (Stop.error ClientError.pinEntryError)) (a := pin) rfl, run_ok' (onCard_ok h1), run_ok' (onCard_ok h2),
      run_ok' (onCard_ok h3)]
    simp [Client.write, hw]
  · refine (P256.public_fromBytes_iff p _ _).mpr ?_
    have e1 := hp.point_length _ ha
    have e2 := hp.point_length _ hs
    simp [hp.point_ok _ ha, hp.point_ok _ hs, e1, e2]

/-- A card that shows a certificate for its signing slot is left alone. -/
theorem provision_refuses (C : Setting (Plugged Card)) {c : Card} {pin key : Bytes} (h : c.Accepts pin)
    (hm : c.factoryMgm = true) (he : c.cert .signature = some key) (path : String) (l : List (Cmd × Answer)) :
    ∃ c' l', provisionYubikey C (Card.piv M) (some pin) path ⟨c, l⟩ =
        ⟨.error (.error (.generateSign .willNotOverwriteSlot)), ⟨c', l'⟩, []⟩ ∧ c.Same c' ∧ c'.Accepts pin := by
  have h1 : ∃ l', generateSignedCertificate (Card.piv M) .signature pin .factory .always ⟨c, l⟩ =
      (.error (.error .willNotOverwriteSlot), ⟨opened c, l'⟩) :=
    ⟨_, (bind_ok (pin_right M h l)).trans ((bind_ok (authenticate_right M (c := { c with tries := c.limit, verified := true }) hm _ _)).trans
      (bind_error (requireEmpty_occupied M (c := opened c) he _)))⟩
  obtain ⟨l', h1⟩ := h1
  refine ⟨opened c, l', ?_, ⟨rfl, rfl, rfl, rfl, rfl, rfl⟩, h.1, h.2.2, h.2.2⟩
  unfold provisionYubikey
  rw [run_ok' (open_right M c l _), Client.Run.lift_ok (x := orStop (some pin) (Stop.error ClientError.pinEntryError)) (a := pin) rfl, run_error' (onCard_error h1)]

/-- If only the key agreement slot is taken, the command fails with its work half done: the signing slot is filled, the key in the
key agreement slot stays, no public key is written, and every later attempt is refused. -/
theorem half_provisioned (hp : p.Laws) (C : Setting (Plugged Card)) {c : Card} {pin key : Bytes} (h : c.Accepts pin)
    (hm : c.factoryMgm = true) (he : c.cert .signature = none) (he' : c.cert .keyManagement = some key) (path : String)
    (l : List (Cmd × Answer)) :
    ∃ c' l', provisionYubikey C (Card.piv M) (some pin) path ⟨c, l⟩ =
        ⟨.error (.error (.generateEncrypt .willNotOverwriteSlot)), ⟨c', l'⟩, []⟩ ∧
      c'.cert .signature = some (p.point (M.fresh c.count)) ∧ c'.key .keyManagement = c.key .keyManagement ∧
      c'.cert .keyManagement = some key ∧
      ∃ c'' l'', provisionYubikey C (Card.piv M) (some pin) path ⟨c', l'⟩ =
        ⟨.error (.error (.generateSign .willNotOverwriteSlot)), ⟨c'', l''⟩, []⟩ := by
  obtain ⟨l1, h1⟩ := generate_right M hp h hm he l
  generalize hc1 : withKey p c .signature (M.fresh c.count) 2 = c1 at h1
  have ha1 : c1.Accepts pin := by subst hc1; exact ⟨h.1, h.2.2, h.2.2⟩
  have hm1 : c1.factoryMgm = true := by subst hc1; exact hm
  have hk1 : c1.cert .keyManagement = some key := by subst hc1; simp [withKey, update, he']
  have hs1 : c1.cert .signature = some (p.point (M.fresh c.count)) := by subst hc1; simp [withKey, update]
  have hkey : c1.key .keyManagement = c.key .keyManagement := by subst hc1; simp [withKey, update]
  have h2 : ∃ l', generateSignedCertificate (Card.piv M) .keyManagement pin .factory .always ⟨c1, l1⟩ =
      (.error (.error .willNotOverwriteSlot), ⟨opened c1, l'⟩) :=
    ⟨_, (bind_ok (pin_right M ha1 l1)).trans
      ((bind_ok (authenticate_right M (c := { c1 with tries := c1.limit, verified := true }) hm1 _ _)).trans
      (bind_error (requireEmpty_occupied M (c := opened c1) hk1 _)))⟩
  obtain ⟨l2, h2⟩ := h2
  obtain ⟨c3, l3, h3, -, -⟩ := provision_refuses M C (c := opened c1) (pin := pin) ⟨ha1.1, ha1.2.2, ha1.2.2⟩ hm1 hs1 path l2
  refine ⟨opened c1, l2, ?_, hs1, hkey, hk1, c3, l3, h3⟩
  unfold provisionYubikey
  rw [run_ok' (open_right M c l _), Client.Run.lift_ok (x := orStop (some pin) (Stop.error ClientError.pinEntryError)) (a := pin) rfl, run_ok' (onCard_ok h1), run_error' (onCard_error h2)]

/-- A key without a certificate is overwritten: what is checked is that there is no certificate, not that there is no key. -/
theorem key_without_certificate_lost (hp : p.Laws) (C : Setting (Plugged Card)) {c : Card} {pin : Bytes} (held : Held)
    (h : c.Accepts pin) (hm : c.factoryMgm = true) (he : ∀ slot, c.cert slot = none) (_hk : c.key .signature = some held)
    (hne : ∀ n, M.fresh n ≠ held.scalar) (path : String) (hw : C.disk.writable path = true) (l : List (Cmd × Answer)) :
    ∃ held', (provisionYubikey C (Card.piv M) (some pin) path ⟨c, l⟩).state.card.key .signature = some held' ∧
      held'.scalar ≠ held.scalar := by
  obtain ⟨l1, h1⟩ := generate_right M hp h hm (he .signature) l
  obtain ⟨l2, h2⟩ : ∃ l2, generateSignedCertificate (Card.piv M) .keyManagement pin .factory .always
      ⟨withKey p c .signature (M.fresh c.count) 2, l1⟩ = (.ok (p.point (M.fresh (c.count + 2))),
        ⟨withKey p (withKey p c .signature (M.fresh c.count) 2) .keyManagement (M.fresh (c.count + 2)) 2, l2⟩) :=
    generate_right M hp (c := withKey p c .signature (M.fresh c.count) 2) (slot := .keyManagement) (pin := pin)
      ⟨h.1, h.2.2, h.2.2⟩ hm (by simp [withKey, update, he]) l1
  obtain ⟨s, a, c', l', hr, hu, -⟩ := provision_works M hp C h hm he path hw l
  obtain ⟨⟨held', hk', hs'⟩, -⟩ := hu.2
  rw [hr]
  refine ⟨held', hk', ?_⟩
  -- the scalar is one of the card's own
  have : ∃ n, held'.scalar = M.fresh n := by
    have e : (provisionYubikey C (Card.piv M) (some pin) path ⟨c, l⟩).state.card.key .signature =
        some ⟨M.fresh c.count, .always, .always⟩ := by
      have hu : Card.Usable p (withKey p (withKey p c .signature (M.fresh c.count) 2) .keyManagement (M.fresh (c.count + 2)) 2) pin
          (M.fresh c.count) (M.fresh (c.count + 2)) := by
        refine ⟨⟨h.1, h.2.2, h.2.2⟩, ⟨⟨_, .always, .always⟩, ?_, rfl⟩, ⟨⟨_, .always, .always⟩, ?_, rfl⟩, ?_, ?_⟩ <;>
          simp [withKey, update]
      obtain ⟨l3, h3⟩ := card_shows M hp hu.2 (M.fresh_ok c.count) (M.fresh_ok (c.count + 2)) l2
      unfold provisionYubikey
      rw [run_ok' (open_right M c l _), Client.Run.lift_ok (x := orStop (some pin) (Stop.error ClientError.pinEntryError)) (a := pin) rfl, run_ok' (onCard_ok h1), run_ok' (onCard_ok h2),
        run_ok' (onCard_ok h3)]
      simp [Client.write, hw, withKey, update]
    rw [hr] at e
    exact ⟨c.count, by rw [show c'.key .signature = some held' from hk'] at e; cases e; rfl⟩
  obtain ⟨n, hn⟩ := this
  rw [hn]
  exact hne n

/-! ## `advanced-provision-yubikey` -/

/-- Importing the seed in a key file into an empty card works, and makes the card usable with the two secrets of that seed. -/
theorem import_works (C : Setting (Plugged Card)) (M : Maker C.prims der) (hp : C.prims.Laws) {c : Card} {pin : Bytes}
    (h : c.Accepts pin) (hm : c.factoryMgm = true) (he : ∀ slot, c.cert slot = none) {seedPath : String}
    {pinPath : Option String} {prompt : Option Bytes} (hpin : PinGiven C.disk prompt pin pinPath) {pair : Pair}
    (hpair : Client.pairFromFile C.prims C.disk seedPath = .ok pair) (l : List (Cmd × Answer)) :
    ∃ c' l', advancedProvisionYubikey C (Card.piv M) prompt seedPath pinPath ⟨c, l⟩ = ⟨.ok (), ⟨c', l'⟩, []⟩ ∧
      c'.Usable C.prims pin pair.signSecret pair.encSecret := by
  obtain ⟨ha, hs⟩ : C.prims.scalarOk pair.encSecret = true ∧ C.prims.scalarOk pair.signSecret = true := by
    obtain ⟨_, -, _, seed, -, -, hseed⟩ := Client.pairFromFile_ok.mp hpair
    exact P256.pair_scalars _ _ _ hseed
  obtain ⟨l1, h1⟩ := import_right M h hm (he .signature) hs l
  obtain ⟨l2, h2⟩ := import_right M (c := withKey C.prims c .signature pair.signSecret 1) (slot := .keyManagement) (pin := pin)
    ⟨h.1, h.2.2, h.2.2⟩ hm (by simp [withKey, update, he]) ha l1
  have hu : Card.Usable C.prims (withKey C.prims (withKey C.prims c .signature pair.signSecret 1) .keyManagement pair.encSecret 1) pin
      pair.signSecret pair.encSecret := by
    refine ⟨⟨h.1, h.2.2, h.2.2⟩, ⟨⟨_, .always, .always⟩, ?_, rfl⟩, ⟨⟨_, .always, .always⟩, ?_, rfl⟩, ?_, ?_⟩ <;>
      simp [withKey, update]
  obtain ⟨l3, h3⟩ := card_shows M hp hu.2 hs ha l2
  refine ⟨_, l3, ?_, hu⟩
  unfold advancedProvisionYubikey
  rw [run_ok' (open_right M c l _), Client.Run.lift_ok ((pin_given ..).mpr hpin),
    Client.Run.lift_ok hpair,
    run_ok' (onCard_ok h1), run_ok' (onCard_ok h2), run_ok' (onCard_ok h3)]
  have e : guardStop (decide (C.prims.point pair.encSecret ++ C.prims.point pair.signSecret = (pair.publicKey C.prims).toBytes))
      (Stop.error ClientError.wrongPublicKey) = .ok () := Client.guardStop_ok.mpr (decide_eq_true rfl)
  rw [e]
  rfl

/-! ## `yubikey-piv-reset` -/

/-- The PIN counter after a round of the reset. -/
def roundTries (c : Card) : Nat :=
  if c.tries = 0 then 0 else if ascii "000000" = c.pin then c.limit else c.tries - 1

/-- The card after a round of the reset. -/
def roundCard (c : Card) (v : Bool) : Card := { c with authed := false, verified := v, tries := roundTries c }

/-- What a round of the reset does. -/
theorem round_right (c : Card) (l : List (Cmd × Answer)) :
    ∃ l' v, blockRound (Card.piv M) ⟨c, l⟩ = (.ok (), ⟨roundCard c v, l'⟩) := by
  have e : blockRound (Card.piv M) ⟨c, l⟩ = (.ok (),
      ⟨(({ c with authed := false } : Card).presentPin (ascii "000000")).1,
        l ++ [(.authenticate .random, .failed)] ++
          [(.verifyPin (ascii "000000"), Card.yes (({ c with authed := false } : Card).presentPin (ascii "000000")).2)]⟩) := rfl
  have e2 : (({ c with authed := false } : Card).presentPin (ascii "000000")).1 =
      roundCard c (({ c with authed := false } : Card).presentPin (ascii "000000")).1.verified := by
    unfold roundCard roundTries
    generalize ascii "000000" = z
    unfold Card.presentPin
    by_cases ht : c.tries = 0
    · simp [ht]
    · by_cases hp : z = c.pin <;> simp [ht, hp]
  rw [e2] at e
  exact ⟨_, _, e⟩

/-- `yubikey-piv-reset` always reports success. It erases the card if the PIN is blocked, or is not "000000" and at most three wrong
tries from being blocked; otherwise the keys and certificates are all still there. -/
theorem reset_exact {c : Card} (hl : 0 < c.limit) (l : List (Cmd × Answer)) :
    ∃ c' l', yubikeyPivReset (Card.piv M) ⟨c, l⟩ = ⟨.ok (), ⟨c', l'⟩, []⟩ ∧
      (c.tries = 0 ∨ (c.pin ≠ ascii "000000" ∧ c.tries ≤ 3) → c' = Card.factory c.count) ∧
      (¬ (c.tries = 0 ∨ (c.pin ≠ ascii "000000" ∧ c.tries ≤ 3)) → c'.key = c.key ∧ c'.cert = c.cert ∧ c'.pin = c.pin) := by
  obtain ⟨l1, v1, h1⟩ := round_right M c l
  generalize hc1 : roundCard c v1 = c1 at h1
  obtain ⟨l2, v2, h2⟩ := round_right M c1 l1
  generalize hc2 : roundCard c1 v2 = c2 at h2
  obtain ⟨l3, v3, h3⟩ := round_right M c2 l2
  generalize hc3 : roundCard c2 v3 = c3 at h3
  have ht1 : c1.tries = roundTries c := by subst hc1; rfl
  have ht2 : c2.tries = if c1.tries = 0 then 0 else if ascii "000000" = c1.pin then c1.limit else c1.tries - 1 := by subst hc2; rfl
  have ht3 : c3.tries = if c2.tries = 0 then 0 else if ascii "000000" = c2.pin then c2.limit else c2.tries - 1 := by subst hc3; rfl
  have hp1 : c1.pin = c.pin := by subst hc1; rfl
  have hp2 : c2.pin = c.pin := by subst hc2; exact hp1
  have hl1 : c1.limit = c.limit := by subst hc1; rfl
  have hl2 : c2.limit = c.limit := by subst hc2; exact hl1
  unfold roundTries at ht1
  have e : ∃ l', yubikeyPivReset (Card.piv M) ⟨c, l⟩ =
      ⟨.ok (), ⟨if c3.tries = 0 then Card.factory c3.count else { c3 with pukBlocked := true }, l'⟩, []⟩ := by
    have e' : ∃ l', pivReset (Card.piv M) ⟨c, l⟩ =
        (.ok (), ⟨if c3.tries = 0 then Card.factory c3.count else { c3 with pukBlocked := true }, l'⟩) := by
      unfold pivReset
      rw [bind_ok h1, bind_ok h2, bind_ok h3]
      have e : (do
          ignore (Card.piv M) .blockPuk
          ignore (Card.piv M) .reset : Dev Card Unit) ⟨c3, l3⟩ = (.ok (),
            ⟨(Card.act M { c3 with pukBlocked := true } .reset).1,
              l3 ++ [(.blockPuk, .done [])] ++ [(.reset, (Card.act M { c3 with pukBlocked := true } .reset).2)]⟩) := rfl
      have e2 : (Card.act M { c3 with pukBlocked := true } .reset).1 =
          if c3.tries = 0 then Card.factory c3.count else { c3 with pukBlocked := true } := by
        by_cases ht : c3.tries = 0 <;> simp [Card.act, ht]
      rw [e2] at e
      exact ⟨_, e⟩
    obtain ⟨l', e'⟩ := e'
    exact ⟨l', by unfold yubikeyPivReset; rw [run_ok' (open_right M c l _), onCard_ok e']⟩
  obtain ⟨l', e⟩ := e
  refine ⟨_, l', e, fun h => ?_, fun h => ?_⟩
  · have ht : c3.tries = 0 := by
      rw [ht3, ht2, ht1, hp2, hp1, hl2, hl1]
      rcases h with h | ⟨h, h'⟩
      · simp [h]
      · have hne : ¬ ascii "000000" = c.pin := fun e => h e.symm
        rw [if_neg hne, if_neg hne, if_neg hne]
        split_ifs <;> omega
    have hcount : c3.count = c.count := by subst hc3 hc2 hc1; rfl
    rw [if_pos ht, hcount]
  · have ht : c3.tries ≠ 0 := by
      rw [ht3, ht2, ht1, hp2, hp1, hl2, hl1]
      by_cases hp : ascii "000000" = c.pin
      · have : c.tries ≠ 0 := fun e => h (Or.inl e)
        have hl' : c.limit ≠ 0 := by omega
        simp [hp, this, hl']
      · have : 3 < c.tries := by
          by_contra hle
          exact h (Or.inr ⟨fun e => hp e.symm, by omega⟩)
        rw [if_neg hp, if_neg hp, if_neg hp]
        split_ifs <;> omega
    rw [if_neg ht]
    subst hc3 hc2 hc1
    exact ⟨rfl, rfl, rfl⟩

end Qos.Yubi
