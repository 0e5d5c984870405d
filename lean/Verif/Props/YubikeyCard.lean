import Verif.Props.Yubikey
/-!
# C64: the client and a well-behaved card

Concrete cases: `Props/YubikeyToy.lean` and `Props/YubikeyCommandsToy.lean`.
-/
namespace Qos.Yubi
open Client (Stop ClientError YubiKeyError Setting Run Disk orStop mapStop guardStop)
open P256 (Pair Public)

variable {p : Prims} {der : Bytes → Option Bytes} (M : Maker p der)

/-! ## Steps -/

theorem encodedPoint_point (hp : p.Laws) {s : Bytes} (hs : p.scalarOk s = true) (M : Maker p der) :
    encodedPoint (p.point s) = true := by
  have hl := hp.point_length s hs
  have hh := M.point_form s hs
  match h : p.point s with
  | [] => rw [h] at hh; cases hh
  | t :: rest =>
    rw [h] at hl hh
    simp only [List.head?_cons, Option.some.injEq] at hh
    subst hh
    simp only [List.length_cons] at hl
    simp [encodedPoint]
    omega

theorem pin_right {c : Card} {pin : Bytes} (h : c.Accepts pin) (l : List (Cmd × Answer)) :
    verifyPin (Card.piv M) pin ⟨c, l⟩ =
      (.ok (), ⟨{ c with tries := c.limit, verified := true }, l ++ [(.verifyPin pin, .done [])]⟩) := by
  obtain ⟨h1, h2, h3⟩ := h
  have : c.tries ≠ 0 := by omega
  simp [verifyPin, need_run, Card.piv, Card.act, Card.presentPin, this, h1, Card.yes, succeeded, Answer.isOk]

theorem pin_wrong {c : Card} {pin : Bytes} (h : pin ≠ c.pin) (ht : 0 < c.tries) (l : List (Cmd × Answer)) :
    verifyPin (Card.piv M) pin ⟨c, l⟩ =
      (.error (.error .failedToVerifyPin),
        ⟨{ c with tries := c.tries - 1, verified := false }, l ++ [(.verifyPin pin, .failed)]⟩) := by
  have : c.tries ≠ 0 := by omega
  simp [verifyPin, need_run, Card.piv, Card.act, Card.presentPin, this, h, Card.yes, succeeded, Answer.isOk]

theorem pin_blocked {c : Card} {pin : Bytes} (ht : c.tries = 0) (l : List (Cmd × Answer)) :
    verifyPin (Card.piv M) pin ⟨c, l⟩ = (.error (.error .failedToVerifyPin), ⟨c, l ++ [(.verifyPin pin, .failed)]⟩) := by
  simp [verifyPin, need_run, Card.piv, Card.act, Card.presentPin, ht, Card.yes, succeeded, Answer.isOk]

theorem read_key {c : Card} {slot : Slot} {k : Bytes} (h : c.cert slot = some k) (hk : encodedPoint k = true) (e : YubiKeyError)
    (l : List (Cmd × Answer)) :
    needKey (Card.piv M) (.readCertificate slot) e ⟨c, l⟩ = (.ok k, ⟨c, l ++ [(.readCertificate slot, .done k)]⟩) := by
  simp [needKey_run, Card.piv, Card.act, h, keyOf, hk]

/-- The card after a key was put into an empty slot. -/
def withKey (p : Prims) (c : Card) (slot : Slot) (scalar : Bytes) (drawn : Nat) : Card :=
  { c with tries := c.limit, verified := false, authed := true, key := update c.key slot (some ⟨scalar, .always, .always⟩),
           cert := update c.cert slot (some (p.point scalar)), count := c.count + drawn }

theorem selfSign_right {c : Card} {slot : Slot} {h : Held} (hk : c.key slot = some h) (hv : c.verified = true)
    (ha : c.authed = true) (k : Bytes) :
    Card.act M c (.selfSign slot k) =
      ({ c.used h with cert := update c.cert slot (some k) }, .done []) := by
  have : c.mayUse h = true := by simp [Card.mayUse, hv]
  simp only [Card.act, Card.useKey, hk, this, if_true]
  simp [Card.used, ha]

theorem selfSign_need {c : Card} {slot : Slot} {h : Held} (hk : c.key slot = some h) (hv : c.verified = true)
    (ha : c.authed = true) (k : Bytes) (e : YubiKeyError) (l : List (Cmd × Answer)) :
    need (Card.piv M) (.selfSign slot k) e ⟨c, l⟩ =
      (.ok (), ⟨{ c.used h with cert := update c.cert slot (some k) }, l ++ [(.selfSign slot k, .done [])]⟩) := by
  rw [need_run]
  simp only [Card.piv, selfSign_right M hk hv ha k]
  rfl

theorem requireEmpty_right {c : Card} {slot : Slot} (h : c.cert slot = none) (l : List (Cmd × Answer)) :
    requireEmpty (Card.piv M) slot ⟨c, l⟩ = (.ok (), ⟨c, l ++ [(.readCertificate slot, .failed)]⟩) := by
  simp [requireEmpty_run, Card.piv, Card.act, h, Answer.isOk]

theorem requireEmpty_occupied {c : Card} {slot : Slot} {k : Bytes} (h : c.cert slot = some k) (l : List (Cmd × Answer)) :
    requireEmpty (Card.piv M) slot ⟨c, l⟩ =
      (.error (.error .willNotOverwriteSlot), ⟨c, l ++ [(.readCertificate slot, .done k)]⟩) := by
  simp [requireEmpty_run, Card.piv, Card.act, h, Answer.isOk]

theorem authenticate_right {c : Card} (h : c.factoryMgm = true) (e : YubiKeyError) (l : List (Cmd × Answer)) :
    need (Card.piv M) (.authenticate .factory) e ⟨c, l⟩ =
      (.ok (), ⟨{ c with authed := true }, l ++ [(.authenticate .factory, .done [])]⟩) := by
  simp [need_run, Card.piv, Card.act, h, Card.yes, succeeded, Answer.isOk]

/-- The end of both ways to fill a slot. -/
theorem certify_right {c : Card} {slot : Slot} {pin scalar : Bytes} (h : c.Accepts pin) (ha : c.authed = true)
    (hk : c.key slot = some ⟨scalar, .always, .always⟩) (key : Bytes) (l : List (Cmd × Answer)) :
    ∃ l', (do
      verifyPin (Card.piv M) pin
      need (Card.piv M) (.selfSign slot key) .failedToGenerateSelfSignedCert : Dev Card Unit) ⟨c, l⟩ =
      (.ok (), ⟨{ c with tries := c.limit, verified := false, cert := update c.cert slot (some key), count := c.count + 1 }, l'⟩) := by
  exact ⟨_, (bind_ok (pin_right M h l)).trans
    (selfSign_need M (c := { c with tries := c.limit, verified := true }) (h := ⟨scalar, .always, .always⟩) hk rfl ha key _ _)⟩

/-- The card once the PIN and the management key were presented. -/
def opened (c : Card) : Card := { c with tries := c.limit, verified := true, authed := true }

/-- The log of that. -/
def openLog (l : List (Cmd × Answer)) (slot : Slot) (pin : Bytes) : List (Cmd × Answer) :=
  l ++ [(.verifyPin pin, .done [])] ++ [(.authenticate .factory, .done [])] ++ [(.readCertificate slot, .failed)]

/-- The beginning of both ways to fill a slot. -/
theorem open_slot {α : Type} {c : Card} {slot : Slot} {pin : Bytes} (h : c.Accepts pin) (hm : c.factoryMgm = true)
    (he : c.cert slot = none) (f : Dev Card α) (l : List (Cmd × Answer)) :
    (do
      verifyPin (Card.piv M) pin
      need (Card.piv M) (.authenticate .factory) .failedToAuthWithMgm
      requireEmpty (Card.piv M) slot
      f : Dev Card α) ⟨c, l⟩ = f ⟨opened c, openLog l slot pin⟩ :=
  (bind_ok (pin_right M h l)).trans ((bind_ok (authenticate_right M (c := { c with tries := c.limit, verified := true }) hm _ _)).trans
    (bind_ok (requireEmpty_right M (c := opened c) he _)))

theorem generate_right (hp : p.Laws) {c : Card} {slot : Slot} {pin : Bytes} (h : c.Accepts pin) (hm : c.factoryMgm = true)
    (he : c.cert slot = none) (l : List (Cmd × Answer)) :
    ∃ l', generateSignedCertificate (Card.piv M) slot pin .factory .always ⟨c, l⟩ =
      (.ok (p.point (M.fresh c.count)), ⟨withKey p c slot (M.fresh c.count) 2, l'⟩) := by
  have hk := encodedPoint_point hp (M.fresh_ok c.count) M
  unfold generateSignedCertificate
  rw [open_slot M h hm he, bind_run, needKey_run]
  simp only [Card.piv, Card.act, opened, keyOf, hk, if_true]
  obtain ⟨l', hl⟩ := certify_right M (c :=
    { c with tries := c.limit, verified := true, authed := true,
             key := update c.key slot (some ⟨M.fresh c.count, .always, .always⟩), count := c.count + 1 }) (slot := slot)
    (scalar := M.fresh c.count) (pin := pin) ⟨h.1, h.2.2, h.2.2⟩ rfl (by simp [update]) (p.point (M.fresh c.count))
    (openLog l slot pin ++ [(.generate slot .always .always, .done (p.point (M.fresh c.count)))])
  obtain ⟨_, s1, h1, h2⟩ := bind_done hl
  exact ⟨l', (bind_ok h1).trans (bind_ok h2)⟩

theorem import_right {c : Card} {slot : Slot} {pin scalar : Bytes} (h : c.Accepts pin) (hm : c.factoryMgm = true)
    (he : c.cert slot = none) (hs : p.scalarOk scalar = true) (l : List (Cmd × Answer)) :
    ∃ l', importKeyAndGenerateSignedCertificate p (Card.piv M) scalar slot pin .factory .always ⟨c, l⟩ =
      (.ok (), ⟨withKey p c slot scalar 1, l'⟩) := by
  unfold importKeyAndGenerateSignedCertificate
  rw [open_slot M h hm he, bind_run, lift_run]
  simp only [publicOf, hs, if_true]
  rw [bind_run, need_run]
  simp only [Card.piv, Card.act, opened, hs, if_true, and_self, succeeded, Answer.isOk]
  exact certify_right M (c :=
    { c with tries := c.limit, verified := true, authed := true,
             key := update c.key slot (some ⟨scalar, .always, .always⟩) }) (slot := slot) (scalar := scalar) ⟨h.1, h.2.2, h.2.2⟩ rfl
    (by simp [update]) (p.point scalar) _

/-! ## Using a card -/

theorem Usable.after {c d : Card} {pin signing agreement : Bytes} (h : Card.Usable p c pin signing agreement) (hs : c.Same d)
    (ht : 0 < d.tries) : Card.Usable p d pin signing agreement := by
  obtain ⟨h1, h2, h3, h4, h5, h6⟩ := hs
  obtain ⟨⟨a1, a2, a3⟩, b1, b2, b3, b4⟩ := h
  exact ⟨⟨h3 ▸ a1, ht, h4 ▸ a3⟩, by rw [← h1]; exact b1, by rw [← h1]; exact b2, by rw [← h2]; exact b3, by rw [← h2]; exact b4⟩

/-- With the right PIN a card signs, and the signature is one under the key it shows. -/
theorem card_signs (hp : p.Laws) (hd : DerOk p der) {c : Card} {pin signing agreement : Bytes}
    (h : c.Usable p pin signing agreement) (hs : p.scalarOk signing = true) (data : Bytes) (l : List (Cmd × Answer)) :
    ∃ sig c' l', signData p der (Card.piv M) data pin ⟨c, l⟩ = (.ok sig, ⟨c', l'⟩) ∧ p.sigOk sig = true ∧
      p.ecdsaVerify (p.point signing) data sig = true ∧ c.Same c' ∧ c'.Usable p pin signing agreement := by
  obtain ⟨ha, ⟨held, hk, rfl⟩, h2, hc, hc2⟩ := h
  obtain ⟨sig, hsig, hv⟩ := M.signature_ok c.count held.scalar data hs
  suffices e : ∃ l', signData p der (Card.piv M) data pin ⟨c, l⟩ = (.ok sig,
      ⟨{ c with tries := c.limit, verified := !decide (held.pinPolicy = .always), count := c.count + 1 }, l'⟩) by
    obtain ⟨l', e⟩ := e
    exact ⟨sig, _, l', e, hd _ _ hsig, hv, ⟨rfl, rfl, rfl, rfl, rfl, rfl⟩, ⟨ha.1, ha.2.2, ha.2.2⟩, ⟨held, hk, rfl⟩, h2, hc, hc2⟩
  unfold signData
  rw [bind_ok (read_key M hc (encodedPoint_point hp hs M) _ l), bind_run, lift_run]
  simp only [verifyingKey, hp.point_ok _ hs, if_true]
  rw [bind_ok (pin_right M ha _), bind_run, needData_run]
  simp only [Card.piv, Card.act, Card.useKey, hk, Card.mayUse, Bool.or_true, if_true, dataOf, lift_run, checkSignature, hsig, hv,
    Card.used, Bool.true_and]
  exact ⟨_, rfl⟩

/-- The PIN is wrong or blocked: every way to use a card or to fill a slot fails, nothing on the card changes, and it costs one
try. -/
theorem wrong_pin {c : Card} {pin : Bytes} (h : pin ≠ c.pin ∨ c.tries = 0) (l : List (Cmd × Answer)) :
    ∃ c' l', c.Same c' ∧ c'.tries = c.tries - 1 ∧
      (∀ slot mgm touch, generateSignedCertificate (Card.piv M) slot pin mgm touch ⟨c, l⟩ =
        (.error (.error .failedToVerifyPin), ⟨c', l'⟩)) ∧
      (∀ k slot mgm touch, importKeyAndGenerateSignedCertificate p (Card.piv M) k slot pin mgm touch ⟨c, l⟩ =
        (.error (.error .failedToVerifyPin), ⟨c', l'⟩)) ∧
      (∀ point, keyAgreement (Card.piv M) point pin ⟨c, l⟩ = (.error (.error .failedToVerifyPin), ⟨c', l'⟩)) := by
  by_cases ht : c.tries = 0
  · refine ⟨c, l ++ [(.verifyPin pin, .failed)], ⟨rfl, rfl, rfl, rfl, rfl, rfl⟩, by omega, fun _ _ _ => ?_, fun _ _ _ _ => ?_, fun _ => ?_⟩
    all_goals exact bind_error (pin_blocked M ht l)
  · have hp : pin ≠ c.pin := h.resolve_right ht
    refine ⟨{ c with tries := c.tries - 1, verified := false }, l ++ [(.verifyPin pin, .failed)],
      ⟨rfl, rfl, rfl, rfl, rfl, rfl⟩, rfl, fun _ _ _ => ?_,
      fun _ _ _ _ => ?_, fun _ => ?_⟩
    all_goals exact bind_error (pin_wrong M hp (by omega) l)

/-- The same for signing, once the certificate is read. -/
theorem wrong_pin_signs_nothing (hp : p.Laws) {c : Card} {pin signing agreement : Bytes} (h : pin ≠ c.pin ∨ c.tries = 0)
    (hh : c.Holds p signing agreement) (hs : p.scalarOk signing = true) (data : Bytes) (l : List (Cmd × Answer)) :
    ∃ c' l', c.Same c' ∧ c'.tries = c.tries - 1 ∧
      signData p der (Card.piv M) data pin ⟨c, l⟩ = (.error (.error .failedToVerifyPin), ⟨c', l'⟩) := by
  have e : ∀ r : Except Fail Unit × Plugged Card, (∃ f, r.1 = .error f) →
      verifyPin (Card.piv M) pin ⟨c, l ++ [(.readCertificate .signature, .done (p.point signing))]⟩ = r →
      ∃ f, signData p der (Card.piv M) data pin ⟨c, l⟩ = (.error f, r.2) ∧ r.1 = .error f := by
    rintro ⟨r1, r2⟩ ⟨f, rfl⟩ hr
    refine ⟨f, ?_, rfl⟩
    unfold signData
    rw [bind_ok (read_key M hh.2.2.1 (encodedPoint_point hp hs M) _ l), bind_run, lift_run]
    simp only [verifyingKey, hp.point_ok _ hs, if_true]
    rw [bind_error hr]
  by_cases ht : c.tries = 0
  · obtain ⟨f, h1, h2⟩ := e _ ⟨_, rfl⟩ (pin_blocked M ht _)
    cases h2
    exact ⟨c, _, ⟨rfl, rfl, rfl, rfl, rfl, rfl⟩, by omega, h1⟩
  · obtain ⟨f, h1, h2⟩ := e _ ⟨_, rfl⟩ (pin_wrong M (h.resolve_right ht) (by omega) _)
    cases h2
    exact ⟨{ c with tries := c.tries - 1, verified := false }, _, ⟨rfl, rfl, rfl, rfl, rfl, rfl⟩, rfl, h1⟩

/-- A card shows the public key of what it holds. -/
theorem card_shows (hp : p.Laws) {c : Card} {signing agreement : Bytes} (h : c.Holds p signing agreement)
    (hs : p.scalarOk signing = true) (ha : p.scalarOk agreement = true) (l : List (Cmd × Answer)) :
    ∃ l', pairPublicKey (Card.piv M) ⟨c, l⟩ = (.ok (p.point agreement ++ p.point signing), ⟨c, l'⟩) := by
  unfold pairPublicKey
  rw [bind_ok (read_key M h.2.2.1 (encodedPoint_point hp hs M) _ l), keyAgreePublicKey,
    bind_ok (read_key M h.2.2.2 (encodedPoint_point hp ha M) _ _)]
  exact ⟨_, rfl⟩

theorem agree_right {c : Card} {pin : Bytes} {held : Held} (ha : c.Accepts pin) (hk : c.key .keyManagement = some held)
    {buf : Bytes} {s : P256.Sealed} (hb : Borsh.tryFromSlice P256.sealedCodec buf = some s) (l : List (Cmd × Answer)) :
    sharedSecret (Card.piv M) buf pin ⟨c, l⟩ =
      (dataOf .keyAgreementFailed (if p.pointOk s.senderPublic then .done (p.dh held.scalar s.senderPublic) else .failed),
        ⟨{ c with tries := c.limit, verified := !decide (held.pinPolicy = .always), count := c.count + 1 },
          l ++ [(.verifyPin pin, .done [])] ++ [(.agree .keyManagement s.senderPublic,
            if p.pointOk s.senderPublic then .done (p.dh held.scalar s.senderPublic) else .failed)]⟩) := by
  unfold sharedSecret
  rw [bind_run, lift_run]
  simp only [senderOf, hb, keyAgreement]
  rw [bind_ok (pin_right M ha l), needData_run]
  simp only [Card.piv, Card.act, Card.useKey, hk, Card.mayUse, Card.used, if_true, Bool.or_true, Bool.true_and]

/-- A card decrypts exactly what the key file with its key agreement secret decrypts, to the same bytes, and stays usable. -/
theorem card_decrypts (hp : p.Laws) {c : Card} {pin signing agreement : Bytes} (h : c.Usable p pin signing agreement)
    (ha : p.scalarOk agreement = true) (buf : Bytes) (l : List (Cmd × Answer)) :
    ∃ r c' l', (Holder.yubi pin).decrypt p (Card.piv M) buf ⟨c, l⟩ = ⟨r, ⟨c', l'⟩, []⟩ ∧ c.Same c' ∧
      c'.Usable p pin signing agreement ∧ ∀ m, r = .ok m ↔ P256.openSealed p agreement buf = .ok m := by
  have hus := h
  obtain ⟨hacc, h1, ⟨held, hk, rfl⟩, hc1, hc⟩ := h
  show ∃ r c' l', Run.bind _ _ _ = _ ∧ _
  unfold Run.bind
  cases hb : Borsh.tryFromSlice P256.sealedCodec buf with
  | none =>
    have e : onCard ClientError.yubiKey (sharedSecret (Card.piv M) buf pin) ⟨c, l⟩ =
        ⟨.error (.error (.yubiKey .envelopeDeserialize)), ⟨c, l⟩, []⟩ := by
      simp [onCard, sharedSecret, bind_run, lift_run, senderOf, hb, mapStop, stopOf]
    rw [e]
    refine ⟨_, _, _, rfl, ⟨rfl, rfl, rfl, rfl, rfl, rfl⟩, hus, fun m => ?_⟩
    simp [P256.openSealed, hb]
  | some s =>
    have hc' : Card.Usable p { c with tries := c.limit, verified := !decide (held.pinPolicy = .always), count := c.count + 1 } pin
        signing held.scalar := ⟨⟨hacc.1, hacc.2.2, hacc.2.2⟩, h1, ⟨held, hk, rfl⟩, hc1, hc⟩
    by_cases hpt : p.pointOk s.senderPublic = true
    · have e : onCard ClientError.yubiKey (sharedSecret (Card.piv M) buf pin) ⟨c, l⟩ =
          ⟨.ok (p.dh held.scalar s.senderPublic),
            ⟨{ c with tries := c.limit, verified := !decide (held.pinPolicy = .always), count := c.count + 1 },
              l ++ [(.verifyPin pin, .done [])] ++
                [(.agree .keyManagement s.senderPublic, .done (p.dh held.scalar s.senderPublic))]⟩, []⟩ := by
        rw [onCard, agree_right M hacc hk hb]
        simp only [hpt, if_true, dataOf, mapStop]
      rw [e]
      simp only
      show ∃ r c' l', (⟨(Run.bind _ _ _).result, (Run.bind _ _ _).state, [] ++ (Run.bind _ _ _).events⟩ : Client.Out _ _) = _ ∧ _
      unfold Run.bind
      have e2 : ∀ (d : Card) l2, d.cert .keyManagement = some (p.point held.scalar) →
          onCard ClientError.yubiKey (keyAgreePublicKey (Card.piv M)) ⟨d, l2⟩ =
          ⟨.ok (p.point held.scalar), ⟨d, l2 ++ [(.readCertificate .keyManagement, .done (p.point held.scalar))]⟩, []⟩ := by
        intro d l2 hd
        simp only [onCard, keyAgreePublicKey]
        rw [read_key M hd (encodedPoint_point hp ha M) _ l2]
        rfl
      rw [e2 { c with tries := c.limit, verified := !decide (held.pinPolicy = .always), count := c.count + 1 } _ hc]
      simp only
      have e3 : P256.componentFromBytes p (p.point held.scalar) = .ok (p.point held.scalar) :=
        (P256.componentFromBytes_iff p _ _).mpr ⟨hp.point_length _ ha, hp.point_ok _ ha, rfl⟩
      rw [e3]
      refine ⟨mapStop (P256.openSealedShared p (p.point held.scalar) buf (p.dh held.scalar s.senderPublic))
        fun e => .error (.p256 e), _, _, rfl, ⟨rfl, rfl, rfl, rfl, rfl, rfl⟩, hc', fun m => ?_⟩
      rw [Client.mapStop_ok]
      simp only [P256.openSealedShared, P256.openSealed, hb, hpt, if_true]
    · have e : onCard ClientError.yubiKey (sharedSecret (Card.piv M) buf pin) ⟨c, l⟩ =
          ⟨.error (.error (.yubiKey .keyAgreementFailed)),
            ⟨{ c with tries := c.limit, verified := !decide (held.pinPolicy = .always), count := c.count + 1 },
              l ++ [(.verifyPin pin, .done [])] ++ [(.agree .keyManagement s.senderPublic, .failed)]⟩, []⟩ := by
        rw [onCard, agree_right M hacc hk hb]
        simp only [hpt, dataOf, mapStop, stopOf, if_false, Bool.false_eq_true]
      rw [e]
      refine ⟨_, _, _, rfl, ⟨rfl, rfl, rfl, rfl, rfl, rfl⟩, hc', fun m => ?_⟩
      simp [P256.openSealed, hb, hpt]

end Qos.Yubi
