import Verif.Props.YubikeyLike
import Verif.Props.YubikeyProvision
import Verif.Props.ClientCommandToy
/-!
# C63, C64: a toy card
-/
namespace Qos.Yubi
open Client (Stop ClientError YubiKeyError Setting Run Disk orStop mapStop guardStop toySetting toyPair toyPair_ok toy_generated seedText_iff SeedIn LocalMatch)
open P256 (Pair Public toyPrims toyLaws pad pad_length pad_eq_self)

/-! ## RFC 5280 -/

/-- The serial number of a certificate is twenty random bytes of which only the top bit is forced, to zero: it is positive and fits
the twenty bytes RFC 5280 allows. -/
theorem serial_exact (b : UInt8) (rest : Bytes) (h : rest.length = 19) :
    (rfc5280Serial (b :: rest)).length = 20 ∧ (rfc5280Serial (b :: rest)).drop 1 = rest ∧
      ∃ t, (rfc5280Serial (b :: rest)).head? = some t ∧ t.toNat = b.toNat % 128 := by
  refine ⟨by simp [rfc5280Serial, h], rfl, _, rfl, ?_⟩
  have : ∀ b : UInt8, (b &&& 0x7f).toNat = b.toNat % 128 := Hex.uint8_forall (by decide +kernel)
  exact this b

/-! ## The card -/

/-- The toy signatures are their own encoding. -/
def toyDer (b : Bytes) : Option Bytes := if b.length = 64 then some b else none

theorem toyDer_ok : DerOk toyPrims toyDer := by
  intro b s h
  unfold toyDer at h
  split at h
  · rename_i hl
    cases h
    simpa [toyPrims] using hl
  · cases h

/-- The maker of the toy cards: the n-th secret is made of bytes `n`. -/
def toyMaker : Maker toyPrims toyDer where
  fresh n := List.replicate 32 (UInt8.ofNat n)
  signature _ s digest := pad 32 s ++ pad 32 digest
  fresh_ok n := by simp [toyPrims]
  signature_ok n s m hs := by
    refine ⟨pad 32 s ++ pad 32 (toyPrims.sha256 m), by simp [toyDer, pad_length], ?_⟩
    have e : pad 32 (toyPrims.sha256 m) = pad 32 m := pad_eq_self (pad_length 32 m)
    rw [e]
    exact toyLaws.verify_sign s m hs
  point_form s _ := rfl

/-- Zero bytes are no secret, so a fresh card is not asked to take them. -/
example : ∃ e l, importKeyAndGenerateSignedCertificate toyPrims (Card.piv toyMaker) [] .signature (ascii "123456") .factory .always
    ⟨Card.factory 0, []⟩ = (.error e, ⟨(importKeyAndGenerateSignedCertificate toyPrims (Card.piv toyMaker) [] .signature
      (ascii "123456") .factory .always ⟨Card.factory 0, []⟩).2.card, [] ++ l⟩) ∧ ∀ x ∈ l, x.1.Harmless :=
  import_needs_secret toyPrims (Card.piv toyMaker) [] .signature (ascii "123456") .factory .always (by decide +kernel) _

theorem factory_accepts (n : Nat) : (Card.factory n).Accepts (ascii "123456") := ⟨rfl, Nat.zero_lt_succ 2, Nat.zero_lt_succ 2⟩

/-- `provision_works` applies to a card out of the box. -/
example (C : Setting (Plugged Card)) (path : String) (hw : C.disk.writable path = true) :=
  provision_works toyMaker toyLaws C (factory_accepts 7) rfl (fun _ => rfl) path hw []

/-- `provision_refuses` applies to what that leaves. -/
example (C : Setting (Plugged Card)) (path : String) :=
  provision_refuses toyMaker C (c := withKey toyPrims (Card.factory 0) .signature (List.replicate 32 5) 2) (pin := ascii "123456")
    (key := toyPrims.point (List.replicate 32 5)) ⟨rfl, by decide, by decide⟩ rfl rfl path []

/-- `half_provisioned` applies to a card whose key agreement slot alone is taken. -/
example (C : Setting (Plugged Card)) (path : String) :=
  half_provisioned toyMaker toyLaws C (c := withKey toyPrims (Card.factory 0) .keyManagement (List.replicate 32 5) 2)
    (pin := ascii "123456") (key := toyPrims.point (List.replicate 32 5)) ⟨rfl, by decide, by decide⟩ rfl rfl rfl path []

/-- `key_without_certificate_lost` applies: a card that holds a key which no toy card draws, without a certificate. -/
example (C : Setting (Plugged Card)) (path : String) (hw : C.disk.writable path = true) :=
  key_without_certificate_lost toyMaker toyLaws C (c := { Card.factory 0 with key := fun _ => some ⟨1 :: List.replicate 31 0, .always, .always⟩ })
    (pin := ascii "123456") ⟨1 :: List.replicate 31 0, .always, .always⟩ (factory_accepts 0) rfl (fun _ => rfl) rfl
    (by
      intro n h
      have h : List.replicate 32 (UInt8.ofNat n) = 1 :: List.replicate 31 0 := h
      have h1 := congrArg (fun l => l[0]?) h
      have h2 := congrArg (fun l => l[1]?) h
      simp at h1 h2
      rw [h1] at h2
      exact absurd h2 (by decide)) path hw []

/-- `wrong_pin` applies, and so does `reset_exact`: a card with a blocked PIN is reset. -/
example : ∃ c' l', yubikeyPivReset (Card.piv toyMaker) ⟨withKey toyPrims (Card.factory 0) .signature (List.replicate 32 5) 2, []⟩ =
    ⟨.ok (), ⟨c', l'⟩, []⟩ ∧ c' = Card.factory 2 := by
  obtain ⟨c', l', h1, h2, -⟩ := reset_exact toyMaker (c := withKey toyPrims (Card.factory 0) .signature (List.replicate 32 5) 2)
    (by decide) []
  exact ⟨c', l', h1, h2 (.inr ⟨by decide, by decide⟩)⟩

/-- With "000000" as the PIN it is not, and the command claims it was. -/
theorem reset_reports_success_wrongly : ∃ c : Card, (yubikeyPivReset (Card.piv toyMaker) ⟨c, []⟩).result = .ok () ∧
      (yubikeyPivReset (Card.piv toyMaker) ⟨c, []⟩).state.card.key = c.key ∧ ∃ h, c.key .signature = some h := by
  obtain ⟨c', l', h1, -, h2⟩ := reset_exact toyMaker
    (c := withKey toyPrims { Card.factory 0 with pin := ascii "000000" } .signature (List.replicate 32 5) 2) (by decide) []
  refine ⟨withKey toyPrims { Card.factory 0 with pin := ascii "000000" } .signature (List.replicate 32 5) 2, ?_⟩
  rw [h1]
  exact ⟨rfl, (h2 (fun h => h.elim (by decide) fun h => h.1 rfl)).1, ⟨_, .always, .always⟩, rfl⟩

/-- `pin_file_exact` on a file with a carriage return and a second line. -/
example : PinFile (ascii "123456\r\nmore") (ascii "123456") :=
  ⟨by decide, .inr ⟨ascii "123456\r", ascii "more", by decide, by decide, ⟨"123456\r", utf8Decode_utf8 "123456\r"⟩, .inl (by decide)⟩⟩

/-! ## From a seed to an approval -/

/-- The toy operator with a card. -/
def cardSetting (c : Bytes) : Setting (Plugged Card) where
  prims := toyPrims
  pki := toySetting.pki
  awsRoot := [1, 2]
  now := 5
  rand := toySetting.rand
  disk := ClientCli.seedDisk c
  net s _ := (s, none)

/-- Nobody to talk to, and an operator who agrees to everything. -/
def agreeable : ClientCli.Outside (Plugged Card) :=
  ⟨fun _ s _ => (s, none), fun _ s => (s, none), List.replicate 8 "yes", [], fun _ _ => 0, ⟨[], fun _ _ => 0, ⟨[], []⟩, ⟨[], []⟩⟩⟩

/-- What is to be approved. -/
def toyApprove : Client.ApproveArgs :=
  ⟨"manifest", "approvals", "release", "role", "pivot.hash", "quorum.pub", "set", "set", none, "me", false⟩

theorem alike_mem {p : Prims} {l l' : List Client.Event} (h : List.Forall₂ (Alike p) l l') {e' : Client.Event} (he : e' ∈ l') :
    ∃ e, e ∈ l ∧ Alike p e e' := by
  induction h with
  | nil => simp at he
  | cons h _ ih =>
    rcases List.mem_cons.mp he with rfl | he
    · exact ⟨_, List.mem_cons_self, h⟩
    · obtain ⟨e, he, ha⟩ := ih he
      exact ⟨e, List.mem_cons_of_mem _ he, ha⟩

/-- `import_works` and `card_replaces_key_file` apply: the seed of a toy member is put on a card out of the box, and the card then
approves the toy manifest. -/
theorem toy_card : ∃ (manifest : Bytes) (s : Plugged Card) (path : String) (contents : Bytes),
    (execute (cardSetting manifest) agreeable toyDer (Card.piv toyMaker) (some (ascii "123456"))
      (.advancedProvisionYubikey "seed" none) ⟨Card.factory 0, []⟩).state = s ∧
    (∃ r, (execute (cardSetting manifest) agreeable toyDer (Card.piv toyMaker) (some (ascii "123456"))
      (.approveManifest (.yubikey none) toyApprove) s).result = .ok r) ∧
    .wrote path contents ∈ (execute (cardSetting manifest) agreeable toyDer (Card.piv toyMaker) (some (ascii "123456"))
      (.approveManifest (.yubikey none) toyApprove) s).events := by
  obtain ⟨c, m, -, hread, hmatch, -, -⟩ := toy_generated
  have hpair := toyPair_ok 1 (by decide)
  have hseed : SeedIn toyPrims (ClientCli.seedDisk c) "seed" (toyPair 1) := by
    refine ⟨(toyPair 1).toMasterSeedHex, rfl, seedText_iff.mp ?_⟩
    have hs : (toyPair 1).seed = List.replicate 32 1 := P256.pair_seed _ _ _ hpair
    rw [P256.hex_file_roundtrip _ _ (by rw [hs]; rfl), hs]
    exact hpair
  have hfile : Client.pairFromFile (cardSetting c).prims (cardSetting c).disk "seed" = .ok (toyPair 1) := Client.pairFromFile_ok.mpr hseed
  obtain ⟨c', l', h1, hu⟩ := import_works (cardSetting c) toyMaker toyLaws (factory_accepts 0) rfl (fun _ => rfl) (seedPath := "seed")
    (pinPath := none) (prompt := some (ascii "123456")) rfl hfile []
  obtain ⟨g1, path, b, g2⟩ := Client.approve_complete (cardSetting c) (toyPair 1) toyApprove agreeable.input ⟨c', l'⟩ (.v2 m)
    ⟨c, rfl, hread⟩ (LocalMatch.mono (ClientCli.seedDisk_extends c) hmatch) (Nat.le_refl 8)
    (by
      intro l hl
      rw [List.eq_of_mem_replicate hl]
      show P256.trim "yes" ∈ _
      decide +kernel) (fun _ => rfl)
  obtain ⟨k1, k2, -, -⟩ := card_replaces_key_file (C := cardSetting c) toyMaker toyLaws toyDer_ok agreeable (pinPath := none)
    (prompt := some (ascii "123456")) rfl hfile hu (.approveManifest toyApprove) l' ⟨c', l'⟩
  have hrun : ClientCli.execute (cardSetting c) agreeable (.approveManifest (.file "seed") toyApprove) ⟨c', l'⟩ =
      ClientCli.quiet (Client.approveManifest (cardSetting c) (toyPair 1) toyApprove agreeable.input) ⟨c', l'⟩ := by
    rw [ClientCli.execute_approve, Client.Run.lift_ok (x := ClientCli.openSigner (cardSetting c) (.file "seed")) hfile]
  rw [hrun] at k1 k2
  rw [ClientCli.quiet_events] at k2
  obtain ⟨e, he, hal⟩ : ∃ e, e ∈ (execute (cardSetting c) agreeable toyDer (Card.piv toyMaker) (some (ascii "123456"))
      (.approveManifest (.yubikey none) toyApprove) ⟨c', l'⟩).events ∧ Alike (cardSetting c).prims e (.wrote path b) := by
    exact alike_mem k2 g2
  have hw : ∃ b', e = .wrote path b' := by
    cases hal with
    | same _ => exact ⟨b, rfl⟩
    | approval _ _ _ _ _ _ _ _ _ => exact ⟨_, rfl⟩
  obtain ⟨b', rfl⟩ := hw
  refine ⟨c, ⟨c', l'⟩, path, b', ?_, ?_, he⟩
  · show (ClientCli.quiet _ _).state = _
    rw [ClientCli.quiet_state]
    exact congrArg Client.Out.state h1
  · refine k1.mpr ⟨.nothing, ?_⟩
    unfold ClientCli.quiet
    rw [Client.Run.bind_result, g1]
    rfl

end Qos.Yubi
