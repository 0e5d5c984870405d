import Verif.Props.YubikeyCommands
import Verif.Props.YubikeyToy
/-!
# A card's life at the command line

The theorems of Props/YubikeyCommands.lean apply: a card out of the box gets the seed of a toy member, a new PIN, and signs.
-/
namespace Qos.Yubi
open Client (Disk Setting Run toyPair toyPair_ok toySetting)
open ClientCli (Outside Call Shown)
open P256 (Pair Public toyPrims toyLaws)

/-- A seed and two PINs. -/
def pinDisk : Disk where
  file q := if q = "seed" then some (toyPair 1).toMasterSeedHex else if q = "pin" then some (ascii "123456\n")
    else if q = "new" then some (ascii "987654\r\n") else none
  dir _ := none
  writable _ := true

/-- The operator. -/
def pinSetting : Setting (Plugged Card) where
  prims := toyPrims
  pki := toySetting.pki
  awsRoot := [1, 2]
  now := 5
  rand := toySetting.rand
  disk := pinDisk
  net s _ := (s, none)

theorem pin_text : ∃ b, pinDisk.file "pin" = some b ∧ PinFile b (ascii "123456") :=
  ⟨_, rfl, by decide, .inr ⟨ascii "123456", [], by decide, by decide, ⟨"123456", utf8Decode_utf8 "123456"⟩,
    .inr ⟨rfl, by decide⟩⟩⟩

theorem new_text : ∃ b, pinDisk.file "new" = some b ∧ PinFile b (ascii "987654") :=
  ⟨_, rfl, by decide, .inr ⟨ascii "987654\r", [], by decide, by decide, ⟨"987654\r", utf8Decode_utf8 "987654\r"⟩,
    .inl (by decide)⟩⟩

open ClientCli in
theorem import_line : client ["qos_client", "advanced-provision-yubikey", "--master-seed-path", "seed", "--current-pin-path", "pin"] =
    .runs (.advancedProvisionYubikey "seed" (some "pin")) := by
  refine client_runs (c := .advancedProvisionYubikey) (items := [.value "master-seed-path" "seed", .value "current-pin-path" "pin"]) rfl
    (follows_of (by simp [Belongs, needs, may]) (by decide) (by decide) (by decide)) ?_
  exact ⟨by simp [HostCli.Says], fun v => by simp [HostCli.Says, eq_comm]⟩

open ClientCli in
theorem change_line : client ["qos_client", "yubikey-change-pin", "--new-pin-path", "new", "--current-pin-path", "pin"] =
    .runs (.yubikeyChangePin "pin" "new") := by
  refine client_runs (c := .yubikeyChangePin) (items := [.value "new-pin-path" "new", .value "current-pin-path" "pin"]) rfl
    (follows_of (by simp [Belongs, needs, may]) (by decide) (by decide) (by decide)) ?_
  exact ⟨by simp [HostCli.Says], by simp [HostCli.Says]⟩

open ClientCli in
theorem sign_line : client ["qos_client", "yubikey-sign", "--payload", "00ff"] = .runs (.yubikeySign "00ff") := by
  refine client_runs (c := .yubikeySign) (items := [.value "payload" "00ff"]) rfl
    (follows_of (by simp [Belongs, needs, may]) (by decide) (by decide) (by decide)) ?_
  show HostCli.Says _ _ _
  simp [HostCli.Says]

/-- C71: a card out of the box, with the factory's PIN, is given the seed of a toy member, then a new PIN, and then signs the two
bytes `00 ff` when the new PIN is typed in; the signature is one by the member's signing key. -/
theorem toy_card_life : ∃ (s1 s2 s3 : Plugged Card) (sig : Bytes),
    program pinSetting agreeable toyDer (Card.piv toyMaker) none
      ["qos_client", "advanced-provision-yubikey", "--master-seed-path", "seed", "--current-pin-path", "pin"] ⟨Card.factory 0, []⟩ =
      ⟨.ok .nothing, s1, []⟩ ∧
    program pinSetting agreeable toyDer (Card.piv toyMaker) none
      ["qos_client", "yubikey-change-pin", "--new-pin-path", "new", "--current-pin-path", "pin"] s1 = ⟨.ok .nothing, s2, []⟩ ∧
    program pinSetting agreeable toyDer (Card.piv toyMaker) (some (ascii "987654")) ["qos_client", "yubikey-sign", "--payload", "00ff"] s2 =
      ⟨.ok (.text (Hex.encode sig)), s3, []⟩ ∧
    toyPrims.ecdsaVerify (toyPrims.point (toyPair 1).signSecret) [0, 255] sig = true := by
  have hpair := toyPair_ok 1 (by decide)
  have hfile : Client.pairFromFile toyPrims pinDisk "seed" = .ok (toyPair 1) := by
    refine Client.pairFromFile_ok.mpr ⟨(toyPair 1).toMasterSeedHex, rfl, Client.seedText_iff.mp ?_⟩
    have hs : (toyPair 1).seed = List.replicate 32 1 := P256.pair_seed _ _ _ hpair
    rw [P256.hex_file_roundtrip _ _ (by rw [hs]; rfl), hs]
    exact hpair
  obtain ⟨c1, l1, h1, u1⟩ := import_command pinSetting toyMaker toyLaws agreeable (factory_accepts 0) rfl (fun _ => rfl)
    (pinPath := some "pin") (prompt := none) pin_text hfile import_line []
  obtain ⟨c2, l2, h2, -, k2, z2⟩ := change_pin_command pinSetting toyMaker agreeable u1.1.2.2 (prompt := none) pin_text new_text change_line l1
  obtain ⟨h2, a2⟩ := h2 u1.1
  have u2 : c2.Usable toyPrims (ascii "987654") (toyPair 1).signSecret (toyPair 1).encSecret :=
    ⟨a2, by rw [k2]; exact u1.2.1, by rw [k2]; exact u1.2.2.1, by rw [z2]; exact u1.2.2.2.1, by rw [z2]; exact u1.2.2.2.2⟩
  obtain ⟨sig, c3, l3, h3, -, hv, -⟩ := sign_command pinSetting toyMaker toyLaws toyDer_ok agreeable u2
    (P256.pair_scalars _ _ _ hpair).2 (payload := "00ff") (data := [0, 255]) (by decide +kernel) sign_line l2
  exact ⟨⟨c1, l1⟩, ⟨c2, l2⟩, ⟨c3, l3⟩, sig, h1, h2, h3, hv⟩

end Qos.Yubi
