import Verif.Props.YubikeyToy
import Verif.Props.ClientProxyCommand
/-!
# C64: a share re-encrypted with a card

The share holder of `Props/ClientProxyCommand.lean` with the seed on a toy card. The run meets the hypotheses of
`proxy_safe_card` and of `card_replaces_key_file`.
-/
namespace Qos.Yubi
open P256 (Pair Public toyPrims toyLaws)
open Client (Setting toyPair toyPair_ok toySetting deployEnvelope deployRole deploy_approved toyRand_ok)
open ClientCli (holderSetting holderArgs toy_holder says_yes)

/-- Nobody to talk to, and a holder who agrees to everything. -/
def agreeing : ClientCli.Outside (Plugged Card) :=
  ⟨fun _ s _ => (s, none), fun _ s => (s, none), List.replicate 4 "yes", [], fun _ _ => 0, ⟨[], fun _ _ => 0, ⟨[], []⟩, ⟨[], []⟩⟩⟩

theorem toy_card_proxy : ∃ (C : Setting (Plugged Card)) (c : Card) (l : List (Cmd × Answer)) (w1 w2 : Bytes),
    C.prims = toyPrims ∧ c.Usable C.prims (ascii "123456") (toyPair 1).signSecret (toyPair 1).encSecret ∧
    .wrote "approval" w1 ∈ (execute C agreeing toyDer (Card.piv toyMaker) (some (ascii "123456"))
      (.proxyReEncryptShare (.yubikey none) holderArgs) ⟨c, l⟩).events ∧
    .wrote "wrapped" w2 ∈ (execute C agreeing toyDer (Card.piv toyMaker) (some (ascii "123456"))
      (.proxyReEncryptShare (.yubikey none) holderArgs) ⟨c, l⟩).events := by
  obtain ⟨setup, der, env, enc, h⟩ := toy_holder (Plugged Card)
  have hfile : Client.pairFromFile (holderSetting (Plugged Card) der env enc).prims (holderSetting (Plugged Card) der env enc).disk
      "seed" = .ok (toyPair 1) := Client.pairFromFile_ok.mpr h.seed
  obtain ⟨c', l', h1, hu⟩ := import_works (holderSetting (Plugged Card) der env enc) toyMaker toyLaws (factory_accepts 0) rfl
    (fun _ => rfl) (seedPath := "seed") (pinPath := none) (prompt := some (ascii "123456")) rfl hfile []
  obtain ⟨g1, w1, w2, g2, g3⟩ := Client.proxy_complete (holderSetting (Plugged Card) der env enc) toyLaws toyRand_ok (toyPair 1)
    holderArgs agreeing.input ⟨c', l'⟩ rfl rfl deployEnvelope der enc [1, 2, 3] deployRole
    (setup.publicKey toyPrims).toBytes (setup.publicKey toyPrims) h.envelope rfl h.share (by decide) rfl h.genuine h.key
    deploy_approved h.set h.member (Nat.le_refl 4) says_yes (fun _ => rfl)
  obtain ⟨k1, k2, -, -⟩ := card_replaces_key_file (C := holderSetting (Plugged Card) der env enc) toyMaker toyLaws toyDer_ok agreeing
    (pinPath := none) (prompt := some (ascii "123456")) rfl hfile hu (.proxyReEncryptShare holderArgs) l' ⟨c', l'⟩
  have hrun : ClientCli.execute (holderSetting (Plugged Card) der env enc) agreeing (.proxyReEncryptShare (.file "seed") holderArgs)
      ⟨c', l'⟩ = ClientCli.quiet (Client.proxyReEncryptShare (holderSetting (Plugged Card) der env enc) (toyPair 1) holderArgs
        agreeing.input) ⟨c', l'⟩ := by
    rw [ClientCli.execute_proxy,
      Client.Run.lift_ok (x := ClientCli.openSigner (holderSetting (Plugged Card) der env enc) (.file "seed")) hfile]
  rw [hrun, ClientCli.quiet_events] at k2
  obtain ⟨e1, he1, hal1⟩ := alike_mem k2 g2
  obtain ⟨e2, he2, hal2⟩ := alike_mem k2 g3
  have hw1 : ∃ b', e1 = .wrote holderArgs.approvalPath b' := by
    cases hal1 with
    | same _ => exact ⟨w1, rfl⟩
    | approval _ _ _ _ _ _ _ _ _ => exact ⟨_, rfl⟩
  have hw2 : ∃ b', e2 = .wrote holderArgs.wrappedPath b' := by
    cases hal2 with
    | same _ => exact ⟨w2, rfl⟩
    | approval _ _ _ _ _ _ _ _ _ => exact ⟨_, rfl⟩
  obtain ⟨b1, rfl⟩ := hw1
  obtain ⟨b2, rfl⟩ := hw2
  exact ⟨holderSetting (Plugged Card) der env enc, c', l', b1, b2, rfl, hu, he1, he2⟩

end Qos.Yubi
