import Verif.Props.ClientWrites
/-!
# C65 for the client built with smartcard support
-/
namespace Qos.Yubi
open Parser HostCli ClientCli
open Client (Setting Only pathJoin)

variable {D : Type} {items : List Item} {prog : String} {args : List String}

theorem only_openHolder {W : String → Prop} (C : Setting (Plugged D)) (P : Piv D) (prompt : Option Bytes) (sg : Signer) :
    Only W (openHolder C P prompt sg) := by
  cases sg with
  | file path => exact Only.bind (Only.lift _) fun _ => Only.pure _
  | yubikey pin => exact Only.bind (Only.openCard _ _) fun _ => Only.bind (Only.lift _) fun _ => Only.pure _

theorem only_sign {W : String → Prop} (p : Prims) (der : Bytes → Option Bytes) (P : Piv D) (data : Bytes) (h : Holder) :
    Only W (h.sign p der P data) := by
  cases h with
  | pair k => exact Only.pure _
  | yubi pin => exact Only.onCard _ _

theorem only_decrypt {W : String → Prop} (p : Prims) (P : Piv D) (data : Bytes) (h : Holder) : Only W (h.decrypt p P data) := by
  cases h with
  | pair k => exact Only.lift _
  | yubi pin =>
    exact Only.bind (Only.onCard _ _) fun _ => Only.bind (Only.onCard _ _) fun _ => Only.bind (Only.lift _) fun _ => Only.lift _

theorem only_publicKey {W : String → Prop} (p : Prims) (P : Piv D) (h : Holder) : Only W (h.publicKeyBytes p P) := by
  cases h with
  | pair k => exact Only.pure _
  | yubi pin => exact Only.onCard _ _

theorem execute_only (C : Setting (Plugged D)) (o : Outside (Plugged D)) (der : Bytes → Option Bytes) (P : Piv D)
    (prompt : Option Bytes) (x : Call) (ha : Asks items x) : Only (MayWrite x.command items) (execute C o der P prompt x) := by
  cases x with
  | afterGenesis sg a =>
    exact Only.bind (only_openHolder _ _ _ _) fun _ => Only.quiet <| Only.bind (Only.lift _) fun _ =>
      Only.bind (only_publicKey _ _ _) fun _ => Only.bind (Only.lift _) fun _ => Only.bind (only_decrypt _ _ _ _) fun _ =>
      Only.bind (Only.lift _) fun _ => Only.write C _ (file_output (n := "share-path") (by simp [outputs, Call.command]) ha.2.1)
  | approveManifest sg a =>
    exact Only.bind (only_openHolder _ _ _ _) fun _ => Only.quiet <| Only.bind (Only.lift _) fun m =>
      Only.bind (Only.confirm _ _ _) fun _ => Only.bind (only_sign _ _ _ _ _) fun _ => Only.bind (only_publicKey _ _ _) fun _ =>
      Only.write C _ (inside_output (approval_inside m ha.2.2.2.2.2.2.2.2.2.2.1) ha.2.2.1)
  | proxyReEncryptShare sg a =>
    exact Only.bind (only_openHolder _ _ _ _) fun _ => Only.quiet <| Only.bind (Only.lift _) fun _ =>
      Only.bind (only_publicKey _ _ _) fun _ => Only.bind (Only.lift _) fun _ => Only.bind (Only.confirm _ _ _) fun _ =>
      Only.bind (Only.orPanic (only_decrypt _ _ _ _)) fun _ => Only.bind (Only.lift _) fun _ =>
      Only.bind (Only.orPanic (only_sign _ _ _ _ _)) fun _ =>
      Only.bind (Only.write _ _ (file_output (n := "approval-path") (by simp [outputs, Call.command]) ha.2.2.2.1)) fun _ =>
      Only.write _ _ (file_output (n := "eph-wrapped-share-path") (by simp [outputs, Call.command]) ha.2.2.2.2.1)
  | provisionYubikey pub =>
    exact Only.quiet <| Only.bind (Only.openCard _ _) fun _ => Only.bind (Only.lift _) fun _ => Only.bind (Only.onCard _ _) fun _ =>
      Only.bind (Only.onCard _ _) fun _ => Only.bind (Only.onCard _ _) fun _ =>
      Only.write _ _ (file_output (n := "pub-path") (by simp [outputs, Call.command]) ha)
  | advancedProvisionYubikey seed pin =>
    exact Only.quiet <| Only.bind (Only.openCard _ _) fun _ => Only.bind (Only.lift _) fun _ => Only.bind (Only.lift _) fun _ =>
      Only.bind (Only.onCard _ _) fun _ => Only.bind (Only.onCard _ _) fun _ => Only.bind (Only.onCard _ _) fun _ => Only.lift _
  | yubikeySign payload =>
    exact Only.bind (Only.bind (Only.lift _) fun _ => Only.bind (only_openHolder _ _ _ _) fun _ =>
      Only.bind (only_sign _ _ _ _ _) fun _ => Only.pure _) fun _ => Only.pure _
  | yubikeyPublic =>
    exact Only.bind (Only.bind (Only.openCard _ _) fun _ => Only.bind (Only.onCard _ _) fun _ => Only.pure _) fun _ => Only.pure _
  | yubikeyChangePin current new =>
    exact Only.quiet <| Only.bind (Only.lift _) fun _ => Only.bind (Only.lift _) fun _ => Only.bind (Only.openCard _ _) fun _ =>
      Only.onCard _ _
  | yubikeyPivReset => exact Only.quiet <| Only.bind (Only.openCard _ _) fun _ => Only.onCard _ _
  | _ => exact ClientCli.execute_only C o _ ha

/-- C65: the same for the client with smartcard support, whatever the card does. -/
theorem writes_only (C : Setting (Plugged D)) (o : Outside (Plugged D)) (der : Bytes → Option Bytes) (P : Piv D)
    (prompt : Option Bytes) (s : Plugged D) (c : Command) (path : String) (b : Bytes)
    (h : .wrote path b ∈ (program C o der P prompt (prog :: c.name :: args) s).events) :
    ∃ items, args = words items ∧ Follows c items ∧ MayWrite c items path := by
  unfold program at h
  cases hc : client (prog :: c.name :: args) with
  | help => rw [hc] at h; cases h
  | version => rw [hc] at h; cases h
  | panics => rw [hc] at h; cases h
  | runs x =>
    rw [hc] at h
    obtain ⟨hn, -, -, items, hw, hf, ha⟩ := (client_exact x).mp hc
    have hxc : x.command = c := name_inj hn.symm
    have := execute_only C o der P prompt x ha s path b h
    rw [hxc] at this hf
    exact ⟨items, hw, hf, this⟩

end Qos.Yubi
