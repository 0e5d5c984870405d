import Verif.Props.Prompts
import Verif.Props.ClientProxyCommand
import Verif.Props.ClientCommandToy
/-!
# Concrete screens

The hypotheses of C79 are met: two members of the toy set approve the toy manifest in front of the same screen, and a holder hands
over a share. Some prompts, spelled out.
-/
namespace Qos.Client
open P256 (toyPrims toyLaws)

/-- What is to be approved. -/
def approver : ApproveArgs :=
  ⟨"manifest", "approvals", "release", "role", "pivot.hash", "quorum.pub", "set", "set", none, "me", false⟩

/-- Two operators with different keys see the same screen and both approve. -/
theorem toy_same_screen (odd : Char → Bool) : ∃ (C : Setting Unit) (a a' : ApproveArgs) (input : List String) (pair pair' : P256.Pair)
    (path path' : String) (contents contents' : Bytes), pair ≠ pair' ∧ a.places = a'.places ∧ a.autoConfirm = false ∧
    a'.autoConfirm = false ∧
    .wrote path contents ∈ (approveManifest C pair a input ()).events ∧
    .wrote path' contents' ∈ (approveManifest C pair' a' input ()).events ∧
    screen odd (approveManifest C pair a input ()).events = screen odd (approveManifest C pair' a' input ()).events ∧
    screen odd (approveManifest C pair a input ()).events ≠ [] := by
  obtain ⟨c, m, -, hread, hmatch, -, -⟩ := toy_generated
  let C : Setting Unit := ⟨toyPrims, (toySetting).pki, [1, 2], 5, toySetting.rand, ClientCli.seedDisk c, fun s _ => (s, none)⟩
  have hm : ManifestIn C.disk approver.manifestPath (.v2 m) := ⟨c, rfl, hread⟩
  have hl : LocalMatch C.prims C.awsRoot C.disk approver.places (.v2 m) :=
    LocalMatch.mono (ClientCli.seedDisk_extends c) hmatch
  have hy : ∀ l ∈ List.replicate 8 "yes", IsYes l := by
    intro l hl
    rw [List.eq_of_mem_replicate hl]
    show P256.trim "yes" ∈ _
    decide +kernel
  have run := fun pair => approve_complete C pair approver (List.replicate 8 "yes") () (.v2 m) hm hl (Nat.le_refl 8) hy
    (fun _ => rfl)
  obtain ⟨-, p1, c1, h1⟩ := run (toyPair 1)
  obtain ⟨-, p2, c2, h2⟩ := run (toyPair 2)
  have shown : ∀ pair, screen odd (approveManifest C pair approver (List.replicate 8 "yes") ()).events =
      screen odd (interview (approveQuestions (.v2 m)) (List.replicate 8 "yes")).2 := by
    intro pair
    unfold approveManifest
    rw [Run.lift_ok ((approveChecks_iff C approver (.v2 m)).mpr ⟨hm, hl⟩), confirm_bind, if_neg (by decide),
      if_pos (interview_yes (approveQuestions (.v2 m)) (List.replicate 8 "yes") (Nat.le_refl 8) hy)]
    unfold write
    rw [if_pos (show C.disk.writable _ = true from rfl)]
    show screen odd (_ ++ _) = _
    rw [screen_append]
    exact List.append_nil _
  refine ⟨C, approver, approver, List.replicate 8 "yes", toyPair 1, toyPair 2, p1, p2, c1, c2, ?_, rfl, rfl, rfl, h1, h2,
    (shown _).trans (shown _).symm, ?_⟩
  · intro h
    have hs := congrArg (·.seed) h
    have s1 : (toyPair 1).seed = List.replicate 32 1 := P256.pair_seed _ _ _ (toyPair_ok 1 (by decide))
    have s2 : (toyPair 2).seed = List.replicate 32 2 := P256.pair_seed _ _ _ (toyPair_ok 2 (by decide))
    simp only [s1, s2] at hs
    exact absurd hs (by decide)
  · intro h
    have ht := screen_texts odd (interview_confirmed _ _ (interview_yes (approveQuestions (.v2 m)) (List.replicate 8 "yes") (Nat.le_refl 8) hy))
    rw [shown] at h
    rw [h] at ht
    exact absurd ht (by simp [texts, approveQuestions])

/-- `same_screen_same_share` applies: a holder hands over a share. -/
theorem toy_share_shown : ∃ (C : Setting Unit) (pair : P256.Pair) (a : ProxyArgs) (input : List String) (path : String) (contents : Bytes),
    a.autoConfirm = false ∧ .wrote path contents ∈ (proxyReEncryptShare C pair a input ()).events := by
  obtain ⟨setup, der, env, enc, h⟩ := ClientCli.toy_holder Unit
  obtain ⟨-, w1, w2, -, g3⟩ := proxy_complete (ClientCli.holderSetting Unit der env enc) toyLaws toyRand_ok (toyPair 1)
    ClientCli.holderArgs (List.replicate 4 "yes") () rfl rfl deployEnvelope der enc [1, 2, 3] deployRole
    (setup.publicKey toyPrims).toBytes (setup.publicKey toyPrims) h.envelope rfl h.share (by decide) rfl h.genuine h.key
    deploy_approved h.set h.member (Nat.le_refl 4) ClientCli.says_yes (fun _ => rfl)
  exact ⟨_, _, _, _, _, _, rfl, g3⟩

/-- Arguments with a quote, a backslash and a line break, as shown. -/
example : promptText (fun _ => false) (.pivotArgs ["a\"b", "c\\d", "e\nf"]) =
    "Are these the correct pivot args:\n[\"a\\\"b\", \"c\\\\d\", \"e\\nf\"]?\n(y/n)".toList := by decide +kernel

/-- A control character is shown by its number. -/
example : debugText (fun _ => true) "\x07" = "\"\\u{7}\"".toList := by decide +kernel

/-- Bridges of both kinds. -/
example : debugList (debugBridge (fun _ => false)) [.server 3000 "0.0.0.0", .client 3001 none] =
    "[Server { port: 3000, host: \"0.0.0.0\" }, Client { port: 3001, host: None }]".toList := by decide +kernel

example : promptText (fun _ => false) (.namespaceNonce 4294967295) =
    "Is this the correct namespace nonce: 4294967295? (y/n)".toList := by decide +kernel

/-- An operator who dithers sees the question once and the reminder twice. -/
example : screen (fun _ => false) [.asked (.namespaceNonce 7) ["maybe", "hm", "y"]] =
    ["Is this the correct namespace nonce: 7? (y/n)".toList, reminder, reminder] := by decide +kernel

end Qos.Client
