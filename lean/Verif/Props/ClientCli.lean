import Verif.Lemmas.ClientCli
import Mathlib.Tactic.Tauto
/-!
# C58: the operator's command line runs what it says

Concrete cases: `toy_boot_command`, `toy_approve_command`, `toy_proxy_command`.
-/
namespace Qos.ClientCli
open Parser HostCli

variable {items : List Item} {m : TokenMap}

/-- The result belongs to the command. -/
def Of (c : Command) (o : Option Call) : Prop := ∀ x, o = some x → x.command = c

theorem Of.bind {c : Command} {α : Type} {o : Option α} {f : α → Option Call} (h : ∀ a, Of c (f a)) : Of c (o >>= f) := by
  intro x hx
  cases o with
  | none => cases hx
  | some a => exact h a x hx

theorem Of.pure {c : Command} {x : Call} (h : x.command = c) : Of c (pure x) := by
  intro y hy
  cases hy
  exact h

theorem Of.some {c : Command} {x : Call} (h : x.command = c) : Of c (some x) := Of.pure h

theorem of_call (c : Command) : Of c (call m c) := by
  cases c <;> unfold call
  all_goals first
    | unfold bootGenesisCall
    | unfold afterGenesisCall
    | unfold generateManifestCall
    | unfold approveManifestCall
    | unfold proxyCall
    | unfold devBootCall
    | skip
  all_goals
    repeat (refine Of.bind fun _ => ?_)
    first | exact Of.pure rfl | exact Of.some rfl

theorem some_bind {α β : Type} {o : Option α} {f : α → Option β} {b : β} (h : (o >>= f) = some b) :
    ∃ a, o = some a ∧ f a = some b := Option.bind_eq_some_iff.mp h

theorem bind_some {α β : Type} {o : Option α} {f : α → Option β} {a : α} (h : o = some a) : (o >>= f) = f a := by
  rw [h]
  rfl

theorem call_iff (x : Call) (h : Got x.command items m) : call m x.command = some x ↔ Asks items x := by
  cases x with
  | hostHealth url =>
    simp only [Call.command, call, Asks] at h ⊢
    rw [← h.url _ _ (by decide)]
    simp [Option.bind_eq_some_iff]
  | enclaveStatus url =>
    simp only [Call.command, call, Asks] at h ⊢
    rw [← h.url _ _ (by decide)]
    simp [Option.bind_eq_some_iff]
  | enclaveVersion url =>
    simp only [Call.command, call, Asks] at h ⊢
    rw [← h.url _ _ (by decide)]
    simp [Option.bind_eq_some_iff]
  | generateFileKey a b =>
    simp only [Call.command, call, Asks] at h ⊢
    rw [← h.said _ (by decide), ← h.said _ (by decide)]
    simp [Option.bind_eq_some_iff]
  | generateManifestEnvelope a b o =>
    simp only [Call.command, call, Asks] at h ⊢
    rw [← h.said _ (by decide), ← h.said _ (by decide), ← h.maybe _ (by decide)]
    simp [Option.bind_eq_some_iff]
  | bootGenesis url a =>
    cases a
    simp only [Call.command, call, Asks, bootGenesisCall] at h ⊢
    rw [← h.url _ _ (by decide), ← h.said _ (by decide), ← h.said _ (by decide), ← h.said _ (by decide), ← h.said _ (by decide), ← h.switch _ (by decide), ← h.maybe _ (by decide)]
    simp [Option.bind_eq_some_iff]
  | afterGenesis s a =>
    cases a
    simp only [Call.command, call, Asks, afterGenesisCall] at h ⊢
    rw [← h.signer _ (by decide), ← h.said _ (by decide), ← h.said _ (by decide), ← h.said _ (by decide), ← h.said _ (by decide), ← h.said _ (by decide), ← h.switch _ (by decide), ← h.time (by decide)]
    simp [Option.bind_eq_some_iff]
    tauto
  | verifyGenesis a b =>
    simp only [Call.command, call, Asks] at h ⊢
    rw [← h.said _ (by decide), ← h.said _ (by decide)]
    simp [Option.bind_eq_some_iff]
  | approveManifest s a =>
    cases a
    simp only [Call.command, call, Asks, approveManifestCall] at h ⊢
    rw [← h.signer _ (by decide), ← h.said _ (by decide), ← h.said _ (by decide), ← h.said _ (by decide), ← h.said _ (by decide), ← h.said _ (by decide), ← h.said _ (by decide), ← h.said _ (by decide), ← h.said _ (by decide), ← h.maybe _ (by decide), ← h.said _ (by decide), ← h.switch _ (by decide)]
    simp [Option.bind_eq_some_iff]
    tauto
  | bootStandard url a =>
    cases a
    simp only [Call.command, call, Asks] at h ⊢
    rw [← h.url _ _ (by decide), ← h.said _ (by decide), ← h.said _ (by decide), ← h.said _ (by decide), ← h.switch _ (by decide)]
    simp [Option.bind_eq_some_iff]
  | getAttestationDoc url a b =>
    simp only [Call.command, call, Asks] at h ⊢
    rw [← h.url _ _ (by decide), ← h.said _ (by decide), ← h.said _ (by decide)]
    simp [Option.bind_eq_some_iff]
  | getEphemeralKeyHex a b =>
    simp only [Call.command, call, Asks] at h ⊢
    rw [← h.said _ (by decide), ← h.said _ (by decide)]
    simp [Option.bind_eq_some_iff]
  | proxyReEncryptShare s a =>
    cases a
    simp only [Call.command, call, Asks, proxyCall] at h ⊢
    rw [← h.signer _ (by decide), ← h.said _ (by decide), ← h.said _ (by decide), ← h.said _ (by decide), ← h.said _ (by decide), ← h.said _ (by decide), ← h.said _ (by decide), ← h.said _ (by decide), ← h.said _ (by decide), ← h.switch _ (by decide), ← h.maybe _ (by decide), ← h.switch _ (by decide)]
    simp [Option.bind_eq_some_iff]
    tauto
  | postShare url a b =>
    simp only [Call.command, call, Asks] at h ⊢
    rw [← h.url _ _ (by decide), ← h.said _ (by decide), ← h.said _ (by decide)]
    simp [Option.bind_eq_some_iff]
  | provisionYubikey a =>
    simp only [Call.command, call, Asks] at h ⊢
    rw [← h.said _ (by decide)]
    simp [Option.bind_eq_some_iff]
  | advancedProvisionYubikey a o =>
    simp only [Call.command, call, Asks] at h ⊢
    rw [← h.said _ (by decide), ← h.maybe _ (by decide)]
    simp [Option.bind_eq_some_iff]
  | pivotHash a b =>
    simp only [Call.command, call, Asks] at h ⊢
    rw [← h.said _ (by decide), ← h.said _ (by decide)]
    simp [Option.bind_eq_some_iff]
  | shamirSplit a t k d =>
    simp only [Call.command, call, Asks] at h ⊢
    rw [← h.said _ (by decide), ← h.number _ _ _ (by decide), ← h.number _ _ _ (by decide), ← h.said _ (by decide)]
    simp [Option.bind_eq_some_iff]
    intro _
    constructor
    · rintro ⟨x, h1, h2, y, h3, h4, h5⟩; exact ⟨⟨x, h1, h2⟩, ⟨y, h3, h4⟩, h5⟩
    · rintro ⟨⟨x, h1, h2⟩, ⟨y, h3, h4⟩, h5⟩; exact ⟨x, h1, h2, y, h3, h4, h5⟩
  | shamirReconstruct l a =>
    simp only [Call.command, call, Asks] at h ⊢
    rw [← h.many _ (by decide), ← h.said _ (by decide)]
    simp [Option.bind_eq_some_iff]
  | yubikeySign a =>
    simp only [Call.command, call, Asks] at h ⊢
    rw [← h.said _ (by decide)]
    simp [Option.bind_eq_some_iff]
  | yubikeyPublic =>
    simp only [Call.command, call, Asks]
  | yubikeyPivReset =>
    simp only [Call.command, call, Asks]
  | yubikeyChangePin a b =>
    simp only [Call.command, call, Asks] at h ⊢
    rw [← h.said _ (by decide), ← h.said _ (by decide)]
    simp [Option.bind_eq_some_iff]
  | display t a b =>
    simp only [Call.command, call, Asks] at h ⊢
    rw [← h.type (by decide), ← h.said _ (by decide), ← h.switch _ (by decide)]
    simp [Option.bind_eq_some_iff]
    constructor
    · rintro ⟨x, h1, h2, h3⟩; exact ⟨⟨x, h1, h2⟩, h3⟩
    · rintro ⟨⟨x, h1, h2⟩, h3⟩; exact ⟨x, h1, h2, h3⟩
  | jsonToBorsh t a b =>
    simp only [Call.command, call, Asks] at h ⊢
    rw [← h.type (by decide), ← h.said _ (by decide), ← h.said _ (by decide)]
    simp [Option.bind_eq_some_iff]
    constructor
    · rintro ⟨x, h1, h2, h3⟩; exact ⟨⟨x, h1, h2⟩, h3⟩
    · rintro ⟨⟨x, h1, h2⟩, h3⟩; exact ⟨x, h1, h2, h3⟩
  | bootKeyFwd url a b d =>
    simp only [Call.command, call, Asks] at h ⊢
    rw [← h.url _ _ (by decide), ← h.said _ (by decide), ← h.said _ (by decide), ← h.said _ (by decide)]
    simp [Option.bind_eq_some_iff]
  | exportKey url a b d =>
    simp only [Call.command, call, Asks] at h ⊢
    rw [← h.url _ _ (by decide), ← h.said _ (by decide), ← h.said _ (by decide), ← h.said _ (by decide)]
    simp [Option.bind_eq_some_iff]
  | injectKey url a =>
    simp only [Call.command, call, Asks] at h ⊢
    rw [← h.url _ _ (by decide), ← h.said _ (by decide)]
    simp [Option.bind_eq_some_iff]
  | p256Verify a b d =>
    simp only [Call.command, call, Asks] at h ⊢
    rw [← h.said _ (by decide), ← h.said _ (by decide), ← h.said _ (by decide)]
    simp [Option.bind_eq_some_iff]
  | p256Sign a b d =>
    simp only [Call.command, call, Asks] at h ⊢
    rw [← h.said _ (by decide), ← h.said _ (by decide), ← h.said _ (by decide)]
    simp [Option.bind_eq_some_iff]
  | p256AsymmetricEncrypt a b d =>
    simp only [Call.command, call, Asks] at h ⊢
    rw [← h.said _ (by decide), ← h.said _ (by decide), ← h.said _ (by decide)]
    simp [Option.bind_eq_some_iff]
  | p256AsymmetricDecrypt a b d x =>
    simp only [Call.command, call, Asks] at h ⊢
    rw [← h.said _ (by decide), ← h.said _ (by decide), ← h.said _ (by decide), ← h.switch _ (by decide)]
    simp [Option.bind_eq_some_iff]
  | generateManifest v2 a =>
    cases a with
    | mk nonce name restart pivotHash release pcr3 shareSet manifestSet patch quorumKey manifest args bs dns debug =>
    simp only [Call.command, Asks] at h ⊢
    rw [← h.number _ _ _ (by decide), ← h.said _ (by decide), ← h.restart (by decide), ← h.said _ (by decide), ← h.said _ (by decide), ← h.said _ (by decide), ← h.said _ (by decide), ← h.said _ (by decide), ← h.maybe _ (by decide), ← h.said _ (by decide), ← h.said _ (by decide), ← h.args (by decide), ← h.bridges (by decide), ← h.resolvers (by decide), ← h.debug (by decide), ← h.version (by decide)]
    show generateManifestCall m = _ ↔ _
    unfold generateManifestCall
    constructor
    · intro e
      obtain ⟨_, a1, e⟩ := some_bind e
      obtain ⟨_, b1, e⟩ := some_bind e
      obtain ⟨_, a2, e⟩ := some_bind e
      obtain ⟨_, a3, e⟩ := some_bind e
      obtain ⟨_, b3, e⟩ := some_bind e
      obtain ⟨_, a4, e⟩ := some_bind e
      obtain ⟨_, a5, e⟩ := some_bind e
      obtain ⟨_, a6, e⟩ := some_bind e
      obtain ⟨_, a7, e⟩ := some_bind e
      obtain ⟨_, a8, e⟩ := some_bind e
      obtain ⟨_, b8, e⟩ := some_bind e
      obtain ⟨_, a9, e⟩ := some_bind e
      obtain ⟨_, a10, e⟩ := some_bind e
      obtain ⟨_, a11, e⟩ := some_bind e
      obtain ⟨_, a12, e⟩ := some_bind e
      obtain ⟨_, a13, e⟩ := some_bind e
      obtain ⟨_, a14, e⟩ := some_bind e
      obtain ⟨_, a15, e⟩ := some_bind e
      cases e
      refine ⟨⟨_, a1, ?_⟩, a2, ⟨_, a3, b3⟩, a4, a5, a6, a9, a10, rfl, a11, a7, ⟨_, a8, b8⟩, a12, a13, a14, a15⟩
      rw [UInt32.toNat_ofNat_of_lt' (parseUnsigned_iff.mp b1).2]
      exact b1
    · rintro ⟨⟨_, a1, b1⟩, a2, ⟨_, a3, b3⟩, a4, a5, a6, a9, a10, a0, a11, a7, ⟨_, a8, b8⟩, a12, a13, a14, a15⟩
      rw [bind_some a1, bind_some b1, bind_some a2, bind_some a3, bind_some b3, bind_some a4, bind_some a5, bind_some a6,
        bind_some a7, bind_some a8, bind_some b8, bind_some a9, bind_some a10, bind_some a11, bind_some a12, bind_some a13,
        bind_some a14, bind_some a15, a0, UInt32.ofNat_toNat]
  | dangerousDevBoot url a =>
    cases a with
    | mk pivot restart args bs eph =>
    simp only [Call.command, Asks] at h ⊢
    rw [← h.url _ _ (by decide), ← h.said _ (by decide), ← h.restart (by decide), ← h.args (by decide), ← h.maybe _ (by decide)]
    have hb : ClientCli.bridges m = some [] := by
      unfold ClientCli.bridges
      rw [(h.undeclared "bridge-config" (by decide +kernel)).1]
    show devBootCall m = _ ↔ _
    unfold devBootCall
    constructor
    · intro e
      obtain ⟨_, a1, e⟩ := some_bind e
      obtain ⟨_, a2, e⟩ := some_bind e
      obtain ⟨_, a3, e⟩ := some_bind e
      obtain ⟨_, b3, e⟩ := some_bind e
      obtain ⟨_, a4, e⟩ := some_bind e
      obtain ⟨_, b4, e⟩ := some_bind e
      obtain ⟨_, a5, e⟩ := some_bind e
      cases e
      rw [hb] at a5
      cases a5
      exact ⟨a1, a2, ⟨_, a3, b3⟩, ⟨_, a4, b4⟩, rfl, rfl⟩
    · rintro ⟨a1, a2, ⟨_, a3, b3⟩, ⟨_, a4, b4⟩, a5, a6⟩
      subst a5
      rw [bind_some a1, bind_some a2, bind_some a3, bind_some b3, bind_some a4, bind_some b4, bind_some hb, a6]

variable {prog name : String} {args : List String}

theorem client_cases (c : Command) (m : TokenMap) (h : parse (register (tokens c)) args = .ok m) :
    client (prog :: c.name :: args) = if Parser.version m then .version else if Parser.help m then .help else
      match call m c with
      | some x => .runs x
      | none => .panics := by
  unfold client parseCommand
  simp only [command_iff.mpr rfl, h]
  rfl

/-- C58: the client runs a call exactly if the first argument names its command and the others are options as this command
wants them, which ask for this call. -/
theorem client_exact (x : Call) : client (prog :: name :: args) = .runs x ↔
    name = x.command.name ∧ "--help" ∉ args ∧ "--version" ∉ args ∧
      ∃ items, args = words items ∧ Follows x.command items ∧ Asks items x := by
  by_cases hn : ∃ c, command name = some c
  · obtain ⟨c, hc⟩ := hn
    have e := command_iff.mp hc
    subst e
    obtain ⟨hv1, hv2, hv3⟩ := help_version (tokens c) args
    by_cases hh : "--help" ∈ args
    · obtain ⟨m, h1, h2, h3⟩ := hv1 hh
      rw [client_cases c m h1]
      simp only [h3, h2, Bool.false_eq_true, if_false, if_true, reduceCtorEq, false_iff]
      exact fun h => h.2.1 hh
    by_cases hv : "--version" ∈ args
    · obtain ⟨m, h1, h2, h3⟩ := hv2 hh hv
      rw [client_cases c m h1]
      simp only [h3, if_true, reduceCtorEq, false_iff]
      exact fun h => h.2.2.1 hv
    constructor
    · intro h
      cases hm : parse (register (tokens c)) args with
      | error e =>
        unfold client parseCommand at h
        simp only [hc, hm, reduceCtorEq] at h
      | ok m =>
        rw [client_cases c m hm] at h
        obtain ⟨h1, h2⟩ := hv3 hh hv m hm
        simp only [h1, h2, Bool.false_eq_true, if_false] at h
        obtain ⟨items, e, hg⟩ := got_parse hh hv hm
        cases hx : call m c with
        | none => rw [hx] at h; cases h
        | some y =>
          rw [hx] at h
          cases h
          have hy := of_call c x hx
          subst hy
          exact ⟨rfl, hh, hv, items, e, hg.follows, (call_iff x hg).mp hx⟩
    · rintro ⟨hc', -, -, items, e, hf, ha⟩
      have hx : x.command = c := by
        have := command_iff.mpr hc'
        rw [hc] at this
        exact (Option.some.inj this).symm
      subst hx
      obtain ⟨m, hm⟩ := (accepts_iff hh hv).mpr ⟨items, e, (acceptable_iff (e ▸ hh) (e ▸ hv)).mpr hf⟩
      obtain ⟨items', e', hg⟩ := got_parse hh hv hm
      have : items' = items := reading_unique ((acceptable_iff (e' ▸ hh) (e' ▸ hv)).mpr hg.follows).fits
        ((acceptable_iff (e ▸ hh) (e ▸ hv)).mpr hf).fits (e'.symm.trans e)
      subst this
      obtain ⟨h1, h2⟩ := hv3 hh hv m hm
      rw [client_cases _ m hm]
      simp only [h1, h2, Bool.false_eq_true, if_false, (call_iff x hg).mpr ha]
  · have hc : command name = none := by
      cases h : command name with
      | none => rfl
      | some c => exact absurd ⟨c, h⟩ hn
    unfold client parseCommand
    simp only [hc, reduceCtorEq, false_iff]
    rintro ⟨h, -⟩
    exact hn ⟨_, command_iff.mpr h⟩

/-- C58: `--help` after a command shows the help; else `--version` shows the version; nothing else does. -/
theorem client_help (c : Command) : (client (prog :: c.name :: args) = .help ↔ "--help" ∈ args) ∧
    (client (prog :: c.name :: args) = .version ↔ "--help" ∉ args ∧ "--version" ∈ args) := by
  obtain ⟨hv1, hv2, hv3⟩ := help_version (tokens c) args
  by_cases hh : "--help" ∈ args
  · obtain ⟨m, h1, h2, h3⟩ := hv1 hh
    rw [client_cases c m h1]
    simp [h2, h3, hh]
  by_cases hv : "--version" ∈ args
  · obtain ⟨m, h1, h2, h3⟩ := hv2 hh hv
    rw [client_cases c m h1]
    simp [h3, hh, hv]
  · cases hm : parse (register (tokens c)) args with
    | error e =>
      unfold client parseCommand
      simp only [command_iff.mpr rfl, hm, reduceCtorEq, hh, hv, not_false_iff, and_false]
      trivial
    | ok m =>
      rw [client_cases c m hm]
      obtain ⟨h1, h2⟩ := hv3 hh hv m hm
      simp only [h1, h2, Bool.false_eq_true, if_false, hh, hv, not_false_iff, and_false, iff_false]
      cases call m c <;> simp

/-- C58: without a command, or with an unknown one, nothing is run, whatever else is said. -/
theorem client_no_command : client [] = .panics ∧ client [prog] = .panics ∧
    ((∀ c : Command, name ≠ c.name) → client (prog :: name :: args) = .panics) := by
  refine ⟨rfl, rfl, fun h => ?_⟩
  have hc : command name = none := by
    cases hx : command name with
    | none => rfl
    | some c => exact absurd (command_iff.mp hx) (h c)
  unfold client parseCommand
  simp only [hc]

end Qos.ClientCli
