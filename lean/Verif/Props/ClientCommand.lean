import Verif.Props.ClientCli
import Verif.Props.HostCli
import Verif.Props.ClientDeploy
import Verif.Props.ClientTools
/-!
# C58: whole runs of the operator's client

Concrete cases: `Props/ClientCommandToy.lean` and `toy_proxy_command` in `Props/ClientProxyCommand.lean`.
-/
namespace Qos.Host

theorem endpointPath_eq (basePath : Option String) (e : String) : endpointPath basePath e = "/" ++ (basePath.getD "qos" ++ e) := by
  cases basePath with
  | none =>
    show "/qos" ++ e = "/" ++ ("qos" ++ e)
    rw [← String.append_assoc]
    rfl
  | some p => exact String.append_assoc ..

theorem path_eq (base : String) (e : Endpoint) : ∃ suffix, e.path base = "/" ++ (base ++ suffix) ∧
    suffix = match e with
      | .hostHealth => "/host-health"
      | .enclaveHealth => "/enclave-health"
      | .message => "/message"
      | .enclaveInfo => "/enclave-info" := by
  cases e <;> exact ⟨_, String.append_assoc .., rfl⟩

theorem append_inj {a b c : String} : "/" ++ (a ++ b) = "/" ++ (a ++ c) ↔ b = c := by
  constructor
  · intro h
    have := congrArg String.toList h
    simp only [String.toList_append, List.append_cancel_left_eq] at this
    exact String.toList_inj.mp this
  · rintro rfl
    rfl

/-- C58: the host serves exactly the four endpoints, each under the base path (`qos` unless told otherwise) with its method. -/
theorem route_exact (basePath : Option String) (method : Method) (path : String) (e : Endpoint) :
    route basePath method path = .served e ↔ path = e.path (basePath.getD "qos") ∧ method = e.method := by
  unfold route routes
  simp only [endpointPath_eq]
  generalize basePath.getD "qos" = b
  have key : ∀ s : String, ("/" ++ (b ++ s) = path) = (path = "/" ++ (b ++ s)) := fun s => propext eq_comm
  by_cases h : ∃ s, path = "/" ++ (b ++ s)
  · obtain ⟨s, rfl⟩ := h
    simp only [List.find?, append_inj]
    obtain ⟨t, ht, hs⟩ := path_eq b e
    rw [ht, append_inj]
    subst hs
    by_cases h1 : "/host-health" = s
    · subst h1
      cases e <;> cases method <;> simp [routed, Endpoint.method]
    by_cases h2 : "/enclave-health" = s
    · subst h2
      cases e <;> cases method <;> simp [routed, Endpoint.method]
    by_cases h3 : "/message" = s
    · subst h3
      cases e <;> cases method <;> simp [routed, Endpoint.method]
    by_cases h4 : "/enclave-info" = s
    · subst h4
      cases e <;> cases method <;> simp [routed, Endpoint.method]
    simp only [h1, h2, h3, h4, decide_false, routed, reduceCtorEq, false_iff]
    rintro ⟨rfl, -⟩
    cases e <;> contradiction
  · have hn : ∀ s, ("/" ++ (b ++ s) = path) = False := fun s => propext ⟨fun h' => h ⟨s, h'.symm⟩, False.elim⟩
    simp only [List.find?, hn, decide_false, routed, reduceCtorEq, false_iff]
    rintro ⟨h', -⟩
    obtain ⟨t, ht, -⟩ := path_eq b e
    exact h ⟨t, h'.trans ht⟩

end Qos.Host

namespace Qos.ClientCli
open Parser HostCli
open Client
open P256 (Pair)

variable {S : Type} {items : List Item} {m : TokenMap} {prog name : String} {args : List String}

/-- A flag of the command line is one of its words. -/
theorem flag_word {n : String} (h : .flag n ∈ items) : "--" ++ n ∈ words items := by
  unfold words
  rw [List.mem_flatMap]
  exact ⟨_, h, List.mem_singleton.mpr rfl⟩

theorem value_word {n v : String} (h : .value n v ∈ items) : "--" ++ n ∈ words items := by
  unfold words
  rw [List.mem_flatMap]
  exact ⟨_, h, List.mem_cons_self⟩

theorem flag_off {n : String} {b : Bool} (h : SaysFlag items n b) (hw : "--" ++ n ∉ words items) : b = false := by
  cases b with
  | false => rfl
  | true => exact absurd (flag_word (h.mp rfl)) hw

theorem value_off {n : String} {o : Option String} (h : SaysMaybe items n o) (hw : "--" ++ n ∉ words items) : o = none := by
  cases o with
  | none => rfl
  | some v => exact absurd (value_word ((h v).mp rfl)) hw

theorem says_once {c : Command} (hf : Follows c items) {n v w : String} (hn : n ≠ "share") (hv : Says items n v)
    (hw : Says items n w) : v = w := by
  have h := hf.once n hn
  have m1 : Item.value n v ∈ items.filter fun i => i.name = n := List.mem_filter.mpr ⟨hv, by simp [Item.name]⟩
  have m2 : Item.value n w ∈ items.filter fun i => i.name = n := List.mem_filter.mpr ⟨hw, by simp [Item.name]⟩
  generalize (items.filter fun i => i.name = n) = l at h m1 m2
  match l, h with
  | [], _ => cases m1
  | [a], _ =>
    rw [List.mem_singleton] at m1 m2
    rw [← m1] at m2
    cases m2
    rfl
  | _ :: _ :: _, h => simp at h

theorem asks_url {x : Call} {url : String} {e : Host.Endpoint} (hx : x.goes = some (url, e)) (ha : Asks items x) :
    ∃ uri, SaysUrl items uri url ∧ ∀ base, e.path base = "/" ++ base ++ "/" ++ uri := by
  have k1 : ∀ base, Host.Endpoint.path base .hostHealth = "/" ++ base ++ "/" ++ "host-health" := fun base => by
    simp only [Host.Endpoint.path, String.append_assoc]
    rfl
  have k2 : ∀ base, Host.Endpoint.path base .message = "/" ++ base ++ "/" ++ "message" := fun base => by
    simp only [Host.Endpoint.path, String.append_assoc]
    rfl
  cases x <;> simp only [Call.goes, Option.some.injEq, Prod.mk.injEq, reduceCtorEq] at hx
  all_goals
    obtain ⟨rfl, rfl⟩ := hx
    simp only [Asks] at ha
  all_goals first
    | exact ⟨_, ha, k1⟩
    | exact ⟨_, ha, k2⟩
    | exact ⟨_, ha.1, k2⟩

/-- C58: a host and a client that are given the same `--host-ip`, `--host-port` and `--endpoint-base-path` meet: the client's
requests go to the host's address, with a path that the host serves with the endpoint they are meant for. -/
theorem client_meets_host {hprog : String} (hp : ¬ ['-', '-'] <+: hprog.toList) {c : HostConfig} {i j : List Item}
    (hh : host (hprog :: words i) = .runs c) (hi : Acceptable hostTokens i) {x : Call}
    (hc : client (prog :: name :: words j) = .runs x) (hj : Follows x.command j)
    (same : ∀ n ∈ ["host-ip", "host-port", "endpoint-base-path"], ∀ v, Says i n v ↔ Says j n v)
    {url : String} {e : Host.Endpoint} (hx : x.goes = some (url, e)) :
    ∃ port path, Number port c.port.toNat ∧ url = "http://" ++ c.ip.text ++ ":" ++ port ++ path ∧
      Host.route c.basePath e.method path = .served e := by
  obtain ⟨-, -, i', ei, hi', ha⟩ := (host_exact hp c).mp hh
  obtain ⟨-, hw, hv, j', ej, hj', hb⟩ := (client_exact x).mp hc
  rw [← reading_unique hi.fits hi'.fits ei] at ha
  rw [← reading_unique ((acceptable_iff hw hv).mpr hj).fits ((acceptable_iff (ej ▸ hw) (ej ▸ hv)).mpr hj').fits ej] at hb
  obtain ⟨uri, ⟨ip', port, base, h1, h2, h3, rfl⟩, hpath⟩ := asks_url hx hb
  obtain ⟨port', h4, h5⟩ := ha.port
  have e1 := says_once hj (by decide) h1 ((same _ (by decide) _).mp ha.ip)
  have e2 := says_once hj (by decide) h2 ((same _ (by decide) _).mp h4)
  have e3 : c.basePath.getD "qos" = base := by
    rcases h3 with h3 | ⟨rfl, h3⟩
    · rw [(ha.basePath base).mpr ((same _ (by decide) _).mpr h3)]
      rfl
    · cases hcb : c.basePath with
      | none => rfl
      | some b => exact absurd ((same _ (by decide) _).mp ((ha.basePath b).mp hcb)) (h3 b)
  subst e1 e2
  refine ⟨port, "/" ++ base ++ "/" ++ uri, h5, ?_, ?_⟩
  · simp only [String.append_assoc]
  · rw [Host.route_exact, e3]
    exact ⟨(hpath base).symm, rfl⟩

theorem writeShares_net (C : Setting S) (net : S → Bytes → S × Option Bytes) (dir : String) (i : Nat) (l : List Bytes) :
    writeShares { C with net := net } dir i l = writeShares C dir i l := by
  induction l generalizing i with
  | nil => rfl
  | cons a l ih =>
    unfold writeShares
    rw [ih]
    rfl

/-- C58: a call contacts no other URL than its own, and none at all if it needs no host: whatever else the network does, the
run is the same. -/
theorem contacts_only (C : Setting S) (o : Outside S) (x : Call) (net : S → Bytes → S × Option Bytes)
    (post : String → S → Bytes → S × Option Bytes) (get : String → S → S × Option Bytes)
    (h : ∀ url e, x.goes = some (url, e) → (e = .message → post url = o.post url) ∧ (e = .hostHealth → get url = o.get url)) :
    execute { C with net := net } { o with post := post, get := get } x = execute C o x := by
  cases x
  case hostHealth url =>
    have := (h url .hostHealth rfl).2 rfl
    unfold execute hostHealth
    simp only [this]
    rfl
  case enclaveStatus url => have := (h url .message rfl).1 rfl; unfold execute at_; simp only [this]
  case enclaveVersion url => have := (h url .message rfl).1 rfl; unfold execute at_; simp only [this]
  case bootGenesis url a => have := (h url .message rfl).1 rfl; unfold execute at_; simp only [this]
  case bootStandard url a => have := (h url .message rfl).1 rfl; unfold execute at_; simp only [this]
  case getAttestationDoc url a b => have := (h url .message rfl).1 rfl; unfold execute at_; simp only [this]
  case postShare url a b => have := (h url .message rfl).1 rfl; unfold execute at_; simp only [this]
  case dangerousDevBoot url a => have := (h url .message rfl).1 rfl; unfold execute at_; simp only [this]
  case bootKeyFwd url a b c => have := (h url .message rfl).1 rfl; unfold execute at_; simp only [this]
  case exportKey url a b c => have := (h url .message rfl).1 rfl; unfold execute at_; simp only [this]
  case injectKey url a => have := (h url .message rfl).1 rfl; unfold execute at_; simp only [this]
  case shamirSplit a b c d =>
    unfold execute shamirSplit
    simp only [writeShares_net]
  all_goals rfl

theorem quiet_events (x : Run S Unit) (s : S) : (quiet x s).events = (x s).events := by
  unfold quiet
  rw [Run.bind_events]
  cases (x s).result <;> simp [pure, Run.pure]

theorem quiet_state (x : Run S Unit) (s : S) : (quiet x s).state = (x s).state := by
  unfold quiet
  rw [Run.bind_state]
  cases (x s).result <;> rfl

theorem quiet_ok {x : Run S Unit} {s : S} {r : Shown} (h : (quiet x s).result = .ok r) : (x s).result = .ok () ∧ r = .nothing := by
  unfold quiet at h
  rw [Run.bind_result] at h
  cases hx : (x s).result with
  | error e => rw [hx] at h; cases h
  | ok a => rw [hx] at h; cases h; exact ⟨rfl, rfl⟩

/-- Anything the program does, it does because of a call that the command line asks for. -/
theorem program_runs (C : Setting S) (o : Outside S) (s : S) {e : Client.Event}
    (h : e ∈ (program C o (prog :: name :: args) s).events) : ∃ x, client (prog :: name :: args) = .runs x ∧
      program C o (prog :: name :: args) = execute C o x := by
  unfold program at h ⊢
  cases hc : client (prog :: name :: args) with
  | help => rw [hc] at h; cases h
  | version => rw [hc] at h; cases h
  | panics => rw [hc] at h; cases h
  | runs x => exact ⟨x, rfl, rfl⟩

/-- C58: asked for help or for its version, the client does nothing and succeeds, whatever else is on the command line. -/
theorem help_only (C : Setting S) (o : Outside S) (s : S) (c : Command) (h : "--help" ∈ args ∨ "--version" ∈ args) :
    program C o (prog :: c.name :: args) s = ⟨.ok .nothing, s, []⟩ := by
  unfold program
  by_cases hh : "--help" ∈ args
  · rw [((client_help c).1).mpr hh]; rfl
  · rw [((client_help c).2).mpr ⟨hh, h.resolve_left hh⟩]; rfl

theorem name_inj {c c' : Command} (h : c.name = c'.name) : c = c' := by
  have := command_iff.mpr h
  rw [command_iff.mpr rfl] at this
  exact Option.some.inj this

theorem execute_approve (C : Setting S) (o : Outside S) (sg : Signer) (a : ApproveArgs) : execute C o (.approveManifest sg a) =
    (Run.lift (openSigner C sg) >>= fun pair => quiet (approveManifest C pair a o.input)) := rfl

theorem execute_proxy (C : Setting S) (o : Outside S) (sg : Signer) (a : ProxyArgs) : execute C o (.proxyReEncryptShare sg a) =
    (Run.lift (openSigner C sg) >>= fun pair => quiet (proxyReEncryptShare C pair a o.input)) := rfl

/-- C58: whatever `approve-manifest` writes, it is one approval, by the key whose seed is in the `--secret-path` file, of the
manifest in the `--manifest-path` file, which agrees with everything the other options name, and which the operator has
confirmed point by point unless `--unsafe-auto-confirm` is among the arguments. -/
theorem approve_command_safe (C : Setting S) (o : Outside S) (hp : C.prims.Laws) (s : S) (path : String) (contents : Bytes)
    (h : .wrote path contents ∈ (program C o (prog :: "approve-manifest" :: args) s).events) :
    ∃ items secret a pair m es, args = words items ∧ Follows .approveManifest items ∧
      Asks items (.approveManifest (.file secret) a) ∧ SeedIn C.prims C.disk secret pair ∧
      ManifestIn C.disk a.manifestPath m ∧ LocalMatch C.prims C.awsRoot C.disk a.places m ∧
      (program C o (prog :: "approve-manifest" :: args) s).events = es ++ [.wrote path contents] ∧
      ("--unsafe-auto-confirm" ∉ args → Reviewed m es) ∧
      ApprovalText C.prims a.memberAlias (pair.publicKey C.prims).toBytes (m.hash C.prims) contents ∧
      (∃ name, IsNameFor a.memberAlias m name ∧ path = pathJoin a.approvalsDir name) ∧
      (program C o (prog :: "approve-manifest" :: args) s).state = s := by
  obtain ⟨x, hx, hr⟩ := program_runs (name := "approve-manifest") C o s h
  obtain ⟨hn, -, -, items, hw, hf, ha⟩ := (client_exact x).mp hx
  have hxc : x.command = .approveManifest := name_inj (c' := .approveManifest) hn.symm
  rw [hr] at h ⊢
  cases x <;> simp only [Call.command, reduceCtorEq] at hxc
  case approveManifest sg a =>
    rw [execute_approve] at h ⊢
    rcases Run.lift_cases (openSigner C sg) (fun pair => quiet (approveManifest C pair a o.input)) s with
      ⟨e, he, hr⟩ | ⟨pair, hk, hr⟩
    · rw [hr] at h
      cases h
    rw [hr] at h ⊢
    rw [quiet_events] at h ⊢
    rw [quiet_state]
    cases sg with
    | yubikey pin => cases hk
    | file secret =>
      have hs := pairFromFile_ok.mp hk
      obtain ⟨c, hc, t, seed, h1, h2, h3⟩ := hs
      obtain ⟨m, es, g1, g2, g3, g4, g5, g6, g7⟩ := approve_safe C hp seed pair h3 a o.input s path contents h
      refine ⟨items, secret, a, pair, m, es, hw, hf, ha, ⟨c, hc, t, seed, h1, h2, h3⟩, g1, g2, g3, fun hq => g4 ?_, g5, g6, g7⟩
      simp only [Asks] at ha
      exact flag_off ha.2.2.2.2.2.2.2.2.2.2.2 (hw ▸ hq)

/-- C58: without the three `--unsafe-` options among the arguments, whatever `proxy-re-encrypt-share` writes is for a genuine
enclave running the manifest in the envelope file, which its manifest set has approved and the operator has confirmed. -/
theorem proxy_command_safe (C : Setting S) (o : Outside S) (hp : C.prims.Laws) (hrand : C.rand.Ok C.prims) (s : S)
    (safe : ∀ w ∈ ["--unsafe-skip-attestation", "--unsafe-eph-path-override", "--unsafe-auto-confirm"], w ∉ args)
    (path : String) (contents : Bytes)
    (h : .wrote path contents ∈ (program C o (prog :: "proxy-re-encrypt-share" :: args) s).events) :
    ∃ items secret a pair e der role key es share approval wrapped, args = words items ∧ Follows .proxyReEncryptShare items ∧
      Asks items (.proxyReEncryptShare (.file secret) a) ∧ SeedIn C.prims C.disk secret pair ∧
      EnvelopeIn C.disk a.envelopePath e ∧
      (∃ enc, C.disk.file a.sharePath = some enc ∧ pair.decrypt C.prims enc = .ok share) ∧
      C.disk.file a.docPath = some der ∧ GenuineDoc C der a.pcr3Path role e.manifest key ∧
      Quorum C.prims (e.manifest.hash C.prims) e.manifest.manifestSet e.manifestSetApprovals ∧
      SetIn C.prims C.disk a.manifestSetDir e.manifest.manifestSet ∧
      ⟨a.memberAlias, (pair.publicKey C.prims).toBytes⟩ ∈ e.manifest.shareSet.members ∧
      ShareReviewed e role es ∧
      ApprovalText C.prims a.memberAlias (pair.publicKey C.prims).toBytes (e.manifest.hash C.prims) approval ∧
      (∀ seed' eph, Pair.fromMasterSeed C.prims seed' = .ok eph → (eph.publicKey C.prims).toBytes = key →
        eph.decrypt C.prims wrapped = .ok share) ∧
      ((program C o (prog :: "proxy-re-encrypt-share" :: args) s).events = es ++ [.wrote a.approvalPath approval] ∨
       (program C o (prog :: "proxy-re-encrypt-share" :: args) s).events =
        es ++ [.wrote a.approvalPath approval, .wrote a.wrappedPath wrapped]) ∧
      (program C o (prog :: "proxy-re-encrypt-share" :: args) s).state = s := by
  obtain ⟨x, hx, hr⟩ := program_runs (name := "proxy-re-encrypt-share") C o s h
  obtain ⟨hn, -, -, items, hw, hf, ha⟩ := (client_exact x).mp hx
  have hxc : x.command = .proxyReEncryptShare := name_inj (c' := .proxyReEncryptShare) hn.symm
  rw [hr] at h ⊢
  cases x <;> simp only [Call.command, reduceCtorEq] at hxc
  case proxyReEncryptShare sg a =>
    rw [execute_proxy] at h ⊢
    rcases Run.lift_cases (openSigner C sg) (fun pair => quiet (proxyReEncryptShare C pair a o.input)) s with
      ⟨e, he, hr⟩ | ⟨pair, hk, hr⟩
    · rw [hr] at h
      cases h
    rw [hr] at h ⊢
    rw [quiet_events] at h ⊢
    rw [quiet_state]
    cases sg with
    | yubikey pin => cases hk
    | file secret =>
      obtain ⟨c, hc, t, seed, h1, h2, h3⟩ := pairFromFile_ok.mp hk
      have ha' := ha
      simp only [Asks] at ha'
      obtain ⟨-, -, -, -, -, -, -, -, -, u1, u2, u3⟩ := ha'
      obtain ⟨e, der, role, key, es, share, approval, wrapped, g⟩ := proxy_safe C hp hrand seed pair h3 a o.input s
        (flag_off u1 (hw ▸ safe _ (by decide))) (value_off u2 (hw ▸ safe _ (by decide))) (flag_off u3 (hw ▸ safe _ (by decide)))
        path contents h
      exact ⟨items, secret, a, pair, e, der, role, key, es, share, approval, wrapped, hw, hf, ha, ⟨c, hc, t, seed, h1, h2, h3⟩, g⟩

/-- C58: without `--unsafe-skip-attestation` among the arguments, `boot-standard` ends well only if the host it was told about
answered with a genuine document of an enclave running the manifest in the envelope file. -/
theorem boot_standard_command_safe (C : Setting S) (o : Outside S) (s : S) (safe : "--unsafe-skip-attestation" ∉ args)
    (asked : "--help" ∉ args ∧ "--version" ∉ args) {r : Shown}
    (h : (program C o (prog :: "boot-standard" :: args) s).result = .ok r) :
    ∃ items url a e pivot cose role key target, args = words items ∧ Follows .bootStandard items ∧
      Asks items (.bootStandard url a) ∧ EnvelopeIn C.disk a.envelopePath e ∧ C.disk.file a.pivotPath = some pivot ∧
      (∃ m b s', (m = .bootStandardJsonEnvelopeRequest e pivot ∨ m = .bootStandardRequest e pivot) ∧
        Wire.toWire m .borsh = .ok b ∧ readAnswer (o.post url s' b).2 = some (.bootStandardResponse (.attestation cose))) ∧
      GenuineDoc C cose a.pcr3Path role e.manifest key ∧ P256.Public.fromBytes C.prims key = .ok target := by
  obtain ⟨x, hx⟩ : ∃ x, client (prog :: "boot-standard" :: args) = .runs x := by
    unfold program at h
    cases hc : client (prog :: "boot-standard" :: args) with
    | help => exact absurd ((client_help .bootStandard).1.mp hc) asked.1
    | version => exact absurd ((client_help .bootStandard).2.mp hc).2 asked.2
    | panics => rw [hc] at h; cases h
    | runs x => exact ⟨x, rfl⟩
  obtain ⟨hn, -, -, items, hw, hf, ha⟩ := (client_exact x).mp hx
  have hxc : x.command = .bootStandard := name_inj (c' := .bootStandard) hn.symm
  unfold program at h
  rw [hx] at h
  cases x <;> simp only [Call.command, reduceCtorEq] at hxc
  case bootStandard url a =>
    have h : (quiet (bootStandard (at_ C o url) a) s).result = .ok r := h
    have ha' := ha
    simp only [Asks] at ha'
    obtain ⟨e, pivot, cose, role, key, target, g1, g2, g3, g4, g5⟩ := boot_standard_safe (at_ C o url) a
      (flag_off ha'.2.2.2.2 (hw ▸ safe)) s (quiet_ok h).1
    exact ⟨items, url, a, e, pivot, cose, role, key, target, hw, hf, ha, g1, g2, g3, ⟨g4.genuine, g4.inFile, g4.pcr3⟩, g5⟩

/-! ## Command lines that work -/

/-- Options that the command knows, no name twice, all needed ones: a command line it follows. -/
theorem follows_of {c : Command} (hb : ∀ i ∈ items, Belongs c i) (hd : (items.map Item.name).Nodup)
    (hn : ∀ n ∈ needs c, n ∈ items.map Item.name)
    (hk : ¬ ("yubikey" ∈ items.map Item.name ∧ "secret-path" ∈ items.map Item.name)) : Follows c items := by
  refine ⟨hb, fun n _ => ?_, fun n h => ?_, ?_⟩
  · clear hb hn hk
    induction items with
    | nil => exact Nat.zero_le _
    | cons i l ih =>
      rw [List.map_cons, List.nodup_cons] at hd
      by_cases h : i.name = n
      · rw [List.filter_cons_of_pos (by simpa using h)]
        have : l.filter (fun i => i.name = n) = [] := by
          rw [List.filter_eq_nil_iff]
          intro j hj hjn
          exact hd.1 (List.mem_map.mpr ⟨j, hj, (of_decide_eq_true hjn).trans h.symm⟩)
        rw [this]
        exact Nat.le_refl _
      · rw [List.filter_cons_of_neg (by simpa using h)]
        exact ih hd.2
  · obtain ⟨i, hi, e⟩ := List.mem_map.mp (hn n h)
    exact ⟨i, hi, e⟩
  · rintro ⟨⟨i, hi, e⟩, j, hj, e'⟩
    exact hk ⟨List.mem_map.mpr ⟨i, hi, e⟩, List.mem_map.mpr ⟨j, hj, e'⟩⟩

/-- A value that is not mistaken for an option. -/
def Plain (v : String) : Prop := ¬ ['-', '-'] <+: v.toList

instance (v : String) : Decidable (Plain v) := inferInstanceAs (Decidable (¬ _))

theorem names_not (c : Command) : ∀ n ∈ ["help", "version"], n ∉ needs c ++ may c ++ switches c := by cases c <;> decide +kernel

theorem option_inj {a b : String} (h : "--" ++ a = "--" ++ b) : a = b := by
  have := congrArg String.toList h
  simp only [String.toList_append, List.append_cancel_left_eq] at this
  exact String.toList_inj.mp this

theorem belongs_words {c : Command} (hb : ∀ i ∈ items, Belongs c i) :
    ∀ n ∈ ["help", "version"], "--" ++ n ∉ words items := by
  intro n hn h
  have hno := names_not c n hn
  simp only [List.mem_append, not_or] at hno
  unfold words at h
  rw [List.mem_flatMap] at h
  obtain ⟨i, hi, hw⟩ := h
  have hbi := hb i hi
  cases i with
  | flag k =>
    rw [option_inj (List.mem_singleton.mp hw)] at hno
    exact hno.2 hbi
  | bare k =>
    rw [option_inj (List.mem_singleton.mp hw)] at hno
    exact hno.1.2 hbi.1
  | value k v =>
    rcases List.mem_cons.mp hw with hw | hw
    · rw [option_inj hw] at hno
      rcases List.mem_append.mp hbi.1 with h | h
      · exact hno.1.1 h
      · exact hno.1.2 h
    · refine hbi.2 ?_
      rw [← List.mem_singleton.mp hw, String.toList_append]
      exact ⟨n.toList, rfl⟩

/-- C58: every command line that follows the command's options and asks for a call runs it. -/
theorem client_runs {x : Call} {c : Command} (hc : x.command = c) (hf : Follows c items) (ha : Asks items x) :
    client (prog :: c.name :: words items) = .runs x := by
  subst hc
  exact (client_exact x).mpr ⟨rfl, belongs_words hf.belongs "help" (by simp), belongs_words hf.belongs "version" (by simp),
    items, rfl, hf, ha⟩

/-- The options of `boot-standard`. -/
def bootItems (host port pivot envelope role : String) : List Item :=
  [.value "host-ip" host, .value "host-port" port, .value "pivot-path" pivot, .value "manifest-envelope-path" envelope,
   .value "pcr3-preimage-path" role]

/-- C58: a plain `boot-standard` command line runs as written. -/
theorem boot_standard_runs {host port pivot envelope role : String} (h1 : Plain host) (h2 : Plain port) (h3 : Plain pivot)
    (h4 : Plain envelope) (h5 : Plain role) :
    client [prog, "boot-standard", "--host-ip", host, "--host-port", port, "--pivot-path", pivot,
      "--manifest-envelope-path", envelope, "--pcr3-preimage-path", role] =
    .runs (.bootStandard ("http://" ++ host ++ ":" ++ port ++ "/qos/message") ⟨pivot, envelope, role, false⟩) := by
  refine client_runs (items := bootItems host port pivot envelope role) (c := .bootStandard) rfl ?_ ?_
  · refine follows_of ?_ ?_ ?_ ?_
    · intro i hi
      simp only [bootItems, List.mem_cons, List.not_mem_nil, or_false] at hi
      rcases hi with rfl | rfl | rfl | rfl | rfl
      · exact ⟨by decide, h1⟩
      · exact ⟨by decide, h2⟩
      · exact ⟨by decide, h3⟩
      · exact ⟨by decide, h4⟩
      · exact ⟨by decide, h5⟩
    · show ["host-ip", "host-port", "pivot-path", "manifest-envelope-path", "pcr3-preimage-path"].Nodup
      decide
    · show ∀ n ∈ needs .bootStandard, n ∈ ["host-ip", "host-port", "pivot-path", "manifest-envelope-path", "pcr3-preimage-path"]
      decide
    · show ¬ ("yubikey" ∈ ["host-ip", "host-port", "pivot-path", "manifest-envelope-path", "pcr3-preimage-path"] ∧ _)
      exact fun h => absurd h.1 (by decide)
  · refine ⟨⟨host, port, "qos", ?_, ?_, .inr ⟨rfl, ?_⟩, ?_⟩, ?_, ?_, ?_, ?_⟩
    · simp [Says, bootItems]
    · simp [Says, bootItems]
    · simp [bootItems, Silent]
    · simp only [String.append_assoc]
      rfl
    · simp [Says, bootItems]
    · simp [Says, bootItems]
    · simp [Says, bootItems]
    · simp [SaysFlag, bootItems]

/-- C58: a plain `boot-standard` command line, given to a client whose network leads to a host in front of a waiting enclave,
boots it with exactly the manifest and the pivot in the named files. -/
theorem boot_standard_command_boots {C : Setting St} {E : Env} {pki : MockNsm.Pki} {start : MockNsm.State} {fs0 : Files}
    {h : List (Msg × Msg)} {s : St} (o : Outside St) {host port pivotPath envelopePath rolePath : String} (p1 : Plain host)
    (p2 : Plain port) (p3 : Plain pivotPath) (p4 : Plain envelopePath) (p5 : Plain rolePath)
    (hC : o.post ("http://" ++ host ++ ":" ++ port ++ "/qos/message") = Host.http (Host.enclaveCall E))
    (hv : Vouched C E pki start) (H : History E fs0 h s) (hs : s.phase = .waitingForBootInstruction)
    (hd : HonestDevice E pki start) (hio : ReliableFiles E) {setup live : Pair}
    (h0 : Pair.fromMasterSeed E.prims (E.seedAt 0) = .ok setup) (h1 : Pair.fromMasterSeed E.prims (E.seedAt 1) = .ok live)
    {e : Envelope} {pivot : Bytes} (hin : EnvelopeIn C.disk envelopePath e) (he : e.Ok)
    (hp : C.disk.file pivotPath = some pivot) (ha : e.checkApprovals E.prims = .ok ()) (hn : e.shareSetApprovals = [])
    (hh : E.prims.sha256 pivot = e.manifest.pivotHash) (hm : Measured start e.manifest) {role : String}
    (hr : RoleIn C.disk rolePath role) (h3 : e.manifest.enclave.pcr3 = rolePcr3 C.prims role) {b : Bytes}
    (hw : Wire.toWire (.bootStandardJsonEnvelopeRequest e pivot) .borsh = .ok b) (hb : b.length ≤ 128 * 1024 * 1024) :
    ∃ s' r, program C o [prog, "boot-standard", "--host-ip", host, "--host-port", port, "--pivot-path", pivotPath,
        "--manifest-envelope-path", envelopePath, "--pcr3-preimage-path", rolePath] s = ⟨.ok .nothing, s', [.sent b]⟩ ∧
      History E fs0 (h ++ [(.bootStandardJsonEnvelopeRequest e pivot, r)]) s' ∧
      s'.phase = .waitingForQuorumShards ∧ Installed E e pivot s'.files ∧
      Holds s'.files E.paths.ephemeral (Hex.encode setup.seed) := by
  obtain ⟨s', r, g1, g2⟩ := boot_standard_boots (C := at_ C o ("http://" ++ host ++ ":" ++ port ++ "/qos/message")) hC
    ⟨hv.prims, hv.root, hv.intermediate, hv.chain, hv.decode, hv.signature, hv.size⟩ H hs hd hio h0 h1
    ⟨pivotPath, envelopePath, rolePath, false⟩ hin he hp ha hn hh hm hr h3 hw hb rfl
  refine ⟨s', r, ?_, g2⟩
  unfold program
  rw [boot_standard_runs p1 p2 p3 p4 p5]
  show quiet (bootStandard (at_ C o ("http://" ++ host ++ ":" ++ port ++ "/qos/message"))
    ⟨pivotPath, envelopePath, rolePath, false⟩) s = _
  unfold quiet
  rw [Run.run_ok g1]
  rfl

/-- The options of `approve-manifest` with a key file. -/
def approveItems (secret : String) (a : ApproveArgs) : List Item :=
  [.value "secret-path" secret, .value "manifest-path" a.manifestPath, .value "manifest-approvals-dir" a.approvalsDir,
   .value "qos-release-dir" a.releaseDir, .value "pcr3-preimage-path" a.pcr3Path, .value "pivot-hash-path" a.pivotHashPath,
   .value "alias" a.memberAlias, .value "quorum-key-path" a.quorumKeyPath, .value "manifest-set-dir" a.manifestSetDir,
   .value "share-set-dir" a.shareSetDir]

/-- The command line of `approve-manifest` with a seed file. -/
theorem approve_runs {secret : String} {a : ApproveArgs} (h0 : a.patchSetDir = none ∧ a.autoConfirm = false) (h1 : Plain secret)
    (h2 : ∀ v ∈ [a.manifestPath, a.approvalsDir, a.releaseDir, a.pcr3Path, a.pivotHashPath, a.memberAlias, a.quorumKeyPath,
      a.manifestSetDir, a.shareSetDir], Plain v) :
    client (prog :: Command.approveManifest.name :: words (approveItems secret a)) = .runs (.approveManifest (.file secret) a) := by
  refine client_runs rfl ?_ ?_
  · refine follows_of ?_ ?_ ?_ ?_
    · intro i hi
      simp only [List.mem_cons, List.not_mem_nil, or_false, forall_eq_or_imp, forall_eq] at h2
      obtain ⟨q1, q2, q3, q4, q5, q6, q7, q8, q9⟩ := h2
      simp only [approveItems, List.mem_cons, List.not_mem_nil, or_false] at hi
      rcases hi with rfl | rfl | rfl | rfl | rfl | rfl | rfl | rfl | rfl | rfl
      · exact ⟨by decide, h1⟩
      · exact ⟨by decide, q1⟩
      · exact ⟨by decide, q2⟩
      · exact ⟨by decide, q3⟩
      · exact ⟨by decide, q4⟩
      · exact ⟨by decide, q5⟩
      · exact ⟨by decide, q6⟩
      · exact ⟨by decide, q7⟩
      · exact ⟨by decide, q8⟩
      · exact ⟨by decide, q9⟩
    · show ["secret-path", "manifest-path", "manifest-approvals-dir", "qos-release-dir", "pcr3-preimage-path",
        "pivot-hash-path", "alias", "quorum-key-path", "manifest-set-dir", "share-set-dir"].Nodup
      decide
    · show ∀ n ∈ needs .approveManifest, n ∈ ["secret-path", "manifest-path", "manifest-approvals-dir", "qos-release-dir",
        "pcr3-preimage-path", "pivot-hash-path", "alias", "quorum-key-path", "manifest-set-dir", "share-set-dir"]
      decide
    · show ¬ ("yubikey" ∈ ["secret-path", "manifest-path", "manifest-approvals-dir", "qos-release-dir",
        "pcr3-preimage-path", "pivot-hash-path", "alias", "quorum-key-path", "manifest-set-dir", "share-set-dir"] ∧ _)
      exact fun h => absurd h.1 (by decide)
  · simp [Asks, SaysSigner, Says, SaysMaybe, SaysFlag, approveItems, h0.1, h0.2]

/-- C58: an `approve-manifest` command line with a key file, all the needed options and no others runs as written, and on
a manifest that agrees with the local files, an operator who says yes to everything gets the approval. -/
theorem approve_command_complete (C : Setting S) (o : Outside S) (s : S) {secret : String} {a : ApproveArgs}
    (h0 : a.patchSetDir = none ∧ a.autoConfirm = false) (h1 : Plain secret)
    (h2 : ∀ v ∈ [a.manifestPath, a.approvalsDir, a.releaseDir, a.pcr3Path, a.pivotHashPath, a.memberAlias, a.quorumKeyPath,
      a.manifestSetDir, a.shareSetDir], Plain v) {pair : Pair} (hk : SeedIn C.prims C.disk secret pair)
    {m : VersionedManifest} (hm : ManifestIn C.disk a.manifestPath m)
    (hl : LocalMatch C.prims C.awsRoot C.disk a.places m) (hi : 8 ≤ o.input.length) (hy : ∀ l ∈ o.input, IsYes l)
    (hw : ∀ path, C.disk.writable path = true) :
    (program C o (prog :: "approve-manifest" :: words (approveItems secret a)) s).result = .ok .nothing ∧
    ∃ path c, .wrote path c ∈ (program C o (prog :: "approve-manifest" :: words (approveItems secret a)) s).events := by
  have hrun := approve_runs (prog := prog) h0 h1 h2
  unfold program
  rw [show "approve-manifest" = Command.approveManifest.name from rfl, hrun]
  show (execute C o (.approveManifest (.file secret) a) s).result = _ ∧
    ∃ path c, _ ∈ (execute C o (.approveManifest (.file secret) a) s).events
  rw [execute_approve, Run.lift_ok (x := openSigner C (.file secret)) (pairFromFile_ok.mpr hk), quiet_events]
  obtain ⟨g1, g2⟩ := approve_complete C pair a o.input s m hm hl hi hy hw
  refine ⟨?_, g2⟩
  unfold quiet
  rw [Run.bind_result, g1]
  rfl

end Qos.ClientCli
