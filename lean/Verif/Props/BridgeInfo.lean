import Verif.Props.Bridge
import Verif.Props.Host
import Verif.Props.ClientCommand
/-!
# C59: where the bridge server takes its bridges from
-/
namespace Qos.Bridge
open StateMachine Services Lifecycle Wire P256
open Host (enclaveInfo enclaveCall EnclaveInfo Fits ask_status ask_unit phaseIn envelopeIn readAsked)
open NChooseK (Overflow)
open HostCli (Ipv4)
open Parser (Item words Acceptable declared)

/-! ## Reading the host's reply -/

theorem nullable_plain {α : Type} {c : JCodec α} {a : Option α} (h : ∀ x, a = some x → Json.Plain (c.enc x)) :
    Json.Plain (nullable c a) := by
  cases a with
  | none => trivial
  | some x => exact h x rfl

theorem nullable_height {α : Type} {c : JCodec α} {n : Nat} (a : Option α) (h : ∀ x, Json.height (c.enc x) ≤ n) :
    Json.height (nullable c a) ≤ n := by
  cases a with
  | none => exact Nat.zero_le _
  | some x => exact h x

theorem phase_ok (p : Phase) : JCodec.phase.ok p :=
  JCodec.lawful_phase.dec_ok (JCodec.phase.enc p) p (by cases p <;> decide +kernel)

theorem opt_nullable {α : Type} {k : String} {c : JCodec α} (hc : c.Lawful) {look : String → Option Json} {a : Option α}
    (h : look k = some (nullable c a)) (ha : ∀ x, a = some x → c.ok x) : (Fields.opt k c).dec look = some a := by
  unfold Fields.opt
  simp only [h]
  cases a with
  | none => rfl
  | some x =>
    have h1 := hc.dec_enc x (ha x rfl)
    have h2 : c.enc x ≠ .null := hc.ne_null (ha x rfl)
    simp only [nullable]
    rw [h1]; rfl

/-- What the host writes is read as it was meant: phase, envelope and key. -/
theorem info_roundtrip (i : EnclaveInfo) (h : ∀ e, i.manifestEnvelope = some e → e.Ok) :
    fromJsonSlice infoCodec (Json.writeBytes (infoJson i)) =
      some (i.phase, i.manifestEnvelope, i.ephemeralKey.map fun k => JCodec.bytesText (Hex.encode k)) := by
  have hp : Json.parse (Json.writeBytes (infoJson i)) = some (infoJson i) := by
    apply Json.parse_writeBytes
    · refine ⟨JCodec.lawful_phase.plain _ (phase_ok _), ?_, ?_, trivial⟩
      · exact nullable_plain fun e he => JCodec.lawful_envelope.plain e (h e he)
      · exact nullable_plain fun k _ => trivial
    · have h1 : Json.height (JCodec.phase.enc i.phase) ≤ 100 :=
        Nat.le_trans (JCodec.lawful_phase.height _) (by decide +kernel)
      have h2 : Json.height (nullable JCodec.envelope i.manifestEnvelope) ≤ 100 :=
        nullable_height _ fun e => Nat.le_trans (JCodec.lawful_envelope.height e) (by decide +kernel)
      have h3 : Json.height (nullable JCodec.hexVec i.ephemeralKey) ≤ 0 := nullable_height _ fun k => Nat.le_refl _
      show 1 + max (Json.height (JCodec.phase.enc i.phase)) (max (Json.height (nullable JCodec.envelope i.manifestEnvelope))
        (max (Json.height (nullable JCodec.hexVec i.ephemeralKey)) 0)) < 128
      omega
  unfold fromJsonSlice
  rw [hp]
  show JCodec.decEntries false (Fields.both (.req "phase" .phase)
      (.both (.opt "manifestEnvelope" .envelope) (.opt "ephemeralKey" .string))) [("phase", JCodec.phase.enc i.phase), ("manifestEnvelope", nullable JCodec.envelope i.manifestEnvelope),
    ("ephemeralKey", nullable JCodec.hexVec i.ephemeralKey)] = _
  unfold JCodec.decEntries
  have hnd : ((List.map Prod.fst [("phase", JCodec.phase.enc i.phase), ("manifestEnvelope", nullable JCodec.envelope i.manifestEnvelope),
    ("ephemeralKey", nullable JCodec.hexVec i.ephemeralKey)]).filter fun k => (Fields.both (.req "phase" .phase)
      (.both (.opt "manifestEnvelope" .envelope) (.opt "ephemeralKey" .string))).keys.contains k).Nodup := by
    show ((["phase", "manifestEnvelope", "ephemeralKey"] : List String).filter fun k =>
      (["phase", "manifestEnvelope", "ephemeralKey"] : List String).contains k).Nodup
    decide
  rw [if_pos hnd, if_neg (by simp)]
  have e1 : (Fields.req "phase" JCodec.phase).dec (fun k => Json.lookup k [("phase", JCodec.phase.enc i.phase),
      ("manifestEnvelope", nullable JCodec.envelope i.manifestEnvelope), ("ephemeralKey", nullable JCodec.hexVec i.ephemeralKey)]) =
      some i.phase := JCodec.lawful_phase.dec_enc _ (phase_ok _)
  have e2 : (Fields.opt "manifestEnvelope" JCodec.envelope).dec (fun k => Json.lookup k [("phase", JCodec.phase.enc i.phase),
      ("manifestEnvelope", nullable JCodec.envelope i.manifestEnvelope), ("ephemeralKey", nullable JCodec.hexVec i.ephemeralKey)]) =
      some i.manifestEnvelope := opt_nullable JCodec.lawful_envelope rfl h
  have e3 : (Fields.opt "ephemeralKey" JCodec.string).dec (fun k => Json.lookup k [("phase", JCodec.phase.enc i.phase),
      ("manifestEnvelope", nullable JCodec.envelope i.manifestEnvelope), ("ephemeralKey", nullable JCodec.hexVec i.ephemeralKey)]) =
      some (i.ephemeralKey.map fun k => JCodec.bytesText (Hex.encode k)) := by
    refine opt_nullable JCodec.lawful_string ?_ (fun _ _ => trivial)
    show some (nullable JCodec.hexVec i.ephemeralKey) = _
    cases i.ephemeralKey <;> rfl
  simp only [Fields.both, e1, e2, e3]

/-- C59: the bridge server takes the manifest that the host reports, and waits while the host reports none. -/
theorem turn_report (i : EnclaveInfo) (h : ∀ e, i.manifestEnvelope = some e → e.Ok) :
    turn (hostReply (some i)) = match i.manifestEnvelope with
      | none => .again
      | some e => .manifest e.manifest := by
  unfold hostReply turn
  simp only [info_roundtrip i h]
  cases i.manifestEnvelope <;> rfl

/-! ## In front of the modelled enclave -/

variable {E : Env} {fs0 : Files} {h : List (Msg × Msg)} {s : St}

/-- An answer too long for a frame does not arrive. -/
theorem ask_manifest (s : St) (hok : JCodec.msg.ok (handle E .manifestEnvelopeRequest s).1) :
    ∃ a, Host.ask (enclaveCall E) .manifestEnvelopeRequest s = ((handle E .manifestEnvelopeRequest s).2, some a) ∧
      (a = Host.Asked.answered (handle E .manifestEnvelopeRequest s).1 ∨ a = .failed) := by
  by_cases hf : ∀ b, toWire (handle E .manifestEnvelopeRequest s).1 .json = .ok b → b.length ≤ 128 * 1024 * 1024
  · exact ⟨_, ask_unit .manifestEnvelopeRequest s (.inr (.inl rfl)) ⟨hok, hf⟩, .inl rfl⟩
  · have hq : Fits .manifestEnvelopeRequest := Host.fits_small (by rintro _ _ ⟨⟩) trivial (by decide +kernel)
    have hj : ∀ e p, Msg.manifestEnvelopeRequest ≠ .bootStandardJsonEnvelopeRequest e p := by rintro _ _ ⟨⟩
    have hw : toWire .manifestEnvelopeRequest .json = .ok (Json.writeBytes (Json.norm (JCodec.msg.enc .manifestEnvelopeRequest))) := by
      simp only [toWire, toJson_some _ hj, orErr]
    obtain ⟨a, r, h1, h2, -, h4⟩ := Host.enclave_json (E := E) .manifestEnvelopeRequest s hq.1 _ hw (hq.2 _ hw)
    have hr : 128 * 1024 * 1024 < r.length := by
      by_contra hn
      apply hf
      intro b hb
      rw [h2] at hb
      cases hb
      omega
    refine ⟨.failed, ?_, .inr rfl⟩
    unfold Host.ask
    rw [toJson_some _ hj]
    simp only [h1, h4 hr, readAsked]

/-- One poll, in terms of the answer of the enclave. -/
theorem poll_cases (s : St) (decode : Bytes → Except AttestError AttestationDoc) (o : Option Envelope)
    (ho : (handle E .manifestEnvelopeRequest s).1 = .manifestEnvelopeResponse o) (hok : ∀ e, o = some e → e.Ok) :
    turn (hostReply (enclaveInfo (enclaveCall E) decode s).2) = .again ∨
    ∃ e, o = some e ∧ turn (hostReply (enclaveInfo (enclaveCall E) decode s).2) = .manifest e.manifest := by
  have hmo : JCodec.msg.ok (handle E .manifestEnvelopeRequest s).1 := by
    rw [ho]
    cases o with
    | none => trivial
    | some e => exact hok e rfl
  obtain ⟨a, ha, hc⟩ := ask_manifest s hmo
  rw [ho] at hc
  unfold enclaveInfo
  simp only [ask_status, phaseIn, ha]
  rcases hc with rfl | rfl
  · simp only [envelopeIn]
    rw [turn_report _ hok]
    cases o with
    | none => exact .inl rfl
    | some e => exact .inr ⟨e, rfl, rfl⟩
  · exact .inl rfl

/-- C59: before the boot and after a genesis the bridge server keeps polling. -/
theorem waits_without_manifest (H : History E fs0 h s) (hs : s.phase = .waitingForBootInstruction ∨ s.phase = .genesisBooted)
    (decode : Bytes → Except AttestError AttestationDoc) :
    turn (hostReply (enclaveInfo (enclaveCall E) decode s).2) = .again := by
  rcases hs with hs | hs
  · obtain ⟨s', h1, _⟩ := Host.info_before_boot H hs decode
    rw [h1, turn_report _ (by simp)]
  · rw [Host.info_fails_after_genesis E s hs decode]
    rfl

/-- C59: once a manifest is installed, whatever happens to files and frames, the bridge server takes no other bridges than
those of the installed manifest, which a quorum of the manifest set approved and with which this enclave was booted. -/
theorem bridges_approved (H : History E fs0 h s) (hp : s.phase ∈ installedPhases)
    (decode : Bytes → Except AttestError AttestationDoc) :
    turn (hostReply (enclaveInfo (enclaveCall E) decode s).2) = .again ∨
    ∃ e pivot, (∃ m ∈ requests h, m.BootsWith e pivot) ∧ ApprovedBoot E.prims e pivot ∧
      Installed E (e.withShares ((posted h).map (·.2))) pivot s.files ∧
      turn (hostReply (enclaveInfo (enclaveCall E) decode s).2) = .manifest e.manifest := by
  -- the reported envelope is well-formed because it is the stored one
  obtain ⟨b, hb⟩ := H.booted hp
  have hin := (hb.installed H.env hp).1
  have hresp : (handle E .manifestEnvelopeRequest s).1 =
      .manifestEnvelopeResponse (some (b.envelope.withShares ((posted h).map (·.2)))) ∨
      (handle E .manifestEnvelopeRequest s).1 = .manifestEnvelopeResponse none := by
    obtain ⟨buf, m1, m2⟩ := hin.manifest
    obtain ⟨f, hf, rfl⟩ := m2
    have hr := handle_manifestEnvelope (E := E) (s := s) (by intro hc; rw [hc] at hp; exact absurd hp (by decide))
    obtain ⟨buf', n1, n2⟩ := hin.readable
    rw [m1, Option.some.injEq] at n1
    subst n1
    rw [hr]
    unfold Handles.getManifestEnvelope
    rw [bind_run, readFile_run]
    by_cases hio : E.io s.ios = .ok
    · left
      simp only [if_pos hio, hf, Option.map_some, n2]
      rfl
    · right
      simp only [if_neg hio]
      rfl
  rcases hresp with hr | hr
  · rcases poll_cases s decode _ hr (by rintro e ⟨⟩; exact hin.wellFormed) with hh | ⟨x, hx, hh⟩
    · exact .inl hh
    · cases hx
      refine .inr ⟨b.envelope, b.pivot, hb.since.ok.asked, hb.since.ok.approvedBoot, hin, ?_⟩
      rw [hh]
      cases b.envelope <;> rfl
  · rcases poll_cases s decode _ hr (by simp) with hh | ⟨x, hx, hh⟩
    · exact .inl hh
    · cases hx

/-- C59: the polls that show no manifest do nothing, and the first one that shows one decides. -/
theorem serve_first {o : Overflow} {feature : Bool} {c : HostCli.BridgeConfig} {pre rest : List Reply} {r : Reply} {m : VersionedManifest}
    (hpre : ∀ x ∈ pre, turn x = .again) (hr : turn r = .manifest m) :
    serve o feature c pre = [] ∧ serve o feature c (pre ++ r :: rest) = runBridges o feature c false m.bridgeConfig := by
  induction pre with
  | nil => exact ⟨rfl, by simp [serve, hr]⟩
  | cons x pre ih =>
    have hx := hpre x List.mem_cons_self
    obtain ⟨h1, h2⟩ := ih fun y hy => hpre y (List.mem_cons_of_mem _ hy)
    refine ⟨by simp [serve, hx, h1], ?_⟩
    rw [List.cons_append]
    simp [serve, hx, h2]

/-- C59: a body that is no report ends the program, with no bridge started; a host that cannot be asked is asked again. -/
theorem serve_garbage {o : Overflow} {feature : Bool} {c : HostCli.BridgeConfig} {pre rest : List Reply} {b : Bytes}
    (hpre : ∀ x ∈ pre, x = .failed ∨ turn x = .again) (hb : ∀ i, fromJsonSlice infoCodec b ≠ some i) :
    serve o feature c (pre ++ .body b :: rest) = [.panicked] := by
  induction pre with
  | nil =>
    have : turn (.body b) = .panic := by
      unfold turn
      cases h : fromJsonSlice infoCodec b with
      | none => simp only [h]
      | some i => exact absurd h (hb i)
    simp [serve, this]
  | cons x pre ih =>
    have hx : turn x = .again := by
      rcases hpre x List.mem_cons_self with rfl | h
      · rfl
      · exact h
    rw [List.cons_append]
    simp [serve, hx, ih fun y hy => hpre y (List.mem_cons_of_mem _ hy)]

example (o : Overflow) (c : HostCli.BridgeConfig) : serve o true c [.failed, .body [], .failed] = [.panicked] :=
  serve_garbage (pre := [.failed]) (by simp) (by
    intro i h
    have : Json.parse [] = none := by decide +kernel
    simp [fromJsonSlice, this] at h)

/-- C59: with files and device that work, the first poll that reaches the enclave once a manifest is installed starts the
bridges of exactly that manifest. (The two answers must fit into a frame.) -/
theorem bridge_runs_installed {pki : MockNsm.Pki} {start : MockNsm.State} (H : History E fs0 h s) (hd : HonestDevice E pki start)
    (hio : ReliableFiles E) {n : Nat} {kind : Attest.Kind} (hs : shownKey s.phase = some (n, kind)) :
    ∃ (e : Envelope) (pivot : Bytes) (doc : AttestationDoc), Installed E e pivot s.files ∧
      (Fits (.manifestEnvelopeResponse (some e)) →
        Fits (.liveAttestationDocResponse (.attestation (pki.signDoc doc)) (some e)) →
        ∀ decode : Bytes → Except AttestError AttestationDoc, decode (pki.signDoc doc) = .ok doc →
        ∀ (o : Overflow) (feature : Bool) (c : HostCli.BridgeConfig) (pre rest : List Reply), (∀ x ∈ pre, turn x = .again) →
          serve o feature c (pre ++ hostReply (enclaveInfo (enclaveCall E) decode s).2 :: rest) =
            runBridges o feature c false e.manifest.bridgeConfig) := by
  obtain ⟨e, pivot, key, doc, s', hin, -, hres, -⟩ := Host.info_installed H hd hio hs
  refine ⟨e, pivot, doc, hin, fun hf1 hf2 decode hdec o feature c pre rest hpre => (serve_first hpre ?_).2⟩
  rw [hres hf1 hf2 decode hdec, turn_report _ (by rintro x ⟨⟩; exact hin.wellFormed)]

/-! ## The other programs -/

/-- C59: the URL that is asked is the host's `/enclave-info`, if the control URL is the host's address with its base path. -/
theorem info_url_served (c : HostCli.BridgeConfig) (origin : String) (basePath : Option String)
    (hu : c.controlUrl = origin ++ "/" ++ basePath.getD "qos") : ∃ path, infoUrl c = origin ++ path ∧
      Host.route basePath .get path = .served .enclaveInfo := by
  refine ⟨Host.Endpoint.enclaveInfo.path (basePath.getD "qos"), ?_, (Host.route_exact _ _ _ _).mpr ⟨rfl, rfl⟩⟩
  obtain ⟨suffix, h1, h2⟩ := Host.path_eq (basePath.getD "qos") .enclaveInfo
  simp only at h2
  rw [h1, h2]
  unfold infoUrl
  rw [hu]
  simp only [String.append_assoc]

theorem nodup_once {items : List Item} (h : (items.map Item.name).Nodup) (n : String) :
    (items.filter fun i => i.name = n).length ≤ 1 := by
  induction items with
  | nil => simp
  | cons i items ih =>
    rw [List.map_cons, List.nodup_cons] at h
    by_cases hn : i.name = n
    · have : (items.filter fun i => i.name = n) = [] := by
        rw [List.filter_eq_nil_iff]
        intro j hj hh
        simp only [decide_eq_true_eq] at hh
        exact h.1 (List.mem_map.mpr ⟨j, hj, hh.trans hn.symm⟩)
      rw [List.filter_cons_of_pos (by simpa using hn), this]
      simp
    · rw [List.filter_cons_of_neg (by simpa using hn)]
      exact ih h.2

theorem bridge_token_shape {n : String} {t : Parser.Token} (hd : declared HostCli.bridgeTokens n = some t) :
    t.required = false ∧ t.requires = none ∧ ∀ x ∈ t.forbids, x = "usock" ∨ (x = "cid" ∧ n = "usock") := by
  have hn := Parser.declared_name hd
  have hm := List.mem_of_mem_filter (List.mem_of_getLast? hd)
  subst hn
  revert hm
  simp only [HostCli.bridgeTokens, List.mem_cons, List.not_mem_nil, or_false]
  rintro (rfl | rfl | rfl | rfl | rfl | rfl | rfl | rfl | rfl) <;> simp

theorem natText_no_dash (n : Nat) : ¬ ['-', '-'] <+: (toString n).toList := by
  rw [Reaper.natText_toString]
  rintro ⟨r, hr⟩
  have := natText_digits n '-' (by rw [← hr]; simp)
  exact absurd this (by decide)

theorem number_toString (n : Nat) : HostCli.Number (toString n) n := by
  have := (HostCli.parseUnsigned_iff (bound := n + 1) (s := toString n) (n := n)).mp (by
    rw [Reaper.natText_toString]
    exact parseUnsigned_natText (Nat.lt_succ_self n))
  exact this.1

/-- The arguments that both sides use. -/
theorem egress_starts (path : String) (hp : ¬ ['-', '-'] <+: path.toList) (cid : UInt32) (toHost : Bool) (side : Bool) :
    HostCli.egress (path :: ((if side then ["--egress-host"] else []) ++
      ["--cid", toString cid.toNat, "--vsock-to-host", toString toHost])) = .runs ⟨side, cid, if toHost then 1 else 0⟩ := by
  rw [HostCli.egress_exact hp]
  have hdash := natText_no_dash cid.toNat
  have hh : toString cid.toNat ≠ "--help" := by
    intro hc; rw [hc] at hdash; exact hdash (by decide)
  have hv : toString cid.toNat ≠ "--version" := by
    intro hc; rw [hc] at hdash; exact hdash (by decide)
  refine ⟨?_, ?_, (if side then [Item.flag "egress-host"] else []) ++ [.value "cid" (toString cid.toNat),
    .value "vsock-to-host" (toString toHost)], ?_, ⟨?_, ?_, ?_, ?_, ?_⟩, ⟨?_, ?_, ?_⟩⟩
  · cases side <;> cases toHost <;> simp <;> exact ⟨fun h => hh h.symm, by decide⟩
  · cases side <;> cases toHost <;> simp <;> exact ⟨fun h => hv h.symm, by decide⟩
  · cases side <;> rfl
  · have h1 : Item.Fits HostCli.bridgeTokens (.flag "egress-host") := ⟨_, rfl, rfl⟩
    have h2 : Item.Fits HostCli.bridgeTokens (.value "cid" (toString cid.toNat)) := ⟨_, rfl, rfl, hdash⟩
    have h3 : Item.Fits HostCli.bridgeTokens (.value "vsock-to-host" (toString toHost)) :=
      ⟨_, rfl, rfl, by cases toHost <;> decide⟩
    intro i hi
    cases side <;> simp only [Bool.false_eq_true, if_true, if_false, List.nil_append, List.cons_append, List.mem_cons, List.not_mem_nil, or_false] at hi
    · rcases hi with rfl | rfl <;> assumption
    · rcases hi with rfl | rfl | rfl <;> assumption
  · intro n t _ _
    exact nodup_once (by cases side <;> simp [Item.name]) n
  · intro n t hd hr
    rw [(bridge_token_shape hd).1] at hr
    cases hr
  · intro n t o hd _ hr
    rw [(bridge_token_shape hd).2.1] at hr
    cases hr
  · have nou : ¬ Parser.Given ((if side then [Item.flag "egress-host"] else []) ++ [.value "cid" (toString cid.toNat),
        .value "vsock-to-host" (toString toHost)]) "usock" := by
      rintro ⟨i, hi, hn⟩
      cases side <;> simp only [Bool.false_eq_true, if_true, if_false, List.nil_append, List.cons_append, List.mem_cons, List.not_mem_nil, or_false] at hi
      · rcases hi with rfl | rfl <;> simp [Item.name] at hn
      · rcases hi with rfl | rfl | rfl <;> simp [Item.name] at hn
    intro n t o hd hg ho hgo
    rcases (bridge_token_shape hd).2.2 o ho with rfl | ⟨rfl, rfl⟩
    · exact nou hgo
    · exact nou hg
  · cases side <;> simp
  · exact ⟨toString cid.toNat, by cases side <;> simp [HostCli.Says], number_toString _⟩
  · unfold HostCli.SaysFlags HostCli.Says
    cases toHost
    · exact .inr (.inl ⟨by simp; rfl, rfl⟩)
    · exact .inl ⟨by simp; rfl, rfl⟩

/-- C59: the egress helper that the bridge server starts is accepted by the egress program, and runs on the host side with
the CID and the direction of the bridge server's own vsock. -/
theorem host_helper_starts {c : HostCli.BridgeConfig} {l : Reaper.Launch} (hl : Helper c l) (hp : ¬ ['-', '-'] <+: l.path.toList) :
    ∃ cid port flags, c.socket = .vsock cid port flags ∧
      HostCli.egress (l.path :: l.args) = .runs ⟨true, cid, if flags = 1 then 1 else 0⟩ := by
  obtain ⟨cid, port, flags, h1, h2⟩ := hl.args
  refine ⟨cid, port, flags, h1, ?_⟩
  have := egress_starts l.path hp cid (flags == 1) true
  rw [h2]
  simpa using this

/-- C59: likewise the one that the enclave starts (C34), on the enclave side. -/
theorem enclave_helper_starts {m : VersionedManifest} {rc : Reaper.Config} {su : List Reaper.Act} (hs : Reaper.SetUp rc m su)
    (hm : Reaper.HasClient m.bridgeConfig) : ∃ cid port flags l, rc.core = .vsock cid port flags ∧ Reaper.egresses su = [l] ∧
      HostCli.egress (l.path :: l.args) = .runs ⟨false, cid, 0⟩ := by
  obtain ⟨cid, port, flags, h1, -, h3⟩ := hs.client hm
  refine ⟨cid, port, flags, _, h1, h3, ?_⟩
  exact egress_starts "/egress" (by decide) cid false false

/-! ## Concrete cases -/

-- Non-vacuity of `bridge_runs_installed` and `bridges_approved`: the concrete boot; two polls before it show nothing.
example : ∃ s : St, ∃ decode, ∀ (o : Overflow) (feature : Bool) (c : HostCli.BridgeConfig),
    serve o feature c [.failed, hostReply (some ⟨.waitingForBootInstruction, none, none⟩),
      hostReply (enclaveInfo (enclaveCall Host.toyShortEnv) decode s).2] =
      runBridges o feature c false toyEnvelope.manifest.bridgeConfig := by
  obtain ⟨setup, h0⟩ := toy_pair (toyEnv.seedAt 0)
  obtain ⟨live, h1⟩ := toy_pair (toyEnv.seedAt 1)
  have hok : Host.toyShortEnv.Ok := { toyEnv_ok with }
  have H := History.start hok (E := Host.toyShortEnv) toy_fresh
  obtain ⟨-, b, c, -, -⟩ := approved_boot_completes (E := Host.toyShortEnv) (m := .bootStandardRequest toyEnvelope [1, 2, 3]) H rfl
    (pki := ⟨[1], [2], [3], fun _ => [7]⟩) ⟨initial_started, rfl⟩ toy_io toyEnvelope_ok (by decide +kernel) rfl rfl h0 h1 (.inl rfl)
  have H' := H.step (m := .bootStandardRequest toyEnvelope [1, 2, 3]) toyEnvelope_ok
  obtain ⟨e, pivot, doc, hin, hres⟩ := bridge_runs_installed H' (pki := ⟨[1], [2], [3], fun _ => [7]⟩) ⟨initial_started, rfl⟩ toy_io
    (n := 0) (kind := .setup) (by rw [b]; rfl)
  obtain ⟨rfl, -⟩ := hin.unique c
  refine ⟨(handle Host.toyShortEnv (.bootStandardRequest toyEnvelope [1, 2, 3]) (St.initial noFiles)).2,
    fun b => if b = [7] then .ok doc else .error .invalidCOSESign1Structure, fun o feature c => ?_⟩
  exact hres (Host.envelope_fits toyEnvelope_ok Json.extent_toyEnvelope)
    (Host.live_fits toyEnvelope_ok Json.extent_toyEnvelope [7] (by decide)) _ (by simp) o feature c
    [.failed, hostReply (some ⟨.waitingForBootInstruction, none, none⟩)] [] (by
      intro x hx
      simp only [List.mem_cons, List.not_mem_nil, or_false] at hx
      rcases hx with rfl | rfl
      · rfl
      · exact turn_report _ (by simp))

/-- A bridge server in front of enclave 16. -/
def sampleConfig : HostCli.BridgeConfig := ⟨.vsock 16 3001 1, "http://127.0.0.1:3001/qos", none, none⟩

-- Two servers and two clients: two listeners, one helper.
example : runBridges .wraps true sampleConfig false [.server 3000 "0.0.0.0", .client 443 none, .server 8080 "127.0.0.1", .client 80 (some "x.y")] =
    [.ingress ⟨0, 0, 0, 0⟩ 3000 (.vsock 16 3000 1),
     .egress ⟨"/qos_egress", ["--egress-host", "--cid", "16", "--vsock-to-host", "true"], [], .inherited⟩,
     .ingress ⟨127, 0, 0, 1⟩ 8080 (.vsock 16 8080 1)] := by decide +kernel

-- Those entries can all be served, so `bridges_exact` applies to them.
example : ∀ b ∈ [BridgeConfig.server 3000 "0.0.0.0", .client 443 none, .server 8080 "127.0.0.1"], ¬ Unservable true sampleConfig b := by
  intro b hb
  simp only [List.mem_cons, List.not_mem_nil, or_false] at hb
  rcases hb with rfl | rfl | rfl <;> simp [Unservable, sampleConfig]

-- An entry whose host is not an IPv4 address (here an IPv6 one) is skipped; the others are not affected.
example : runBridges .wraps true sampleConfig false [.server 3000 "::1", .server 3001 "10.0.0.1"] =
    [.ingress ⟨10, 0, 0, 1⟩ 3001 (.vsock 16 3001 1)] := by decide +kernel

-- With an override, two entries at the same address ask for the same address twice; the second bind cannot succeed.
example : runBridges .wraps true { sampleConfig with hostPortOverride := some 9000 } false [.server 3000 "0.0.0.0", .server 3001 "0.0.0.0"] =
    [.ingress ⟨0, 0, 0, 0⟩ 9000 (.vsock 16 3000 1), .ingress ⟨0, 0, 0, 0⟩ 9000 (.vsock 16 3001 1)] := by decide +kernel

-- Without the `egress` feature a client entry ends the server, and the listener before it with it.
example : runBridges .wraps false sampleConfig false [.server 3000 "0.0.0.0", .client 443 none, .server 3001 "0.0.0.0"] =
    [.ingress ⟨0, 0, 0, 0⟩ 3000 (.vsock 16 3000 1), .panicked] := by decide +kernel

-- Ports 65534 and 65535 cannot be bridged.
example : runBridges .wraps true sampleConfig false [.server 65534 "0.0.0.0"] = [.panicked] := by decide +kernel

/-- C59, a limit: nothing keeps an entry from naming the port of the enclave's own protocol socket; then the listener on the
host leads to that socket, and whoever reaches the host can send protocol messages. -/
theorem protocol_port_exposed : ∃ (c : HostCli.BridgeConfig) (bs : List BridgeConfig) (l : Listener) (core : Pool.Address),
    l ∈ listeners (runBridges .wraps true c false bs) ∧ Faces c.socket core ∧ Connects l.socket core :=
  ⟨sampleConfig, [.server 3 "0.0.0.0"], ⟨⟨0, 0, 0, 0⟩, 3, .vsock 16 3 1⟩, .vsock 16 3 0, by decide +kernel, trivial, rfl⟩

example : infoUrl sampleConfig = "http://127.0.0.1:3001/qos/enclave-info" := by decide +kernel

end Qos.Bridge
