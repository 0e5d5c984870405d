import Verif.Spec.ClientCommands
import Verif.Props.ClientWrites
import Verif.Props.ClientDev
import Verif.Props.ClientForward
import Verif.Props.ClientGenesis
import Verif.Props.ClientGenerate
import Verif.Props.ClientEnvelope
import Verif.Props.ClientCommandToy
/-!
# C66: what success of a command means

One theorem over all commands; the table is `Spec/ClientCommands.lean`.
-/
namespace Qos.ClientCli
open Parser HostCli
open Client
open P256 (Pair Public)

variable {S : Type} {items : List Item} {prog : String} {args : List String}

theorem quiet_run {x : Run S Unit} {s : S} {r : Shown} (h : (quiet x s).result = .ok r) :
    x s = ⟨.ok (), (quiet x s).state, (quiet x s).events⟩ := by
  rw [quiet_state, quiet_events, ← (quiet_ok h).1]

theorem bind_run {α β : Type} {x : Run S α} {f : α → Run S β} {s s' : S} {b : β} {es : List Client.Event}
    (h : (x >>= f) s = ⟨.ok b, s', es⟩) :
    ∃ a s1 es1 es2, x s = ⟨.ok a, s1, es1⟩ ∧ f a s1 = ⟨.ok b, s', es2⟩ ∧ es = es1 ++ es2 := by
  have h : Run.bind x f s = _ := h
  unfold Run.bind at h
  cases hx : x s with
  | mk r s1 es1 =>
  rw [hx] at h
  cases r with
  | error e => cases h
  | ok a =>
    refine ⟨a, s1, es1, (f a s1).events, rfl, ?_, ?_⟩
    · have h1 : (f a s1).result = .ok b := congrArg Out.result h
      have h2 : (f a s1).state = s' := congrArg Out.state h
      rw [← h1, ← h2]
    · exact (congrArg Out.events h).symm

theorem lift_run {α : Type} {x : Except Stop α} {s s' : S} {b : α} {es : List Client.Event}
    (h : Run.lift x s = ⟨.ok b, s', es⟩) : x = .ok b ∧ s' = s ∧ es = [] :=
  ⟨congrArg Out.result h, (congrArg Out.state h).symm, (congrArg Out.events h).symm⟩

/-- A request and its answer. -/
theorem post_run (C : Setting S) (m : Msg) (s : S) : ∃ r s' es, post C m s = ⟨.ok r, s', es⟩ ∧
    (∀ ev ∈ es, ∃ b, ev = .sent b) ∧
    ∀ x, r = some x → ∃ enc b s', Wire.toWire m enc = .ok b ∧ readAnswer (C.net s' b).2 = some x := by
  have hw (enc : Wire.Encoding) (s : S) : (∃ r, (postWire C m enc s).result = .ok r) ∧
      ∀ ev ∈ (postWire C m enc s).events, ∃ b, ev = .sent b := by
    unfold postWire
    cases Wire.toWire m enc with
    | error e => exact ⟨⟨none, rfl⟩, fun _ h => nomatch h⟩
    | ok b => exact ⟨⟨_, rfl⟩, fun ev h => ⟨b, List.mem_singleton.mp h⟩⟩
  obtain ⟨⟨r, hr⟩, he⟩ : (∃ r, (post C m s).result = .ok r) ∧ ∀ ev ∈ (post C m s).events, ∃ b, ev = .sent b := by
    obtain ⟨⟨r, h1⟩, h2⟩ := hw .json s
    unfold post
    rw [Run.bind_result, Run.bind_events, h1]
    by_cases hu : unreadable r = true
    · simp only [hu, if_true]
      obtain ⟨h3, h4⟩ := hw .borsh (postWire C m .json s).state
      exact ⟨h3, fun ev h => (List.mem_append.mp h).elim (h2 ev) (h4 ev)⟩
    · simp only [hu, if_false]
      exact ⟨⟨r, rfl⟩, fun ev h => (List.mem_append.mp h).elim (h2 ev) (fun h => nomatch h)⟩
  exact ⟨r, (post C m s).state, (post C m s).events, by rw [← hr], he, fun x hx => post_answer (by rw [hr, hx])⟩

theorem statusAnswer_ok {x : Option Msg} {r : Shown} (h : statusAnswer x = .ok r) : ∃ p, x = some (.statusResponse p) ∧ r = .phase p := by
  unfold statusAnswer at h
  split at h
  · cases h; exact ⟨_, rfl, rfl⟩
  · cases h

theorem versionAnswer_ok {x : Option Msg} {r : Shown} (h : versionAnswer x = .ok r) :
    ∃ v c, x = some (.versionResponse v c) ∧ r = .version v c := by
  unfold versionAnswer at h
  split at h
  · cases h; exact ⟨_, _, rfl, rfl⟩
  · cases h

theorem liveAnswer_some {r : Option Msg} {x : Bytes × Envelope} (h : liveAnswer r = some x) :
    r = some (.liveAttestationDocResponse (.attestation x.1) (some x.2)) := by
  unfold liveAnswer at h
  split at h
  · cases h; rfl
  · cases h

theorem provisionAnswer_some {r : Option Msg} {x : Bool} (h : provisionAnswer r = some x) : r = some (.provisionResponse x) := by
  unfold provisionAnswer at h
  split at h
  · cases h; rfl
  · cases h

theorem status_done (C : Setting S) (s s' : S) {r : Shown} {es : List Client.Event} (h : enclaveStatus C s = ⟨.ok r, s', es⟩) :
    ∃ p enc b s', Wire.toWire .statusRequest enc = .ok b ∧ readAnswer (C.net s' b).2 = some (.statusResponse p) ∧ r = .phase p := by
  obtain ⟨x, s1, es1, es2, h1, h2, -⟩ := bind_run h
  obtain ⟨p, rfl, rfl⟩ := statusAnswer_ok (lift_run h2).1
  obtain ⟨enc, b, s2, g1, g2⟩ := post_answer (congrArg Out.result h1)
  exact ⟨p, enc, b, s2, g1, g2, rfl⟩

theorem version_done (C : Setting S) (s s' : S) {r : Shown} {es : List Client.Event} (h : enclaveVersion C s = ⟨.ok r, s', es⟩) :
    ∃ v c enc b s', Wire.toWire .versionRequest enc = .ok b ∧ readAnswer (C.net s' b).2 = some (.versionResponse v c) ∧
      r = .version v c := by
  obtain ⟨x, s1, es1, es2, h1, h2, -⟩ := bind_run h
  obtain ⟨v, c, rfl, rfl⟩ := versionAnswer_ok (lift_run h2).1
  obtain ⟨enc, b, s2, g1, g2⟩ := post_answer (congrArg Out.result h1)
  exact ⟨v, c, enc, b, s2, g1, g2, rfl⟩

theorem getAttestationDoc_done (C : Setting S) (docPath envelopePath : String) (s s' : S) (es : List Client.Event)
    (h : getAttestationDoc C docPath envelopePath s = ⟨.ok (), s', es⟩) : ∃ doc e sents,
      (∃ enc b s', Wire.toWire .liveAttestationDocRequest enc = .ok b ∧
        readAnswer (C.net s' b).2 = some (.liveAttestationDocResponse (.attestation doc) (some e))) ∧
      es = sents ++ [.wrote docPath doc, .wrote envelopePath (Json.writeBytes e.encUntagged)] ∧ ∀ ev ∈ sents, ∃ b, ev = .sent b := by
  obtain ⟨x, s1, es1, es2, h1, h2, rfl⟩ := bind_run h
  obtain ⟨a, s3, es3, es4, h3, h4, rfl⟩ := bind_run h2
  obtain ⟨h5, rfl, rfl⟩ := lift_run h3
  have hx := liveAnswer_some (orStop_ok.mp h5)
  simp only [write_bind_ok, write_ok] at h4
  obtain ⟨-, es5, ⟨-, -, rfl⟩, rfl⟩ := h4
  obtain ⟨r, s6, es6, g1, g2, g3⟩ := post_run C .liveAttestationDocRequest s
  rw [h1] at g1
  cases g1
  exact ⟨a.1, a.2, es1, g3 _ hx, rfl, g2⟩

theorem postShare_done (C : Setting S) (wp ap : String) (s s' : S) (r : Bool) (es : List Client.Event)
    (h : postShare C wp ap s = ⟨.ok r, s', es⟩) : ∃ x c a, C.disk.file wp = some x ∧ C.disk.file ap = some c ∧
      fromJsonSlice JCodec.approval c = some a ∧ ∃ enc b s', Wire.toWire (.provisionRequest x a) enc = .ok b ∧
        readAnswer (C.net s' b).2 = some (.provisionResponse r) := by
  unfold postShare at h
  simp only [lift_bind_ok, orStop_ok] at h
  obtain ⟨x, hx, a, ha, h⟩ := h
  obtain ⟨y, s1, es1, es2, h1, h2, rfl⟩ := bind_run h
  have hy := provisionAnswer_some (orStop_ok.mp (lift_run h2).1)
  subst hy
  unfold readShareApproval at ha
  simp only [ebind_ok, orStop_ok] at ha
  obtain ⟨c, hc, ha⟩ := ha
  exact ⟨x, c, a, hx, hc, ha, post_answer (congrArg Out.result h1)⟩

theorem split_done (C : Setting S) (coeffs : Nat → Nat → UInt8) (path : String) (total threshold : Nat) (dir : String) (s s' : S)
    (es : List Client.Event) (h : shamirSplit C coeffs path total threshold dir s = ⟨.ok (), s', es⟩) :
    ∃ secret shares, C.disk.file path = some secret ∧ Shamir.sharesGenerate secret total threshold coeffs = .ok shares ∧
      es = shares.mapIdx fun i share => .wrote (sharePath dir (i + 1)) share := by
  unfold shamirSplit at h
  simp only [lift_bind_ok, orStop_ok, mapStop_ok, writeShares_ok] at h
  obtain ⟨secret, h1, shares, h2, -, -, rfl⟩ := h
  refine ⟨secret, shares, h1, h2, ?_⟩
  unfold shareFiles
  rw [List.mapIdx_eq_zipIdx_map]

theorem reconstruct_done (C : Setting S) (paths : List String) (out : String) (s s' : S) (es : List Client.Event)
    (h : shamirReconstruct C paths out s = ⟨.ok (), s', es⟩) : ∃ shares secret,
      List.Forall₂ (fun path share => C.disk.file path = some share) paths shares ∧
      Shamir.sharesReconstruct shares = .ok secret ∧ es = [.wrote out secret] := by
  unfold shamirReconstruct at h
  simp only [lift_bind_ok, mapStop_ok, write_ok] at h
  obtain ⟨shares, h1, secret, h2, -, -, rfl⟩ := h
  refine ⟨shares, secret, ?_, h2, rfl⟩
  unfold readShares at h1
  rw [mapM_ok] at h1
  exact h1.imp fun _ _ h => orStop_ok.mp h

theorem flag_none {n : String} {b : Bool} (h : SaysFlag items n b) (hf : .flag n ∉ items) : b = false := by
  cases b with
  | false => rfl
  | true => exact absurd (h.mp rfl) hf

theorem signer_file {path : String} (h : SaysSigner items (.file path)) : Says items "secret-path" path := h.1

theorem bootGenesis_writes (C : Setting S) (a : BootGenesisArgs) (s : S) (h : (bootGenesis C a s).result = .ok ()) :
    ∃ p c, .wrote p c ∈ (bootGenesis C a s).events := by
  have hx : bootGenesis C a s = ⟨.ok (), (bootGenesis C a s).state, (bootGenesis C a s).events⟩ := by rw [← h]
  generalize (bootGenesis C a s).events = es at hx ⊢
  unfold bootGenesis at hx
  simp only [lift_bind_ok] at hx
  obtain ⟨q, -, d, -, hx⟩ := hx
  obtain ⟨r, s1, es1, es2, hp, hx2, rfl⟩ := bind_run hx
  simp only [lift_bind_ok, write_bind_ok] at hx2
  obtain ⟨an, -, k, -, -, es3, -, rfl⟩ := hx2
  exact ⟨_, _, List.mem_append_right _ (List.mem_cons_self ..)⟩

theorem confirm_run {auto : Bool} {qs : List Question} {input : List String} {s s' : S} {es : List Client.Event}
    (h : confirm auto qs input s = ⟨.ok (), s', es⟩) : s' = s ∧ ∀ p c, .wrote p c ∉ es := by
  unfold confirm at h
  by_cases ha : auto = true
  · rw [if_pos ha] at h
    cases h
    exact ⟨rfl, fun _ _ h => nomatch h⟩
  · rw [if_neg ha] at h
    simp only at h
    by_cases hi : (interview qs input).1 = true
    · rw [if_pos hi] at h
      cases h
      exact ⟨rfl, fun _ _ => not_wrote_interview _ _ _ _⟩
    · rw [if_neg hi] at h
      cases h

theorem bootStandard_answer (C : Setting S) (a : BootArgs) (s : S) (h : (bootStandard C a s).result = .ok ()) :
    ∃ e pivot cose, EnvelopeIn C.disk a.envelopePath e ∧ C.disk.file a.pivotPath = some pivot ∧
      ∃ m b s', (m = .bootStandardJsonEnvelopeRequest e pivot ∨ m = .bootStandardRequest e pivot) ∧ Wire.toWire m .borsh = .ok b ∧
        readAnswer (C.net s' b).2 = some (.bootStandardResponse (.attestation cose)) := by
  have hx : bootStandard C a s = ⟨.ok (), (bootStandard C a s).state, (bootStandard C a s).events⟩ := by rw [← h]
  generalize (bootStandard C a s).events = es at hx
  generalize (bootStandard C a s).state = s' at hx
  unfold bootStandard at hx
  simp only [lift_bind_ok] at hx
  obtain ⟨pivot, h1, e, h2, hx⟩ := hx
  obtain ⟨cose, s1, es1, es2, h3, -, -⟩ := bind_run hx
  exact ⟨e, pivot, cose, readEnvelope_iff.mp h2, orStop_ok.mp h1, bootWithFallback_answer (congrArg Out.result h3)⟩

theorem proxy_done (C : Setting S) (pair : Pair) (a : ProxyArgs) (input : List String) (s s' : S) (evs : List Client.Event)
    (h : proxyReEncryptShare C pair a input s = ⟨.ok (), s', evs⟩) : ∃ e share plain target wrapped es,
      EnvelopeIn C.disk a.envelopePath e ∧ C.disk.file a.sharePath = some share ∧ pair.decrypt C.prims share = .ok plain ∧
      Public.encrypt C.prims target C.rand plain = .ok wrapped ∧
      evs = es ++ [.wrote a.approvalPath (approvalBytes (signApproval C.prims pair a.memberAlias (e.manifest.hash C.prims))),
        .wrote a.wrappedPath wrapped] ∧ (∀ p c, .wrote p c ∉ es) := by
  unfold proxyReEncryptShare at h
  simp only [lift_bind_ok] at h
  obtain ⟨c, h1, h⟩ := h
  obtain ⟨u, s1, es1, es2, h2, h', rfl⟩ := bind_run h
  obtain ⟨rfl, hq⟩ := confirm_run h2
  simp only [lift_bind_ok, write_bind_ok, write_ok] at h'
  obtain ⟨w, h3, -, es3, ⟨-, -, rfl⟩, rfl⟩ := h'
  unfold reEncrypt at h3
  simp only [ebind_ok, mapStop_ok] at h3
  obtain ⟨plain, h3, h4⟩ := h3
  unfold proxyChecks at h1
  simp only [ebind_ok, epure_ok, orStop_ok] at h1
  obtain ⟨e, g1, d, -, sh, g2, ro, -, u, -, ta, -, ms, -, u2, -, rfl⟩ := h1
  exact ⟨e, sh, plain, ta, w, es1, readEnvelope_iff.mp g1, g2, h3, h4, rfl, hq⟩

/-- What is printed. -/
def shownJson (json : Bool) (r : Option Bytes) : Shown :=
  match json, r with
  | true, some b => .text b
  | _, _ => .debug

theorem display_done (C : Setting S) (o : Outside S) (s : S) (type : DisplayType) (path : String) (json : Bool)
    (ha : Asks items (.display type path json)) {r : Shown} (h : (display C type path json s).result = .ok r) :
    Done C o s items (display C type path json s) .display := by
  have hd : display C type path json s = (Run.lift (displayJson C type path) >>= fun r => pure (shownJson json r)) s := by
    unfold display shownJson
    rfl
  rw [hd] at h ⊢
  rcases Run.lift_cases (displayJson C type path) (fun r => (pure (shownJson json r) : Run S Shown)) s with
    ⟨e, hb, hr⟩ | ⟨b, hb, hr⟩
  · rw [hr] at h; cases h
  rw [hr] at h ⊢
  refine ⟨path, ha.2.1, rfl, ?_⟩
  have hj : .flag "json" ∈ items → json = true := ha.2.2.mpr
  cases type with
  | manifest =>
    refine .inl ⟨ha.1, ?_⟩
    unfold displayJson at hb
    simp only [ebind_ok, epure_ok] at hb
    obtain ⟨m, h1, rfl⟩ := hb
    have h1 := readManifest_iff.mp h1
    exact ⟨m, h1, fun hf hm => ⟨_, by rw [hj hf]; rfl, plain_manifest m hm⟩⟩
  | manifestEnvelope =>
    refine .inr (.inl ⟨ha.1, ?_⟩)
    unfold displayJson at hb
    simp only [ebind_ok, epure_ok] at hb
    obtain ⟨m, h1, rfl⟩ := hb
    have h1 := readEnvelope_iff.mp h1
    exact ⟨m, h1, fun hf hm => ⟨_, by rw [hj hf]; rfl, plain_roundtrip m hm⟩⟩
  | genesisOutput =>
    refine .inr (.inr ⟨ha.1, ?_⟩)
    unfold displayJson at hb
    simp only [ebind_ok, epure_ok, orStop_ok] at hb
    obtain ⟨c, h1, g, h2, -⟩ := hb
    exact ⟨c, g, h1, h2⟩

theorem jsonToBorsh_done (C : Setting S) (type : DisplayType) (path out : String) (s s' : S) (es : List Client.Event)
    (h : jsonToBorsh C type path out s = ⟨.ok (), s', es⟩) : ∃ c, es = [.wrote out c] ∧ (match type with
      | .manifest => ∃ m, (ManifestIn C.disk path (.v1 m) ∨ ∃ m0, ManifestIn C.disk path (.v0 m0) ∧ m = m0.upgrade) ∧
          c = Borsh.manifest.enc m
      | .manifestEnvelope => ∃ e, (EnvelopeIn C.disk path (.v1 e) ∨ ∃ e0, EnvelopeIn C.disk path (.v0 e0) ∧
          e = ⟨e0.manifest.upgrade, e0.manifestSetApprovals, e0.shareSetApprovals⟩) ∧ c = (Borsh.envelopeOf Borsh.manifest).enc e
      | .genesisOutput => False) := by
  unfold jsonToBorsh at h
  cases type with
  | genesisOutput => cases h
  | manifest =>
    simp only [lift_bind_ok] at h
    obtain ⟨m, h1, h⟩ := h
    unfold writeOrError at h
    split at h
    · cases h
      refine ⟨_, rfl, m, ?_, rfl⟩
      unfold readManifestV1 at h1
      simp only [ebind_ok] at h1
      obtain ⟨x, h2, h3⟩ := h1
      have h2 := readManifest_iff.mp h2
      cases x with
      | v2 y => cases h3
      | v1 y => cases h3; exact .inl h2
      | v0 y => cases h3; exact .inr ⟨y, h2, rfl⟩
    · cases h
  | manifestEnvelope =>
    simp only [lift_bind_ok] at h
    obtain ⟨m, h1, h⟩ := h
    unfold writeOrError at h
    split at h
    · cases h
      refine ⟨_, rfl, m, ?_, rfl⟩
      unfold readEnvelopeV1 at h1
      simp only [ebind_ok] at h1
      obtain ⟨x, h2, h3⟩ := h1
      have h2 := readEnvelope_iff.mp h2
      cases x with
      | v2 y => cases h3
      | v1 y => cases h3; exact .inl h2
      | v0 y => cases h3; exact .inr ⟨y, h2, rfl⟩
    · cases h

/-- The handlers. -/
theorem execute_done (C : Setting S) (hp : C.prims.Laws) (hr : 2 * C.awsRoot.length < 256 * 1024 * 1024) (o : Outside S) (s : S)
    (x : Call) (ha : Asks items x) {r : Shown} (h : (execute C o x s).result = .ok r) :
    Done C o s items (execute C o x s) x.command := by
  cases x with
  | hostHealth url =>
    have h : (hostHealth o url s).result = .ok r := h
    show Done C o s items (hostHealth o url s) .hostHealth
    unfold hostHealth at h ⊢
    cases hg : o.get url s with
    | mk s' b =>
    rw [hg] at h
    cases b with
    | none => cases h
    | some b => exact ⟨url, b, ha, by rw [hg], by rw [hg]⟩
  | enclaveStatus url =>
    obtain ⟨p, enc, b, s', g1, g2, g3⟩ := status_done (at_ C o url) s _ (r := r) (es := (execute C o (.enclaveStatus url) s).events)
      (by rw [← h]; rfl)
    exact ⟨url, p, ha, ⟨enc, b, s', g1, g2⟩, by rw [h, g3]⟩
  | enclaveVersion url =>
    obtain ⟨v, c, enc, b, s', g1, g2, g3⟩ := version_done (at_ C o url) s _ (r := r)
      (es := (execute C o (.enclaveVersion url) s).events) (by rw [← h]; rfl)
    exact ⟨url, v, c, ha, ⟨enc, b, s', g1, g2⟩, by rw [h, g3]⟩
  | generateFileKey seedPath pubPath =>
    have hx := quiet_run h
    unfold Client.generateFileKey at hx
    simp only [lift_bind_ok, write_bind_ok, mapStop_ok, write_ok] at hx
    obtain ⟨pair, h1, -, es, ⟨-, -, rfl⟩, h2⟩ := hx
    exact ⟨seedPath, pubPath, pair, ha.1, ha.2, h1, h2⟩
  | generateManifestEnvelope dir path out =>
    have hx := quiet_run h
    unfold Client.generateManifestEnvelope at hx
    simp only [lift_bind_ok, orStop_ok, write_ok] at hx
    obtain ⟨e, h1, b, h2, -, -, h3⟩ := hx
    obtain ⟨g1, g2, g3, g4⟩ := envelope_sound C dir path e h1
    refine ⟨dir, path, _, e, b, ha.1, ha.2.1, ?_, g1, g2, g3, g4, ?_, h3⟩
    · cases out with
      | some p => exact .inl ((ha.2.2 p).mp rfl)
      | none => exact .inr ⟨fun p hp => (nomatch (ha.2.2 p).mpr hp), rfl⟩
    · intro hok
      obtain ⟨b', hb, hb'⟩ := storage_roundtrip e hok
      rw [h2, Option.some.injEq] at hb
      rw [hb]
      exact hb'
  | bootGenesis url a =>
    have hx := quiet_run h
    refine ⟨url, a.namespaceDir, a.shareSetDir, a.releaseDir, a.pcr3Path, a.drKeyPath, ha.1, ha.2.1, ha.2.2.1, ha.2.2.2.1,
      ha.2.2.2.2.1, ha.2.2.2.2.2.2, fun hf => ?_⟩
    have hs : a.unsafeSkip = false := flag_none ha.2.2.2.2.2.1 hf
    obtain ⟨p, c, hw⟩ := bootGenesis_writes (at_ C o url) a s (quiet_ok h).1
    obtain ⟨set, drKey, cose, g, body, w, g1, g2, g3, g4, g5, g6, g7, -, g9⟩ := boot_genesis_safe (at_ C o url) a hs s p c hw
    refine ⟨set, drKey, cose, g, body, g1, g2, g3, g4, g5, ⟨g6.vouches⟩, ?_⟩
    show (quiet _ s).events = _
    rw [quiet_events, g7, g9 (quiet_ok h).1]
  | afterGenesis sg a =>
    obtain ⟨pair, s1, es1, es2, h1, h2, h3⟩ := bind_run (x := Run.lift (openSigner C sg))
      (f := fun pair => quiet (Client.afterGenesis C pair a)) (s := s) (b := r)
      (s' := (execute C o (.afterGenesis sg a) s).state) (es := (execute C o (.afterGenesis sg a) s).events) (by rw [← h]; rfl)
    obtain ⟨hk, rfl, rfl⟩ := lift_run h1
    cases sg with
    | yubikey pin => cases hk
    | file secret =>
    have ha' := ha
    obtain ⟨i1, i2, i3, i4, i5, i6, i7, i8⟩ := ha'
    refine ⟨secret, a.sharePath, a.memberAlias, a.namespaceDir, a.releaseDir, a.pcr3Path, a.timeOverride, pair, signer_file i1,
      i2, i3, i4, i5, i6, i8, pairFromFile_ok.mp hk, fun hf => ?_⟩
    have hq : (quiet (Client.afterGenesis C pair a) s1).result = .ok r := by rw [h2]
    have hx := quiet_run hq
    have hev : (quiet (Client.afterGenesis C pair a) s1).events = es2 := by rw [h2]
    rw [hev] at hx
    have hx' := hx
    unfold Client.afterGenesis at hx'
    simp only [lift_bind_ok, write_ok] at hx'
    obtain ⟨share, -, -, -, rfl⟩ := hx'
    have hmem : (Client.Event.wrote a.sharePath share) ∈ (Client.afterGenesis C pair a s1).events := by
      rw [hx]; exact List.mem_singleton.mpr rfl
    obtain ⟨cose, g, own, plain, g1, g2, g3, g4, g5, g6, g7, g8⟩ :=
      after_genesis_safe C pair a (flag_none i7 hf) s1 _ hmem
    refine ⟨cose, g, own, plain, g1, g2, g3, g4, g5, g6, g7, ?_⟩
    rw [h3, ← g8]
    rfl
  | verifyGenesis dir seed =>
    obtain ⟨g, sd, quorum, g1⟩ := (verify_genesis_exact C hp dir seed s).mp (quiet_ok h).1
    exact ⟨dir, seed, g, sd, quorum, ha.1, ha.2, g1⟩
  | generateManifest v2 a =>
    have hx := quiet_run h
    cases v2 with
    | false =>
      have hx : Client.generateManifest C a s = _ := hx
      have hx' := hx
      unfold Client.generateManifest at hx'
      simp only [lift_bind_ok, write_ok] at hx'
      obtain ⟨m, -, c, -, -, -, hev⟩ := hx'
      have hev : (execute C o (.generateManifest false a) s).events = [.wrote a.manifestPath c] := hev
      have hmem : (Client.Event.wrote a.manifestPath c) ∈ (Client.generateManifest C a s).events := by
        rw [hx]
        show _ ∈ (execute C o (.generateManifest false a) s).events
        rw [hev]; exact List.mem_singleton.mpr rfl
      obtain ⟨-, m, g1, g2, g3, g4⟩ := generate_v1_written C hp hr a s _ _ hmem
      exact ⟨a, .v1 m, c, false, ha, g1, g2, g3, g4, by simp, hev⟩
    | true =>
      have hx : Client.generateManifestV2 C a s = _ := hx
      have hx' := hx
      unfold Client.generateManifestV2 at hx'
      simp only [lift_bind_ok, write_ok] at hx'
      obtain ⟨m, -, c, -, -, -, hev⟩ := hx'
      have hev : (execute C o (.generateManifest true a) s).events = [.wrote a.manifestPath c] := hev
      have hmem : (Client.Event.wrote a.manifestPath c) ∈ (Client.generateManifestV2 C a s).events := by
        rw [hx]
        show _ ∈ (execute C o (.generateManifest true a) s).events
        rw [hev]; exact List.mem_singleton.mpr rfl
      obtain ⟨-, m, g1, g2, g3, -, g4⟩ := generate_v2_written C hp hr a s _ _ hmem
      exact ⟨a, .v2 m, c, true, ha, g1, g2, g3, g4, by simp, hev⟩
  | approveManifest sg a =>
    obtain ⟨pair, s1, es1, es2, h1, h2, h3⟩ := bind_run (x := Run.lift (openSigner C sg))
      (f := fun pair => quiet (Client.approveManifest C pair a o.input)) (s := s) (b := r)
      (s' := (execute C o (.approveManifest sg a) s).state) (es := (execute C o (.approveManifest sg a) s).events)
      (by rw [← h]; rfl)
    obtain ⟨hk, rfl, rfl⟩ := lift_run h1
    cases sg with
    | yubikey pin => cases hk
    | file secret =>
    have hk : SeedIn C.prims C.disk secret pair := pairFromFile_ok.mp hk
    have hq : (quiet (Client.approveManifest C pair a o.input) s1).result = .ok r := by rw [h2]
    have hx := quiet_run hq
    have hev : (quiet (Client.approveManifest C pair a o.input) s1).events = es2 := by rw [h2]
    rw [hev] at hx
    have hx' := hx
    unfold Client.approveManifest at hx'
    simp only [lift_bind_ok] at hx'
    obtain ⟨m, -, hx'⟩ := hx'
    obtain ⟨-, s4, es4, es5, -, h5, h6⟩ := bind_run hx'
    simp only [write_ok] at h5
    obtain ⟨-, -, rfl⟩ := h5
    obtain ⟨c, hc, t, seed, k1, k2, k3⟩ := id hk
    obtain ⟨m', es, g1, g2, g3, g4, g5, g6, g7⟩ := approve_safe C hp seed pair k3 a o.input s1 _ _
      (by rw [hx, h6]; exact List.mem_append_right _ (List.mem_singleton.mpr rfl))
    refine ⟨secret, a, pair, m', pathJoin a.approvalsDir (approvalName a.memberAlias m), _, es, ha, hk, g1, g2, ?_, fun hf => g4 (flag_none ha.2.2.2.2.2.2.2.2.2.2.2 hf), g5⟩
    rw [h3, List.nil_append, ← g3, hx]
  | bootStandard url a =>
    obtain ⟨e, pivot, cose, g1, g2, g3⟩ := bootStandard_answer (at_ C o url) a s (quiet_ok h).1
    by_cases hf : .flag "unsafe-skip-attestation" ∈ items
    · obtain ⟨m, b, s', j1, j2, j3⟩ := g3
      exact ⟨url, a.pivotPath, a.envelopePath, a.pcr3Path, e, pivot, cose, ha.1, ha.2.1, ha.2.2.1, ha.2.2.2.1, g1, g2, ⟨m, j1, .borsh, b, s', j2, j3⟩, fun h => absurd hf h⟩
    · obtain ⟨e, pivot, cose, role, key, target, g1, g2, ⟨m, b, s', j1, j2, j3⟩, g4, g5⟩ := boot_standard_safe (at_ C o url) a
        (flag_none ha.2.2.2.2 hf) s (quiet_ok h).1
      exact ⟨url, a.pivotPath, a.envelopePath, a.pcr3Path, e, pivot, cose, ha.1, ha.2.1, ha.2.2.1, ha.2.2.2.1, g1, g2, ⟨m, j1, .borsh, b, s', j2, j3⟩,
        fun _ => ⟨role, key, target, ⟨g4.genuine, g4.inFile, g4.pcr3⟩, g5⟩⟩
  | getAttestationDoc url doc e =>
    obtain ⟨d, env, sents, g⟩ := getAttestationDoc_done (at_ C o url) doc e s _ _ (quiet_run h)
    exact ⟨url, doc, e, d, env, sents, ha.1, ha.2.1, ha.2.2, g⟩
  | getEphemeralKeyHex doc key =>
    obtain ⟨der, d, k, t, g1, g2, g3, g4, -, -, g5⟩ := (ephemeral_key_file C doc key s _ _).mp (quiet_run h)
    exact ⟨doc, key, der, d, k, t, ha.1, ha.2, g1, g2, g3, g4, g5⟩
  | proxyReEncryptShare sg a =>
    obtain ⟨pair, s1, es1, es2, h1, h2, h3⟩ := bind_run (x := Run.lift (openSigner C sg))
      (f := fun pair => quiet (Client.proxyReEncryptShare C pair a o.input)) (s := s) (b := r)
      (s' := (execute C o (.proxyReEncryptShare sg a) s).state) (es := (execute C o (.proxyReEncryptShare sg a) s).events)
      (by rw [← h]; rfl)
    obtain ⟨hk, rfl, rfl⟩ := lift_run h1
    cases sg with
    | yubikey pin => cases hk
    | file secret =>
    have hk : SeedIn C.prims C.disk secret pair := pairFromFile_ok.mp hk
    have hq : (quiet (Client.proxyReEncryptShare C pair a o.input) s1).result = .ok r := by rw [h2]
    have hx := quiet_run hq
    have hev : (quiet (Client.proxyReEncryptShare C pair a o.input) s1).events = es2 := by rw [h2]
    rw [hev] at hx
    obtain ⟨c, hc, t, seed, k1, k2, k3⟩ := id hk
    obtain ⟨e, share, plain, target, wrapped, es, g1, g2, g3, g4, g5, g6⟩ := proxy_done C pair a o.input s1 _ _ hx
    refine ⟨secret, a, pair, e, share, plain, target, wrapped, _, es, ha, hk, g1, g2, g3, g4,
      signed_approval _ hp seed pair k3 _ _, ?_, g6⟩
    rw [h3, List.nil_append, g5]
  | postShare url wrapped approval =>
    obtain ⟨b, s1, es1, es2, h1, h2, h3⟩ := bind_run (x := Client.postShare (at_ C o url) wrapped approval)
      (f := fun r => pure (.reconstructed r)) (s := s) (b := r)
      (s' := (execute C o (.postShare url wrapped approval) s).state) (es := (execute C o (.postShare url wrapped approval) s).events)
      (by rw [← h]; rfl)
    obtain ⟨x, c, a, g1, g2, g3, g4⟩ := postShare_done (at_ C o url) wrapped approval s s1 b es1 h1
    have hr : Shown.reconstructed b = r := by
      have := congrArg Out.result h2
      cases this
      rfl
    exact ⟨url, wrapped, approval, x, c, a, b, ha.1, ha.2.1, ha.2.2, g1, g2, g3, g4, by rw [h, hr]⟩
  | dangerousDevBoot url a =>
    obtain ⟨⟨s1, w1, g1⟩, s2, w2, g2, g3⟩ := dev_boot_success (at_ C o url) o.dev a s (quiet_ok h).1
    exact ⟨url, s1, w1, s2, w2, ha.1, g1, g2, by show (quiet _ s).state = _; rw [quiet_state]; exact g3⟩
  | provisionYubikey pub => cases h
  | advancedProvisionYubikey seed pin => cases h
  | pivotHash pivot out =>
    have hx := quiet_run h
    unfold pivotHash at hx
    simp only [lift_bind_ok, orStop_ok, write_ok] at hx
    obtain ⟨b, h1, -, -, h2⟩ := hx
    exact ⟨pivot, out, b, ha.1, ha.2, h1, h2⟩
  | shamirSplit path total threshold dir =>
    obtain ⟨secret, shares, g1, g2, g3⟩ := split_done C o.coeffs path total threshold dir s _ _ (quiet_run h)
    exact ⟨path, dir, total, threshold, secret, shares, ha.1, ha.2.2.2, ha.2.1, ha.2.2.1, g1, g2, g3⟩
  | shamirReconstruct shares out =>
    obtain ⟨bs, secret, g1, g2, g3⟩ := reconstruct_done C shares out s _ _ (quiet_run h)
    exact ⟨out, bs, secret, ha.2, ha.1 ▸ g1, g2, g3⟩
  | yubikeySign payload => cases h
  | yubikeyPublic => cases h
  | yubikeyPivReset => cases h
  | yubikeyChangePin current new => cases h
  | display type path json =>
    exact display_done C o s type path json ha h
  | jsonToBorsh type path out =>
    obtain ⟨c, g1, g2⟩ := jsonToBorsh_done C type path out s _ _ (quiet_run h)
    refine ⟨path, out, c, ha.2.1, ha.2.2, g1, ?_⟩
    cases type with
    | manifest => exact .inl ⟨ha.1, g2⟩
    | manifestEnvelope => exact .inr ⟨ha.1, g2⟩
    | genesisOutput => exact g2.elim
  | bootKeyFwd url e pivot doc =>
    obtain ⟨env, pv, d, sents, g1, g2, g3, g4, g5⟩ := boot_key_fwd_safe (at_ C o url) e pivot doc s (quiet_ok h).1
    refine ⟨url, e, pivot, doc, env, pv, d, ha.1, ha.2.1, ha.2.2.1, ha.2.2.2, g1, g2, g3, sents, ?_, g5⟩
    show (quiet _ s).events = _
    rw [quiet_events]; exact g4
  | exportKey url e doc out =>
    obtain ⟨env, d, ct, sig, sents, g1, g2, g3, g4, g5⟩ := export_key_safe (at_ C o url) e doc out s (quiet_ok h).1
    refine ⟨url, e, doc, out, env, d, ct, sig, ha.1, ha.2.1, ha.2.2.1, ha.2.2.2, g1, g2, g3, sents, ?_, g5⟩
    show (quiet _ s).events = _
    rw [quiet_events]; exact g4
  | injectKey url key =>
    obtain ⟨c, ct, sig, g1, g2, g3⟩ := inject_key_safe (at_ C o url) key s (quiet_ok h).1
    exact ⟨url, key, c, ct, sig, ha.1, ha.2, g1, g2, g3⟩
  | p256Verify payload sig pub =>
    obtain ⟨pl, sg, k, g1, g2, g3, g4⟩ := (verify_exact C payload sig pub s).1.mp (quiet_ok h).1
    exact ⟨payload, sig, pub, pl, sg, k, ha.1, ha.2.1, ha.2.2, g1, g2, g3, g4⟩
  | p256Sign payload sig seed =>
    obtain ⟨pl, pair, g1, g2, -, -, g3⟩ := (sign_exact C payload sig seed s _ _).mp (quiet_run h)
    exact ⟨payload, sig, seed, pl, pair, ha.1, ha.2.1, ha.2.2, g1, g2, g3⟩
  | p256AsymmetricEncrypt plain cipher pub =>
    obtain ⟨k, pl, t, ct, g1, g2, g3, g4, -, -, g5⟩ := (encrypt_exact C plain cipher pub s _ _).mp (quiet_run h)
    exact ⟨plain, cipher, pub, pl, k, t, ct, ha.1, ha.2.1, ha.2.2, g2, g1, g3, g4, g5⟩
  | p256AsymmetricDecrypt plain cipher seed hex =>
    obtain ⟨pair, ct, pl, g1, g2, g3, -, -, g4⟩ := (decrypt_exact C plain cipher seed hex s _ _).mp (quiet_run h)
    refine ⟨plain, cipher, seed, pl, ct, pair, ha.1, ha.2.1, ha.2.2.1, g2, g1, g3, fun hf => ?_, fun hf => ?_⟩
    · rw [ha.2.2.2.mpr hf] at g4 ⊢
      exact g4
    · cases hex with
      | true => exact absurd (ha.2.2.2.mp rfl) hf
      | false => exact g4

/-- C66: a command that ends with success, other than by printing its help or version, was given options as it wants them,
and has done what its entry in the table says, with the files, directories, numbers and host that those options name. -/
theorem success_exact (C : Setting S) (hp : C.prims.Laws) (hr : 2 * C.awsRoot.length < 256 * 1024 * 1024) (o : Outside S)
    (c : Command) (s : S) (asked : "--help" ∉ args ∧ "--version" ∉ args) {r : Shown}
    (h : (program C o (prog :: c.name :: args) s).result = .ok r) :
    ∃ items, args = words items ∧ Follows c items ∧ Done C o s items (program C o (prog :: c.name :: args) s) c := by
  obtain ⟨x, hx⟩ : ∃ x, client (prog :: c.name :: args) = .runs x := by
    unfold program at h
    cases hc : client (prog :: c.name :: args) with
    | help => exact absurd ((client_help c).1.mp hc) asked.1
    | version => exact absurd ((client_help c).2.mp hc).2 asked.2
    | panics => rw [hc] at h; cases h
    | runs x => exact ⟨x, rfl⟩
  obtain ⟨hn, -, -, items, hw, hf, ha⟩ := (client_exact x).mp hx
  have hxc : x.command = c := name_inj hn.symm
  have hrun : program C o (prog :: c.name :: args) s = execute C o x s := by
    unfold program
    rw [hx]
  rw [hrun] at h ⊢
  subst hxc
  exact ⟨items, hw, hf, execute_done C hp hr o s x ha h⟩

/-- C66: in the build without smartcards no YubiKey command succeeds. -/
theorem no_yubikey_success (C : Setting S) (o : Outside S) (s : S) (c : Command)
    (hc : c ∈ [.provisionYubikey, .advancedProvisionYubikey, .yubikeySign, .yubikeyPublic, .yubikeyPivReset, .yubikeyChangePin])
    (hp : C.prims.Laws) (hr : 2 * C.awsRoot.length < 256 * 1024 * 1024) (asked : "--help" ∉ args ∧ "--version" ∉ args) (r : Shown) :
    (program C o (prog :: c.name :: args) s).result ≠ .ok r := by
  intro h
  obtain ⟨items, -, -, hd⟩ := success_exact C hp hr o c s asked h
  simp only [List.mem_cons, List.not_mem_nil, or_false] at hc
  rcases hc with rfl | rfl | rfl | rfl | rfl | rfl <;> exact hd

/-- Both apply: `pivot-hash` on a small disk succeeds. `boot-standard` and `approve-manifest` succeed in `toy_boot_command` and
`toy_approve_command`. -/
example (o : Outside Unit) : toySetting.prims.Laws ∧ 2 * toySetting.awsRoot.length < 256 * 1024 * 1024 ∧
    (program { toySetting with disk := seedDisk [7] } o ["qos_client", "pivot-hash", "--pivot-path", "seed", "--output-path", "out"]
      ()).result = .ok .nothing := by
  refine ⟨P256.toyLaws, by decide, ?_⟩
  have h : client ["qos_client", "pivot-hash", "--pivot-path", "seed", "--output-path", "out"] = .runs (.pivotHash "seed" "out") :=
    client_runs (c := .pivotHash) (items := [.value "pivot-path" "seed", .value "output-path" "out"]) rfl
      (follows_of (by simp [Belongs, needs, may]) (by decide) (by decide) (by decide))
      ⟨by simp [Says], by simp [Says]⟩
  unfold program
  rw [h]
  rfl

end Qos.ClientCli
