import Verif.Lemmas.Yubikey
/-!
# C63: what the client does with a YubiKey, whatever the card does

Nothing is assumed of the card in this file: it may lie, fail at any moment, or change from one command to the next.

Concrete cases: `Props/YubikeyToy.lean` and `Props/YubikeyCommandsToy.lean`.
-/
namespace Qos.Yubi
open Client (Stop ClientError YubiKeyError Setting Run Disk orStop mapStop guardStop)
open P256 (Pair Public)
variable {D : Type}

/-- The calls that use the card: those of `provision-yubikey` and the like, and those that sign or decrypt. -/
def CardCall : ClientCli.Call → Prop
  | .afterGenesis _ _ | .approveManifest _ _ | .proxyReEncryptShare _ _ | .provisionYubikey _ | .advancedProvisionYubikey _ _
  | .yubikeySign _ | .yubikeyPublic | .yubikeyPivReset | .yubikeyChangePin _ _ => True
  | _ => False

/-- The calls that only use keys already on the card. -/
def UsingCall : ClientCli.Call → Prop
  | .afterGenesis _ _ | .approveManifest _ _ | .proxyReEncryptShare _ _ | .yubikeySign _ | .yubikeyPublic => True
  | _ => False

section closed
variable {Q : List (Cmd × Answer) → Prop}

/-- What a fine log may consist of: anything but keys, resets and changes of the PIN. -/
structure Allows (Q : List (Cmd × Answer) → Prop) : Prop extends Closed Q where
  harmless : ∀ c a, c.Harmless → Q [(c, a)]

theorem logs_verifyPin (hQ : Allows Q) (P : Piv D) (pin : Bytes) : Logs Q (verifyPin P pin) :=
  Logs.need fun _ => hQ.harmless _ _ trivial

theorem logs_keyAgreePublicKey (hQ : Allows Q) (P : Piv D) : Logs Q (keyAgreePublicKey P) :=
  Logs.needKey fun _ => hQ.harmless _ _ trivial

theorem logs_pairPublicKey (hQ : Allows Q) (P : Piv D) : Logs Q (pairPublicKey P) :=
  .bind hQ.toClosed (.needKey fun _ => hQ.harmless _ _ trivial) fun _ =>
    .bind hQ.toClosed (logs_keyAgreePublicKey hQ P) fun _ => .pure hQ.toClosed _

theorem logs_signData (hQ : Allows Q) (p : Prims) (der : Bytes → Option Bytes) (P : Piv D) (data pin : Bytes) :
    Logs Q (signData p der P data pin) :=
  .bind hQ.toClosed (.needKey fun _ => hQ.harmless _ _ trivial) fun _ =>
    .bind hQ.toClosed (.lift hQ.toClosed _) fun _ =>
      .bind hQ.toClosed (logs_verifyPin hQ P pin) fun _ =>
        .bind hQ.toClosed (.needData fun _ => hQ.harmless _ _ trivial) fun _ => .lift hQ.toClosed _

theorem logs_sharedSecret (hQ : Allows Q) (P : Piv D) (buf pin : Bytes) : Logs Q (sharedSecret P buf pin) :=
  .bind hQ.toClosed (.lift hQ.toClosed _) fun _ =>
    .bind hQ.toClosed (logs_verifyPin hQ P pin) fun _ => .needData fun _ => hQ.harmless _ _ trivial

theorem logs_sign (hQ : Allows Q) (p : Prims) (der : Bytes → Option Bytes) (P : Piv D) (data : Bytes) (h : Holder) :
    RunLogs Q (h.sign p der P data) := by
  cases h with
  | pair k => exact .pure hQ.toClosed _
  | yubi pin => exact .onCard (logs_signData hQ p der P data pin)

theorem logs_publicKeyBytes (hQ : Allows Q) (p : Prims) (P : Piv D) (h : Holder) : RunLogs Q (h.publicKeyBytes p P) := by
  cases h with
  | pair k => exact .pure hQ.toClosed _
  | yubi pin => exact .onCard (logs_pairPublicKey hQ P)

theorem logs_decrypt (hQ : Allows Q) (p : Prims) (P : Piv D) (buf : Bytes) (h : Holder) : RunLogs Q (h.decrypt p P buf) := by
  cases h with
  | pair k => exact .lift hQ.toClosed _
  | yubi pin =>
    exact .bind hQ.toClosed (.onCard (logs_sharedSecret hQ P buf pin)) fun _ =>
      .bind hQ.toClosed (.onCard (logs_keyAgreePublicKey hQ P)) fun _ =>
        .bind hQ.toClosed (.lift hQ.toClosed _) fun _ => .lift hQ.toClosed _

theorem logs_openHolder (hQ : Allows Q) (C : Setting (Plugged D)) (P : Piv D) (prompt : Option Bytes) (s : ClientCli.Signer) :
    RunLogs Q (openHolder C P prompt s) := by
  cases s with
  | file path => exact .bind hQ.toClosed (.lift hQ.toClosed _) fun _ => .pure hQ.toClosed _
  | yubikey pinPath =>
    exact .bind hQ.toClosed (.openCard hQ.toClosed P _) fun _ =>
      .bind hQ.toClosed (.lift hQ.toClosed _) fun _ => .pure hQ.toClosed _

theorem logs_using (hQ : Allows Q) (C : Setting (Plugged D)) (o : ClientCli.Outside (Plugged D)) (der : Bytes → Option Bytes)
    (P : Piv D) (prompt : Option Bytes) (c : ClientCli.Call) (hc : UsingCall c) : RunLogs Q (execute C o der P prompt c) := by
  have hC := hQ.toClosed
  cases c with
  | afterGenesis s a =>
    refine .bind hC (logs_openHolder hQ C P prompt s) fun h => .quiet hC ?_
    exact .bind hC (.lift hC _) fun _ => .bind hC (logs_publicKeyBytes hQ _ P h) fun _ => .bind hC (.lift hC _) fun _ =>
      .bind hC (logs_decrypt hQ _ P _ h) fun _ => .bind hC (.lift hC _) fun _ => .write hC _ _ _
  | approveManifest s a =>
    refine .bind hC (logs_openHolder hQ C P prompt s) fun h => .quiet hC ?_
    exact .bind hC (.lift hC _) fun _ => .bind hC (.confirm hC _ _ _) fun _ => .bind hC (logs_sign hQ _ der P _ h) fun _ =>
      .bind hC (logs_publicKeyBytes hQ _ P h) fun _ => .write hC _ _ _
  | proxyReEncryptShare s a =>
    refine .bind hC (logs_openHolder hQ C P prompt s) fun h => .quiet hC ?_
    exact .bind hC (.lift hC _) fun _ => .bind hC (logs_publicKeyBytes hQ _ P h) fun _ => .bind hC (.lift hC _) fun _ =>
      .bind hC (.confirm hC _ _ _) fun _ => .bind hC (.orPanic (logs_decrypt hQ _ P _ h)) fun _ => .bind hC (.lift hC _) fun _ =>
        .bind hC (.orPanic (logs_sign hQ _ der P _ h)) fun _ => .bind hC (.write hC _ _ _) fun _ => .write hC _ _ _
  | yubikeySign payload =>
    exact .bind hC (.bind hC (.lift hC _) fun _ => .bind hC (logs_openHolder hQ C P prompt _) fun h =>
      .bind hC (logs_sign hQ _ der P _ h) fun _ => .pure hC _) fun _ => .pure hC _
  | yubikeyPublic =>
    exact .bind hC (.bind hC (.openCard hC P _) fun _ => .bind hC (.onCard (logs_pairPublicKey hQ P)) fun _ => .pure hC _)
      fun _ => .pure hC _
  | _ => exact absurd hc (by simp [UsingCall])

end closed

/-! ## Keys on the card are never overwritten -/

/-- A log as one wants it. -/
def Careful (log : List (Cmd × Answer)) : Prop := Guarded log ∧ Protected log

theorem closed_careful : Closed Careful where
  nil := ⟨closed_guarded.nil, closed_protected.nil⟩
  append a b ha hb := ⟨closed_guarded.append a b ha.1 hb.1, closed_protected.append a b ha.2 hb.2⟩

/-- One command that puts no key on the card. -/
theorem careful_single {c : Cmd} {a : Answer} (h : ∀ slot, ¬ c.WritesKey slot) : Careful [(c, a)] := by
  refine ⟨guarded_single h, fun slot p t x hm => ?_, fun slot k t p x hm => ?_⟩
  · have e := List.mem_singleton.mp hm
    simp only [Prod.mk.injEq] at e
    exact absurd (Or.inl ⟨p, t, e.1.symm⟩) (h slot)
  · have e := List.mem_singleton.mp hm
    simp only [Prod.mk.injEq] at e
    exact absurd (Or.inr ⟨k, t, p, e.1.symm⟩) (h slot)

theorem allows_careful : Allows Careful where
  toClosed := closed_careful
  harmless c a h := careful_single fun slot hw => by
    rcases hw with ⟨_, _, rfl⟩ | ⟨_, _, _, rfl⟩ <;> exact h

theorem logs_ignore (P : Piv D) {c : Cmd} (h : ∀ slot, ¬ c.WritesKey slot) : Logs Careful (ignore P c) :=
  .bind closed_careful (.send fun _ => careful_single h) fun _ => .pure closed_careful _

theorem logs_requireEmpty_then {α : Type} (P : Piv D) (slot : Slot) (f : Dev D α)
    (hf : ∀ s, ∃ l, (f s).2.log = s.log ++ l ∧ Careful ((.readCertificate slot, .failed) :: l)) :
    Logs Careful (requireEmpty P slot >>= fun _ => f) := by
  intro s
  rw [bind_run, requireEmpty_run]
  by_cases h : (P.act s.card (.readCertificate slot)).2.isOk = true
  · rw [if_pos h]
    exact ⟨_, rfl, careful_single fun s hw => by simp [Cmd.WritesKey] at hw⟩
  · rw [if_neg h]
    have hfail : (P.act s.card (.readCertificate slot)).2 = .failed := by
      cases hx : (P.act s.card (.readCertificate slot)).2 with
      | failed => rfl
      | _ => rw [hx] at h; exact absurd rfl h
    rw [hfail]
    obtain ⟨l, hl, hq⟩ := hf ⟨(P.act s.card (.readCertificate slot)).1, s.log ++ [(.readCertificate slot, .failed)]⟩
    exact ⟨(.readCertificate slot, .failed) :: l, by rw [hl]; simp, hq⟩

theorem logs_certify (P : Piv D) {α : Type} (slot : Slot) (pin key : Bytes) (r : α) :
    Logs Careful (do
      verifyPin P pin
      need P (.selfSign slot key) .failedToGenerateSelfSignedCert
      pure r : Dev D α) :=
  .bind closed_careful (logs_verifyPin allows_careful P pin) fun _ =>
    .bind closed_careful (.need fun _ => careful_single fun s hw => by simp [Cmd.WritesKey] at hw) fun _ => .pure closed_careful _

theorem logs_certify' (P : Piv D) (slot : Slot) (pin key : Bytes) :
    Logs Careful (do
      verifyPin P pin
      need P (.selfSign slot key) .failedToGenerateSelfSignedCert : Dev D Unit) :=
  .bind closed_careful (logs_verifyPin allows_careful P pin) fun _ =>
    .need fun _ => careful_single fun s hw => by simp [Cmd.WritesKey] at hw

theorem generate_slot {slot s : Slot} {p : PinPolicy} {t : TouchPolicy} (h : (Cmd.generate slot p t).WritesKey s) : s = slot := by
  rcases h with ⟨_, _, e⟩ | ⟨_, _, _, e⟩
  · cases e; rfl
  · cases e

theorem import_slot {slot s : Slot} {k : Bytes} {p : PinPolicy} {t : TouchPolicy} (h : (Cmd.importKey slot k t p).WritesKey s) :
    s = slot := by
  rcases h with ⟨_, _, e⟩ | ⟨_, _, _, e⟩
  · cases e
  · cases e; rfl

theorem logs_generate (P : Piv D) (slot : Slot) (pin : Bytes) (mgm : MgmKey) :
    Logs Careful (generateSignedCertificate P slot pin mgm .always) := by
  refine .bind closed_careful (logs_verifyPin allows_careful P pin) fun _ =>
    .bind closed_careful (.need fun _ => allows_careful.harmless _ _ trivial) fun _ => logs_requireEmpty_then P slot _ fun s => ?_
  rw [bind_run, needKey_run]
  have hg : ∀ a, Careful [(.readCertificate slot, .failed), (.generate slot .always .always, a)] := fun a =>
    ⟨guarded_pair (fun s hw => generate_slot hw), by simp only [Protected, List.mem_cons]; simp_all⟩
  cases hk : keyOf .failedToGenerateKey (P.act s.card (.generate slot .always .always)).2 with
  | error e => exact ⟨_, rfl, hg _⟩
  | ok key =>
    obtain ⟨l, hl, hq⟩ := logs_certify P slot pin key key
      ⟨(P.act s.card (.generate slot .always .always)).1,
        s.log ++ [(.generate slot .always .always, (P.act s.card (.generate slot .always .always)).2)]⟩
    exact ⟨(.generate slot .always .always, (P.act s.card (.generate slot .always .always)).2) :: l,
      hl.trans (by simp),
      by simpa using closed_careful.append _ _ (hg (P.act s.card (.generate slot .always .always)).2) hq⟩

theorem logs_import (p : Prims) (P : Piv D) (k : Bytes) (slot : Slot) (pin : Bytes) (mgm : MgmKey) :
    Logs Careful (importKeyAndGenerateSignedCertificate p P k slot pin mgm .always) := by
  refine .bind closed_careful (logs_verifyPin allows_careful P pin) fun _ =>
    .bind closed_careful (.need fun _ => allows_careful.harmless _ _ trivial) fun _ => logs_requireEmpty_then P slot _ fun s => ?_
  rw [bind_run, lift_run]
  have hr : Careful [((.readCertificate slot : Cmd), Answer.failed)] :=
    careful_single fun s hw => by simp [Cmd.WritesKey] at hw
  cases publicOf p k with
  | error e => exact ⟨[], by simp, hr⟩
  | ok key =>
    simp only
    rw [bind_run, need_run]
    have hg : ∀ a, Careful [(.readCertificate slot, .failed), (.importKey slot k .always .always, a)] := fun a =>
      ⟨guarded_pair (fun s hw => import_slot hw), by simp only [Protected, List.mem_cons]; simp_all⟩
    cases hk : succeeded .failedToLoadKey (P.act s.card (.importKey slot k .always .always)).2 with
    | error e => exact ⟨_, rfl, hg _⟩
    | ok u =>
      obtain ⟨l, hl, hq⟩ := logs_certify' P slot pin key
        ⟨(P.act s.card (.importKey slot k .always .always)).1,
          s.log ++ [(.importKey slot k .always .always, (P.act s.card (.importKey slot k .always .always)).2)]⟩
      exact ⟨(.importKey slot k .always .always, (P.act s.card (.importKey slot k .always .always)).2) :: l,
        hl.trans (by simp),
        by simpa using closed_careful.append _ _ (hg (P.act s.card (.importKey slot k .always .always)).2) hq⟩

/-- Whatever the card does and whichever command is run: a key is put into a slot only right after the card had no certificate
to show for that slot, and every key put on the card needs the PIN and a touch for each use. -/
theorem never_overwrites (C : Setting (Plugged D)) (o : ClientCli.Outside (Plugged D)) (der : Bytes → Option Bytes) (P : Piv D)
    (prompt : Option Bytes) (c : ClientCli.Call) (hc : CardCall c) (s : Plugged D) :
    ∃ l, (execute C o der P prompt c s).state.log = s.log ++ l ∧ Guarded l ∧ Protected l := by
  have hC := closed_careful
  suffices h : RunLogs Careful (execute C o der P prompt c) from h s
  cases c with
  | afterGenesis s a => exact logs_using allows_careful C o der P prompt _ trivial
  | approveManifest s a => exact logs_using allows_careful C o der P prompt _ trivial
  | proxyReEncryptShare s a => exact logs_using allows_careful C o der P prompt _ trivial
  | yubikeySign payload => exact logs_using allows_careful C o der P prompt _ trivial
  | yubikeyPublic => exact logs_using allows_careful C o der P prompt _ trivial
  | provisionYubikey path =>
    exact .quiet hC (.bind hC (.openCard hC P _) fun _ => .bind hC (.lift hC _) fun pin =>
      .bind hC (.onCard (logs_generate P .signature pin .factory)) fun _ =>
        .bind hC (.onCard (logs_generate P .keyManagement pin .factory)) fun _ =>
          .bind hC (.onCard (logs_pairPublicKey allows_careful P)) fun _ => .write hC _ _ _)
  | advancedProvisionYubikey seedPath pinPath =>
    exact .quiet hC (.bind hC (.openCard hC P _) fun _ => .bind hC (.lift hC _) fun pin => .bind hC (.lift hC _) fun pair =>
      .bind hC (.onCard (logs_import C.prims P pair.signSecret .signature pin .factory)) fun _ =>
        .bind hC (.onCard (logs_import C.prims P pair.encSecret .keyManagement pin .factory)) fun _ =>
          .bind hC (.onCard (logs_pairPublicKey allows_careful P)) fun _ => .lift hC _)
  | yubikeyChangePin current new =>
    exact .quiet hC (.bind hC (.lift hC _) fun _ => .bind hC (.lift hC _) fun _ => .bind hC (.openCard hC P _) fun _ =>
      .onCard (.need fun _ => careful_single fun s hw => by simp [Cmd.WritesKey] at hw))
  | yubikeyPivReset =>
    have hi : ∀ c : Cmd, (∀ slot, ¬ c.WritesKey slot) → Logs Careful (ignore P c) := fun c h => logs_ignore P h
    have hb : Logs Careful (blockRound P) :=
      .bind hC (hi _ (by simp [Cmd.WritesKey])) fun _ => hi _ (by simp [Cmd.WritesKey])
    exact .quiet hC (.bind hC (.openCard hC P _) fun _ => .onCard (.bind hC hb fun _ => .bind hC hb fun _ => .bind hC hb fun _ =>
      .bind hC (hi _ (by simp [Cmd.WritesKey])) fun _ => hi _ (by simp [Cmd.WritesKey])))
  | _ => exact absurd hc (by simp [CardCall])

/-- Nothing but PINs, certificate reads and uses of keys. -/
def OnlyUses (log : List (Cmd × Answer)) : Prop := ∀ x ∈ log, x.1.Harmless

/-- Approving, decrypting and showing the public key change nothing on the card: no key, no certificate, no PIN. -/
theorem using_changes_nothing (C : Setting (Plugged D)) (o : ClientCli.Outside (Plugged D)) (der : Bytes → Option Bytes)
    (P : Piv D) (prompt : Option Bytes) (c : ClientCli.Call) (hc : UsingCall c) (s : Plugged D) :
    ∃ l, (execute C o der P prompt c s).state.log = s.log ++ l ∧ ∀ x ∈ l, x.1.Harmless :=
  logs_using (Q := OnlyUses)
    { nil := fun _ h => by simp at h
      append := fun a b ha hb x h => (List.mem_append.mp h).elim (ha x) (hb x)
      harmless := fun c a h x hx => by rw [List.mem_singleton.mp hx]; exact h } C o der P prompt c hc s

/-! ## Signatures -/

theorem checkSignature_ok {p : Prims} {der : Bytes → Option Bytes} {key data answer sig : Bytes}
    (h : checkSignature p der key data answer = .ok sig) : der answer = some sig ∧ p.ecdsaVerify key data sig = true := by
  unfold checkSignature at h
  cases hd : der answer with
  | none => rw [hd] at h; cases h
  | some x =>
    rw [hd] at h
    by_cases hv : p.ecdsaVerify key data x = true
    · simp only [hv, if_true] at h; cases h; exact ⟨rfl, hv⟩
    · simp only [if_neg hv] at h; cases h

theorem verifyingKey_ok {p : Prims} {point key : Bytes} (h : verifyingKey p point = .ok key) : key = point ∧ p.pointOk key = true := by
  unfold verifyingKey at h
  by_cases hp : p.pointOk point = true
  · rw [if_pos hp] at h; cases h; exact ⟨rfl, hp⟩
  · rw [if_neg hp] at h; cases h

/-- A signature is only handed out if it is one, of the data that was to be signed, under the key in the certificate the card
showed for its signing slot. No card can make the client hand out anything else. -/
theorem signature_verifies (p : Prims) (der : Bytes → Option Bytes) (hd : DerOk p der) (P : Piv D) (data pin sig : Bytes)
    (s t : Plugged D) (h : signData p der P data pin s = (.ok sig, t)) :
    ∃ key l, t.log = s.log ++ (Cmd.readCertificate .signature, Answer.done key) :: l ∧ p.pointOk key = true ∧
      p.sigOk sig = true ∧ p.ecdsaVerify key data sig = true := by
  obtain ⟨point, s1, h1, ha⟩ := bind_done h
  obtain ⟨key, s2, h2, hb⟩ := bind_done ha
  obtain ⟨_, s3, h3, hc⟩ := bind_done hb
  obtain ⟨answer, s4, h4, hl⟩ := bind_done hc
  clear h ha hb hc
  rw [needKey_run] at h1
  rw [lift_run] at h2 hl
  simp only [Prod.mk.injEq] at h1 h2 hl
  obtain ⟨ha, -⟩ := keyOf_ok h1.1
  obtain ⟨rfl, hk⟩ := verifyingKey_ok h2.1
  obtain ⟨hs, hv⟩ := checkSignature_ok hl.1
  have e3 : ∃ l, s3.log = s2.log ++ l := by
    have := congrArg (fun x => x.2.log) h3
    simp only [verifyPin, need_run] at this
    exact ⟨_, this.symm⟩
  have e4 : ∃ l, s4.log = s3.log ++ l := by
    have := congrArg (fun x => x.2.log) h4
    simp only [needData_run] at this
    exact ⟨_, this.symm⟩
  obtain ⟨l3, e3⟩ := e3
  obtain ⟨l4, e4⟩ := e4
  refine ⟨key, l3 ++ l4, ?_, hk, hd _ _ hs, hv⟩
  rw [← hl.2, e4, e3, ← h2.2, ← h1.2]
  simp [ha]

/-- The payload is signed, not something else: the only digest the card is asked to sign is that of the data. -/
theorem signs_the_data (p : Prims) (der : Bytes → Option Bytes) (P : Piv D) (data pin : Bytes) (s : Plugged D) :
    ∃ l, (signData p der P data pin s).2.log = s.log ++ l ∧
      ∀ slot digest a, (Cmd.sign slot digest, a) ∈ l → slot = .signature ∧ digest = p.sha256 data := by
  have hQ : Closed fun l : List (Cmd × Answer) =>
      ∀ slot digest a, (Cmd.sign slot digest, a) ∈ l → slot = .signature ∧ digest = p.sha256 data :=
    { nil := fun _ _ _ h => by simp at h
      append := fun a b ha hb slot d x h => (List.mem_append.mp h).elim (ha slot d x) (hb slot d x) }
  have h : Logs (D := D) (fun l : List (Cmd × Answer) =>
      ∀ slot digest a, (Cmd.sign slot digest, a) ∈ l → slot = .signature ∧ digest = p.sha256 data) (signData p der P data pin) :=
    .bind hQ (.needKey fun a slot d x h => by simp at h) fun _ => .bind hQ (.lift hQ _) fun _ =>
      .bind hQ (.need fun a slot d x h => by simp at h) fun _ =>
        .bind hQ (.needData fun a slot d x h => by simp at h; exact ⟨h.1.1, h.1.2⟩) fun _ => .lift hQ _
  exact h s

/-! ## Public keys -/

theorem pairPublicKey_ok {P : Piv D} {s t : Plugged D} {key : Bytes} (h : pairPublicKey P s = (.ok key, t)) :
    ∃ signing agreement, key = agreement ++ signing ∧ encodedPoint signing = true ∧ encodedPoint agreement = true ∧
      t.log = s.log ++ [(.readCertificate .signature, .done signing), (.readCertificate .keyManagement, .done agreement)] := by
  obtain ⟨signing, s1, h1, h⟩ := bind_done h
  obtain ⟨agreement, s2, h2, h⟩ := bind_done h
  rw [needKey_run] at h1
  rw [keyAgreePublicKey, needKey_run] at h2
  simp only [Prod.mk.injEq] at h1 h2
  obtain ⟨ha, e1⟩ := keyOf_ok h1.1
  obtain ⟨hb, e2⟩ := keyOf_ok h2.1
  have h' : (Except.ok (agreement ++ signing), s2) = (Except.ok key, t) := h
  simp only [Prod.mk.injEq, Except.ok.injEq] at h'
  refine ⟨signing, agreement, h'.1.symm, e1, e2, ?_⟩
  rw [← h'.2, ← h2.2, ← h1.2]
  rw [← h1.2] at hb
  simp only at hb ⊢
  rw [ha, hb]
  simp

/-- What is written after provisioning is the public key the card then shows: the key agreement key, then the signing key. -/
theorem provision_writes_shown_key (C : Setting (Plugged D)) (P : Piv D) (prompt : Option Bytes) (path : String)
    (s t : Plugged D) (es : List Client.Event) (h : provisionYubikey C P prompt path s = ⟨.ok (), t, es⟩) :
    ∃ signing agreement l, es = [.wrote path (Hex.encode (agreement ++ signing))] ∧
      t.log = l ++ [(.readCertificate .signature, .done signing), (.readCertificate .keyManagement, .done agreement)] := by
  obtain ⟨_, s1, e1, f1, h1, g1, q1⟩ := run_done h
  obtain ⟨pin, s2, e2, f2, h2, g2, q2⟩ := run_done g1
  obtain ⟨_, s3, e3, f3, h3, g3, q3⟩ := run_done g2
  obtain ⟨_, s4, e4, f4, h4, g4, q4⟩ := run_done g3
  obtain ⟨key, s5, e5, f5, h5, g5, q5⟩ := run_done g4
  obtain ⟨rfl, rfl, -⟩ := openCard_done h1
  obtain ⟨rfl, rfl, -⟩ := lift_done h2
  obtain ⟨c3, rfl⟩ := onCard_done h3
  obtain ⟨c4, rfl⟩ := onCard_done h4
  obtain ⟨c5, rfl⟩ := onCard_done h5
  obtain ⟨rfl, rfl, -⟩ := write_done g5
  obtain ⟨signing, agreement, rfl, -, -, hl⟩ := pairPublicKey_ok c5
  exact ⟨signing, agreement, s4.log, by simp [q1, q2, q3, q4, q5], hl⟩

theorem split_key {a b c d : Bytes} (ha : encodedPoint a = true) (hb : encodedPoint b = true) (hc : c.length = 65)
    (hd : d.length = 65) (h : a ++ b = c ++ d) : a = c ∧ b = d := by
  have hl : a.length + b.length = 130 := by
    have := congrArg List.length h
    simpa [hc, hd] using this
  have h1 := encodedPoint_length ha
  have h2 := encodedPoint_length hb
  exact List.append_inj h (by omega)

/-- Importing a seed only succeeds if the card ends up showing exactly the two public keys of that seed. -/
theorem import_checked (C : Setting (Plugged D)) (hp : C.prims.Laws) (P : Piv D) (prompt : Option Bytes) (seedPath : String)
    (pinPath : Option String) (s t : Plugged D) (es : List Client.Event)
    (h : advancedProvisionYubikey C P prompt seedPath pinPath s = ⟨.ok (), t, es⟩) :
    es = [] ∧ ∃ pair l, Client.pairFromFile C.prims C.disk seedPath = .ok pair ∧
      t.log = l ++ [(.readCertificate .signature, .done (pair.publicKey C.prims).sign),
        (.readCertificate .keyManagement, .done (pair.publicKey C.prims).enc)] := by
  obtain ⟨_, s1, e1, f1, h1, g1, q1⟩ := run_done h
  obtain ⟨pin, s2, e2, f2, h2, g2, q2⟩ := run_done g1
  obtain ⟨pair, s3, e3, f3, h3, g3, q3⟩ := run_done g2
  obtain ⟨_, s4, e4, f4, h4, g4, q4⟩ := run_done g3
  obtain ⟨_, s5, e5, f5, h5, g5, q5⟩ := run_done g4
  obtain ⟨key, s6, e6, f6, h6, g6, q6⟩ := run_done g5
  obtain ⟨rfl, rfl, -⟩ := openCard_done h1
  obtain ⟨rfl, rfl, -⟩ := lift_done h2
  obtain ⟨rfl, rfl, hpair⟩ := lift_done h3
  obtain ⟨c4, rfl⟩ := onCard_done h4
  obtain ⟨c5, rfl⟩ := onCard_done h5
  obtain ⟨c6, rfl⟩ := onCard_done h6
  obtain ⟨rfl, rfl, hg⟩ := lift_done g6
  obtain ⟨signing, agreement, rfl, hs, ha, hl⟩ := pairPublicKey_ok c6
  have hk : agreement ++ signing = (pair.publicKey C.prims).enc ++ (pair.publicKey C.prims).sign := by
    exact of_decide_eq_true (Client.guardStop_ok.mp hg)
  obtain ⟨hsc, hsc'⟩ : C.prims.scalarOk pair.encSecret = true ∧ C.prims.scalarOk pair.signSecret = true := by
    obtain ⟨_, -, _, seed, -, -, hseed⟩ := Client.pairFromFile_ok.mp hpair
    exact P256.pair_scalars _ _ _ hseed
  obtain ⟨rfl, rfl⟩ := split_key ha hs (hp.point_length _ hsc) (hp.point_length _ hsc') hk
  exact ⟨by simp [q1, q2, q3, q4, q5, q6], pair, s5.log, hpair, hl⟩

/-- Only secrets of the curve are put on a card: bytes that are none are refused, and the card is asked for nothing but PIN checks,
authentication and certificates. -/
theorem import_needs_secret (p : Prims) (P : Piv D) (k : Bytes) (slot : Slot) (pin : Bytes) (mgm : MgmKey) (touch : TouchPolicy)
    (hk : p.scalarOk k = false) (s : Plugged D) :
    ∃ e l, importKeyAndGenerateSignedCertificate p P k slot pin mgm touch s =
      (.error e, ⟨(importKeyAndGenerateSignedCertificate p P k slot pin mgm touch s).2.card, s.log ++ l⟩) ∧ ∀ x ∈ l, x.1.Harmless := by
  have hp : publicOf p k = .error (.error .invalidSecret) := by simp [publicOf, hk]
  have hQ : Closed OnlyUses :=
    { nil := fun _ h => by simp at h
      append := fun a b ha hb x h => (List.mem_append.mp h).elim (ha x) (hb x) }
  have hs : ∀ c a, Cmd.Harmless c → OnlyUses [(c, a)] := fun c a h x hx => by rw [List.mem_singleton.mp hx]; exact h
  have hb : ∀ {α β : Type} (x : Dev D α) (f : α → Dev D β), (∀ a t, ∃ e, (f a t).1 = .error e) → ∀ t, ∃ e, ((x >>= f) t).1 = .error e := by
    intro α β x f hf t
    rw [bind_run]
    match h : x t with
    | (.ok a, s') => exact hf a s'
    | (.error e, s') => exact ⟨e, rfl⟩
  have hl : Logs OnlyUses (importKeyAndGenerateSignedCertificate p P k slot pin mgm touch) := by
    unfold importKeyAndGenerateSignedCertificate
    refine .bind hQ (.need fun _ => hs _ _ trivial) fun _ => .bind hQ (.need fun _ => hs _ _ trivial) fun _ =>
      .bind hQ (.bind hQ (.send fun _ => hs _ _ trivial) fun _ => .lift hQ _) fun _ => ?_
    rw [hp]
    exact fun s => ⟨[], by simp [bind_run, lift_run], hQ.nil⟩
  have he : ∃ e, (importKeyAndGenerateSignedCertificate p P k slot pin mgm touch s).1 = .error e := by
    unfold importKeyAndGenerateSignedCertificate
    refine hb _ _ (fun _ => hb _ _ fun _ => hb _ _ fun _ t => ?_) s
    rw [hp]
    exact ⟨_, rfl⟩
  obtain ⟨e, he⟩ := he
  obtain ⟨l, hl, hq⟩ := hl s
  exact ⟨e, l, Prod.ext he (by rw [← hl]), hq⟩

end Qos.Yubi
