import Verif.Props.Forward
import Verif.Props.Live
/-!
# C42: honest boots and provisionings complete

The other theorems say what cannot happen; these say that, with a device that behaves like the NSM model and a file
system without failures, an approved boot succeeds, and that enough good shares provision the quorum key.

Concrete cases: `toy_boot` and `toy_provision` (`Props/Scenario.lean`) meet the hypotheses of the three theorems.
-/
namespace Qos
open P256 Handles Services StateMachine Lifecycle

variable {E : Env} {fs0 : Files} {h : List (Msg × Msg)} {s : St} {pki : MockNsm.Pki} {dev : MockNsm.State}

/-- One more request. -/
theorem History.step (H : History E fs0 h s) {m : Msg} (hm : m.WellFormed) :
    History E fs0 (h ++ [(m, (handle E m s).1)]) (handle E m s).2 := by
  refine ⟨H.env, H.fresh, H.reach.step m, ?_⟩
  intro q hq
  unfold requests at hq
  rw [List.map_append, List.mem_append] at hq
  rcases hq with hq | hq
  · exact H.wellFormed q hq
  · simp at hq; rw [hq]; exact hm

/-- The start of every history. -/
theorem History.start (hE : E.Ok) (h0 : Fresh E.paths fs0) : History E fs0 [] (St.initial fs0) :=
  ⟨hE, h0, .start, fun _ hq => (nomatch hq)⟩

theorem checkBoot_of_ok {e : Envelope} {pivot : Bytes} (h1 : e.checkApprovals E.prims = .ok ())
    (h2 : e.shareSetApprovals = []) (h3 : E.prims.sha256 pivot = e.manifest.pivotHash) :
    checkBoot E e pivot = .ok () := by
  unfold checkBoot
  rw [Attest.bind_unit_ok, Attest.bind_unit_ok]
  exact ⟨h1, by simp [refuse, h2], by simp [refuse, h3]⟩

theorem Idle.nsmHist (H : History E fs0 h s) (hi : Idle fs0 h s) : s.nsmHist = [] := by
  rw [(Reach.faithful H.reach).hist, hi.trace]; rfl

/-- The phase a boot request leads to. -/
def Msg.bootedPhase : Msg → Phase
  | .bootKeyForwardRequest _ _ => .waitingForForwardedKey
  | _ => .waitingForQuorumShards

/-- C42: a boot request with a quorum of approvals, no share-set approvals and the right pivot is carried out: it is
answered with an attestation document, the enclave waits for shares (or for a forwarded key) and has stored exactly the
envelope, the pivot and the setup key. (`checkApprovals` accepts every quorum, up to SHA-256 collisions between the
encodings of approving members: `check_approvals_complete`.) -/
theorem approved_boot_completes (H : History E fs0 h s) (hs : s.phase = .waitingForBootInstruction)
    (hd : HonestDevice E pki dev) (hio : ReliableFiles E) {e : Envelope} {pivot : Bytes} (he : e.Ok)
    (ha : e.checkApprovals E.prims = .ok ()) (hn : e.shareSetApprovals = [])
    (hp : E.prims.sha256 pivot = e.manifest.pivotHash) {setup live : Pair}
    (h0 : Pair.fromMasterSeed E.prims (E.seedAt 0) = .ok setup)
    (h1 : Pair.fromMasterSeed E.prims (E.seedAt 1) = .ok live) {m : Msg} (hm : m.BootsWith e pivot) :
    (∃ doc, (handle E m s).1 = .bootStandardResponse doc ∨ (handle E m s).1 = .bootKeyForwardResponse doc) ∧
    (handle E m s).2.phase = m.bootedPhase ∧
    Installed E e pivot (handle E m s).2.files ∧
    Holds (handle E m s).2.files E.paths.ephemeral (Hex.encode setup.seed) ∧
    (handle E m s).2.files E.paths.quorum = none := by
  have hi := H.idle hs
  have htot := putManifestAndPivot_total H.env hio hd he (checkBoot_of_ok ha hn hp) h0 h1
    (s := s) (by rw [hi.files]; exact H.fresh) (hi.nsmHist H) hi.seeds
  have run : ∀ fwd, (∀ setup live, (Boot.mk fwd e pivot setup live).RequestedBy m) →
      ∃ r s', putManifestAndPivot E e pivot s = (.ok r, s') ∧
        Installed E e pivot s'.files ∧ Holds s'.files E.paths.ephemeral (Hex.encode setup.seed) ∧
        s'.files E.paths.quorum = none := by
    intro fwd hreq
    have hends := putManifestAndPivot_ends (reqs := [m]) H.env H.fresh (pivot := pivot) he fwd List.mem_cons_self hreq
      hi.files hi.trace hi.seeds hi.shares
    obtain ⟨r, s', hr, -, b, hb1, hb2, hb3, hw⟩ := ends_never (ends_mono (ends_and htot hends) (fun _ _ h => h)
      (fun _ _ h => h.1))
    refine ⟨r, s', hr, ?_, ?_, hw.quorum⟩
    · obtain ⟨buf, r1, r2⟩ := storage_roundtrip _ (b.stored H.env hw.since.ok hw.posted)
      have := hw.manifest
      rw [List.map_nil, Envelope.withShares_nil] at this r1 r2
      subst hb2 hb3
      exact ⟨this, hw.pivot, ⟨buf, r1, r2⟩, he⟩
    · have : b.setup = setup := by
        have := hw.since.ok.setup
        rw [h0, Except.ok.injEq] at this
        exact this.symm
      rw [← this]
      exact hw.ephemeral
  rcases hm with hm | hm | hm
  · obtain ⟨r, s', hr, q1, q2, q3⟩ := run false (fun _ _ => by simp [Boot.RequestedBy, hm])
    rw [handle_standard hs (.inl hm), hr]
    exact ⟨⟨r, .inl rfl⟩, by rw [hm]; rfl, q1, q2, q3⟩
  · obtain ⟨r, s', hr, q1, q2, q3⟩ := run false (fun _ _ => by simp [Boot.RequestedBy, hm])
    rw [handle_standard hs (.inr hm), hr]
    exact ⟨⟨r, .inl rfl⟩, by rw [hm]; rfl, q1, q2, q3⟩
  · obtain ⟨r, s', hr, q1, q2, q3⟩ := run true (fun _ _ => by simp [Boot.RequestedBy, hm])
    rw [hm, handle_forward hs, hr]
    exact ⟨⟨r, .inr rfl⟩, rfl, q1, q2, q3⟩

theorem decrypted_unique {b : Boot} {posts : List (Bytes × Approval)} {l l' : List Bytes}
    (h1 : b.Decrypted E posts l) (h2 : b.Decrypted E posts l') : l = l' := by
  unfold Boot.Decrypted at *
  induction h1 generalizing l' with
  | nil => cases h2; rfl
  | cons hx _ ih =>
    cases h2 with
    | cons hy h2 =>
      rw [ih h2]
      have := hx.1
      rw [hy.1, Except.ok.injEq] at this
      rw [this]

/-- C42: a posted share with a valid approval by a share-set member over the stored manifest's hash, that decrypts under
the setup key to a non-empty share, is accepted: below the threshold the enclave goes on waiting, and when the threshold
is reached and the shares reconstruct the key named in the manifest, that key is stored and the enclave is provisioned.
(`posted h` are the shares accepted so far.) -/
theorem good_share_accepted (H : History E fs0 h s) (hs : s.phase = .waitingForQuorumShards) (hio : ReliableFiles E)
    {e : Envelope} {pivot : Bytes} (he : Installed E e pivot s.files) {setup : Pair}
    (hk : Pair.fromMasterSeed E.prims setup.seed = .ok setup)
    (hh : Holds s.files E.paths.ephemeral (Hex.encode setup.seed)) {x : Bytes} {a : Approval}
    (ha : a.member.Signed E.prims (e.manifest.hash E.prims) a.signature)
    (hl : a.member ∈ e.manifest.shareSet.members) {shares : List Bytes}
    (hsh : List.Forall₂ (fun p sh => setup.decrypt E.prims p.1 = .ok sh ∧ sh ≠ []) (posted h ++ [(x, a)]) shares) :
    (shares.length < e.manifest.shareSet.threshold.toNat →
      (handle E (.provisionRequest x a) s).1 = .provisionResponse false ∧
      (handle E (.provisionRequest x a) s).2.phase = .waitingForQuorumShards) ∧
    (e.manifest.shareSet.threshold.toNat ≤ shares.length →
      ∀ seed key, Shamir.sharesReconstruct shares = .ok seed → seed.length = 32 →
        Pair.fromMasterSeed E.prims seed = .ok key →
        (key.publicKey E.prims).toBytes = e.manifest.namespaceOf.quorumKey →
        (handle E (.provisionRequest x a) s).1 = .provisionResponse true ∧
        (handle E (.provisionRequest x a) s).2.phase = .quorumKeyProvisioned ∧
        Holds (handle E (.provisionRequest x a) s).2.files E.paths.quorum (Hex.encode seed)) := by
  obtain ⟨b, hf, hw⟩ := H.waitingShards hs
  obtain ⟨rfl, -⟩ := he.unique (H.waitingInstalled hw)
  have hset : setup = b.setup := by
    have h1 := Hex.hex_encode_injective _ _ (hh.unique hw.ephemeral)
    obtain ⟨_, h2⟩ := hw.since.ok.setup_seed H.env
    rw [h1] at hk
    rw [hk, Except.ok.injEq] at h2
    exact h2
  subst hset
  rw [Envelope.manifest_withShares] at *
  obtain ⟨l1, l2, rfl⟩ : ∃ l1 sh, shares = l1 ++ [sh] := by
    have hlen := hsh.length_eq
    rcases List.eq_nil_or_concat shares with rfl | ⟨l1, sh, rfl⟩
    · simp at hlen
    · exact ⟨l1, sh, List.concat_eq_append⟩
  have hlen := hsh.length_eq
  have hspl := (List.forall₂_iff_get.1 hsh)
  have hfst : b.Decrypted E (posted h) l1 := by
    refine List.forall₂_iff_get.2 ⟨by simpa using hlen, ?_⟩
    intro i hi1 hi2
    have := hspl.2 i (by simp; omega) (by simp; omega)
    simpa [List.getElem_append_left hi1, List.getElem_append_left hi2] using this
  have hlast : b.setup.decrypt E.prims x = .ok l2 ∧ l2 ≠ [] := by
    have hl' : (posted h).length = l1.length := by simpa using hlen
    have := hspl.2 (posted h).length (by simp) (by simp [hl'])
    simpa [hl'] using this
  have hshares := decrypted_unique hw.decrypted hfst
  have hpost : b.Postable E x a l2 := ⟨(approval_verify_iff ..).2 ha, hl, hlast.1, hlast.2⟩
  refine ⟨?_, ?_⟩
  · intro hlt
    obtain ⟨r, s', hr, hrr⟩ := ends_never (provision_total H.env hio hw hpost (by
      rw [hshares]; intro hc; omega))
    rw [hshares, decide_eq_false (by omega)] at hrr
    subst hrr
    rw [handle_provision hs, hr]
    refine ⟨rfl, ?_⟩
    have hp := (phase_provision E x a).run s
    rw [hr] at hp
    exact hp.trans hs
  · intro hge seed key hrec h32 hkey hname
    have htot := provision_total H.env hio hw hpost (by
      rw [hshares]; intro _; exact ⟨seed, key, hrec, h32, hkey, hname⟩)
    have hends := provision_ends (E := E) H.env hw hf (x := x) (a := a) rfl
    obtain ⟨r, s', hr, hrr, hq⟩ := ends_never (ends_mono (ends_and htot hends) (fun _ _ h => h) (fun _ _ h => h.1))
    rw [hshares, decide_eq_true hge] at hrr
    subst hrr
    rw [handle_provision hs, hr]
    refine ⟨rfl, rfl, ?_⟩
    rw [if_pos rfl] at hq
    obtain ⟨key', hprov, -⟩ := hq
    have horig := hprov.complete.origin
    cases horig with
    | injected ct sig hfw _ _ _ _ => rw [hf] at hfw; cases hfw
    | provisioned shares' _ hdec _ _ hrec' =>
      have : b.Decrypted E (posted h ++ [(x, a)]) (l1 ++ [l2]) := hsh
      rw [decrypted_unique hdec this, hrec, Except.ok.injEq] at hrec'
      rw [hrec']
      exact hprov.quorum

theorem Booted.waiting_of {b : Boot} (hb : Booted E b h s) (hs : s.phase = .waitingForQuorumShards) :
    b.forward = false ∧ b.Waiting E (requests h) (posted h) s := by
  cases hb with
  | waiting h1 hw =>
    refine ⟨?_, hw⟩
    by_contra hc
    rw [hs, if_pos (by simpa using hc)] at h1
    cases h1
  | provisioned _ h1 _ => rw [hs] at h1; cases h1
  | broken h1 _ => rw [hs] at h1; cases h1

/-- C42: after a boot, posting exactly as many good shares as the threshold asks (at least one) that reconstruct the
key of the manifest provisions the enclave: every post is answered, the last with success, the key is stored, and the
approvals are appended to the envelope in the order of posting. -/
theorem enough_shares_provision (H : History E fs0 h s) (hs : s.phase = .waitingForQuorumShards) (hp : posted h = [])
    (hio : ReliableFiles E) {e : Envelope} {pivot : Bytes} (he : Installed E e pivot s.files) {setup : Pair}
    (hk : Pair.fromMasterSeed E.prims setup.seed = .ok setup)
    (hh : Holds s.files E.paths.ephemeral (Hex.encode setup.seed)) {posts : List (Bytes × Approval)}
    (ha : ∀ x ∈ posts, x.2.member.Signed E.prims (e.manifest.hash E.prims) x.2.signature ∧
      x.2.member ∈ e.manifest.shareSet.members) {shares : List Bytes}
    (hsh : List.Forall₂ (fun x sh => setup.decrypt E.prims x.1 = .ok sh ∧ sh ≠ []) posts shares)
    (hlen : posts.length = max 1 e.manifest.shareSet.threshold.toNat) {seed : Bytes} {key : Pair}
    (hrec : Shamir.sharesReconstruct shares = .ok seed) (h32 : seed.length = 32)
    (hkey : Pair.fromMasterSeed E.prims seed = .ok key)
    (hname : (key.publicKey E.prims).toBytes = e.manifest.namespaceOf.quorumKey) :
    let s' := Lifecycle.after E s (posts.map fun x => .provisionRequest x.1 x.2)
    s'.phase = .quorumKeyProvisioned ∧ Holds s'.files E.paths.quorum (Hex.encode seed) ∧
      Installed E (e.withShares (posts.map (·.2))) pivot s'.files ∧
      Lifecycle.answers E s (posts.map fun x => .provisionRequest x.1 x.2) =
        List.replicate (posts.length - 1) (.provisionResponse false) ++ [.provisionResponse true] := by
  obtain ⟨b, hb⟩ := H.booted (by rw [hs]; decide)
  obtain ⟨hf, hw⟩ := hb.waiting_of hs
  have hin := H.waitingInstalled hw
  rw [hp, List.map_nil, Envelope.withShares_nil] at hin
  obtain ⟨rfl, rfl⟩ := he.unique hin
  have hset : setup = b.setup := by
    have h1 := Hex.hex_encode_injective _ _ (hh.unique hw.ephemeral)
    obtain ⟨_, h2⟩ := hw.since.ok.setup_seed H.env
    rw [h1] at hk
    rw [hk, Except.ok.injEq] at h2
    exact h2
  subst hset
  suffices key : ∀ (rest done : List (Bytes × Approval)) (h : List (Msg × Msg)) (s : St), History E fs0 h s →
      Booted E b h s → s.phase = .waitingForQuorumShards → posted h = done → done ++ rest = posts → rest ≠ [] →
      (Lifecycle.after E s (rest.map fun x => .provisionRequest x.1 x.2)).phase = .quorumKeyProvisioned ∧
      Holds (Lifecycle.after E s (rest.map fun x => .provisionRequest x.1 x.2)).files E.paths.quorum
        (Hex.encode seed) ∧
      Installed E (b.envelope.withShares (posts.map (·.2))) b.pivot
        (Lifecycle.after E s (rest.map fun x => .provisionRequest x.1 x.2)).files ∧
      Lifecycle.answers E s (rest.map fun x => .provisionRequest x.1 x.2) =
        List.replicate (rest.length - 1) (.provisionResponse false) ++ [.provisionResponse true] from
    key posts [] h s H hb hs hp rfl (by rintro rfl; simp at hlen; omega)
  intro rest
  induction rest with
  | nil => intro _ _ _ _ _ _ _ _ hne; exact absurd rfl hne
  | cons x rest ih =>
    intro done h s H hb hs hp hcat _
    obtain ⟨hf, hw⟩ := hb.waiting_of hs
    have hx := ha x (by rw [← hcat]; simp)
    have hlt : done.length + 1 + rest.length = posts.length := by rw [← hcat]; simp; omega
    have hwf : (Msg.provisionRequest x.1 x.2).WellFormed := trivial
    have hpre : List.Forall₂ (fun x sh => b.setup.decrypt E.prims x.1 = .ok sh ∧ sh ≠ []) (posted h ++ [x])
        (shares.take (done.length + 1)) := by
      have := List.forall₂_take (done.length + 1) hsh
      rw [← hcat, List.take_append, List.take_of_length_le (by omega)] at this
      rw [hp]
      simpa using this
    have hacc := good_share_accepted (E := E) H hs hio (H.waitingInstalled hw) (setup := b.setup)
      (hw.since.ok.setup_seed H.env).2 hw.ephemeral (x := x.1) (a := x.2)
      (by rw [Envelope.manifest_withShares]; exact hx.1) (by rw [Envelope.manifest_withShares]; exact hx.2) hpre
    rw [Envelope.manifest_withShares] at hacc
    have hshl : shares.length = posts.length := hsh.length_eq.symm
    have hb' := hb.step H.env (.provisionRequest x.1 x.2)
    have H' := H.step hwf
    rw [List.map_cons, Lifecycle.after, Lifecycle.answers]
    cases rest with
    | nil =>
      rw [List.take_of_length_le (by simp at hlt; omega)] at hacc
      simp only [List.length_nil, Nat.add_zero] at hlt
      obtain ⟨r1, r2, r3⟩ := hacc.2 (by rw [hshl, hlen]; omega) seed _ hrec h32 hkey hname
      rw [List.map_nil, Lifecycle.after, Lifecycle.answers, r1]
      refine ⟨r2, r3, ?_, rfl⟩
      have := (hb'.installed H.env (by rw [r2]; decide)).1
      rw [posted_append, hp, r1] at this
      have e : done ++ posted [(Msg.provisionRequest x.1 x.2, Msg.provisionResponse true)] = posts := by
        rw [← hcat]; rfl
      rw [e] at this
      exact this
    | cons y rest =>
      have hl2 : (shares.take (done.length + 1)).length < b.envelope.manifest.shareSet.threshold.toNat := by
        rw [List.length_take]
        simp only [List.length_cons] at hlt
        omega
      obtain ⟨r1, r2⟩ := hacc.1 hl2
      obtain ⟨i1, i2, i3, i4⟩ := ih (done ++ [x]) _ _ H' hb' r2 (by rw [posted_append, hp, r1]; rfl)
        (by rw [← hcat]; simp) (by simp)
      refine ⟨i1, i2, i3, ?_⟩
      rw [i4, r1]
      simp [List.replicate_succ]

end Qos
