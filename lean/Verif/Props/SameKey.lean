import Verif.Props.StandardCrypto
import Verif.Props.Scenario
/-!
# C81: one quorum key, however many enclaves

Every enclave whose manifest names the same quorum key ends up with the same secret key, whatever its history, its files,
its device, its randomness and the shares it was given: with the standard algorithms the public key in the manifest
determines the secrets, and no other key is ever stored. The second half runs an enclave with the standard algorithms.
-/
namespace Qos.Fleet
open P256 Handles Services StateMachine Lifecycle Conformance Standard

variable {E E' : Env} {fs0 fs0' fs fs' : Files} {h h' : List (Msg × Msg)} {s s' : St} {f f' : File} {e e' : Envelope}
  {pivot pivot' : Bytes}

/-- C81: whenever a quorum key file exists, reading it gives a key, and this is the one that the stored manifest names. -/
theorem key_is_named (H : History E fs0 h s) (hm : Moment fs0 s fs) (hf : fs E.paths.quorum = some f)
    (he : Installed E e pivot fs) :
    ∃ key, Pair.fromHexContents E.prims f.data = .ok key ∧ Derived E.prims key.seed key ∧
      (key.publicKey E.prims).toBytes = e.manifest.namespaceOf.quorumKey := by
  obtain ⟨e', pivot', as, key, -, -, -, -, hd, hl, hk, hn, hi, -⟩ := quorum_key_complete H hm hf
  obtain ⟨rfl, rfl⟩ := he.unique hi
  refine ⟨key, ?_, (pair_exact _ _ _).mp hk, ?_⟩
  · rw [hd]
    exact (hex_file_roundtrip E.prims key hl).trans hk
  · rw [Envelope.manifest_withShares]
    exact hn

/-- C81: two enclaves with unrelated histories, moments, files, devices, randomness and shares, whose stored manifests
name the same quorum key: what their quorum key files hold are keys with the same secrets. They decrypt the same byte
strings to the same messages, refuse the same ones with the same errors, and sign every message with the same
signature. -/
theorem same_named_key_same_key (hE : E.prims = realPrims) (hE' : E'.prims = realPrims)
    (H : History E fs0 h s) (hm : Moment fs0 s fs) (hf : fs E.paths.quorum = some f) (he : Installed E e pivot fs)
    (H' : History E' fs0' h' s') (hm' : Moment fs0' s' fs') (hf' : fs' E'.paths.quorum = some f')
    (he' : Installed E' e' pivot' fs') (hq : e.manifest.namespaceOf.quorumKey = e'.manifest.namespaceOf.quorumKey) :
    ∃ key key', Pair.fromHexContents realPrims f.data = .ok key ∧ Pair.fromHexContents realPrims f'.data = .ok key' ∧
      key.encSecret = key'.encSecret ∧ key.signSecret = key'.signSecret ∧
      (∀ buf, key.decrypt realPrims buf = key'.decrypt realPrims buf) ∧
      (∀ msg, key.sign realPrims msg = key'.sign realPrims msg) := by
  obtain ⟨key, hr, hd, hn⟩ := key_is_named H hm hf he
  obtain ⟨key', hr', hd', hn'⟩ := key_is_named H' hm' hf' he'
  rw [hE] at hr hd hn
  rw [hE'] at hr' hd' hn'
  obtain ⟨h1, h2⟩ := public_key_determines_secrets _ _ key key' hd hd' (by rw [hn, hn', hq])
  refine ⟨key, key', hr, hr', h1, h2, fun buf => ?_, fun msg => ?_⟩
  · unfold Pair.decrypt
    rw [h1]
  · unfold Pair.sign
    rw [h2]

/-- C81: whoever has the manifest can write to every enclave that runs it: its quorum key is a public key, every message
below 2 GiB can be encrypted to it, and the key in every such enclave's file decrypts the ciphertext. -/
theorem manifest_key_reaches_enclave (hE : E.prims = realPrims) (H : History E fs0 h s) (hm : Moment fs0 s fs)
    (hf : fs E.paths.quorum = some f) (he : Installed E e pivot fs) :
    ∃ pub key, Public.fromBytes realPrims e.manifest.namespaceOf.quorumKey = .ok pub ∧
      Pair.fromHexContents realPrims f.data = .ok key ∧
      ∀ (r : SealRandom) (msg : Bytes), r.Ok realPrims → msg.length < 2 ^ 31 →
        ∃ ct, pub.encrypt realPrims r msg = .ok ct ∧ key.decrypt realPrims ct = .ok msg := by
  obtain ⟨key, hr, hd, hn⟩ := key_is_named H hm hf he
  rw [hE] at hr hd hn
  have hp := (public_of_pair realPrims realLaws _ key ((pair_exact _ _ _).mpr hd)).1
  rw [hn] at hp
  exact ⟨_, key, hp, hr, fun r msg hok hl => round_trip _ msg key r hd hok hl⟩

/-- C81: whoever has the manifest can check every signature of every enclave that runs it. -/
theorem manifest_key_verifies (hE : E.prims = realPrims) (H : History E fs0 h s) (hm : Moment fs0 s fs)
    (hf : fs E.paths.quorum = some f) (he : Installed E e pivot fs) :
    ∃ pub key, Public.fromBytes realPrims e.manifest.namespaceOf.quorumKey = .ok pub ∧
      Pair.fromHexContents realPrims f.data = .ok key ∧
      ∀ msg, pub.verify realPrims msg (key.sign realPrims msg) = .ok () := by
  obtain ⟨key, hr, hd, hn⟩ := key_is_named H hm hf he
  rw [hE] at hr hd hn
  have hp := (public_of_pair realPrims realLaws _ key ((pair_exact _ _ _).mpr hd)).1
  rw [hn] at hp
  exact ⟨_, key, hp, hr, fun msg => signature_verifies _ msg key hd⟩

/-- C81: and conversely, enclaves whose manifests name different quorum keys hold different
seeds. -/
theorem other_named_key_other_key (hE : E.prims = realPrims) (hE' : E'.prims = realPrims)
    (H : History E fs0 h s) (hm : Moment fs0 s fs) (hf : fs E.paths.quorum = some f) (he : Installed E e pivot fs)
    (H' : History E' fs0' h' s') (hm' : Moment fs0' s' fs') (hf' : fs' E'.paths.quorum = some f')
    (he' : Installed E' e' pivot' fs') (hq : e.manifest.namespaceOf.quorumKey ≠ e'.manifest.namespaceOf.quorumKey) :
    f.data ≠ f'.data := by
  intro hfd
  obtain ⟨key, hr, hd, hn⟩ := key_is_named H hm hf he
  obtain ⟨key', hr', hd', hn'⟩ := key_is_named H' hm' hf' he'
  rw [hE] at hr hn
  rw [hE'] at hr' hn'
  rw [hfd, hr'] at hr
  cases hr
  exact hq (by rw [← hn, ← hn'])

end Qos.Fleet
