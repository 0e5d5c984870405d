import Verif.Props.Init
import Verif.Props.ReaperEnclave
/-!
# Concrete cases, part D: the first process starts an approved pivot
-/
namespace Qos.Reaper
open StateMachine

/-- The provisioned enclave of `Props/Scenario` and any reaper on a vsock socket that looks at its files: the pivot starts. -/
theorem toy_launch_with {c : Config} (hc : c.paths = toyEnv.paths) (hv : ∃ cid port flags, c.core = .vsock cid port flags) :
    ∃ (h : List (Msg × Msg)) (s : St) (ts : List Tick) (l : Launch),
      History toyEnv noFiles h s ∧ Sees noFiles s ts ∧ Act.launch l ∈ (run c ts).2 := by
  obtain ⟨setup, h0, H, ⟨doc, hdoc⟩, hph, hin, heph⟩ := toy_boot (m := .bootStandardRequest toyEnvelope [1, 2, 3]) (.inl rfl)
  obtain ⟨h, s, q1, q2, q3, q4⟩ := toy_provision (a := toyApproval 4 toyHash) H hph
    (by rcases hdoc with hd | hd <;> rw [hd] <;> rfl) h0 hin heph List.mem_cons_self
    ((approval_verify_iff ..).1 toy_share_approval)
  let t : Tick := ⟨s.files, true, none⟩
  let t0 : Tick := ⟨noFiles, true, none⟩
  have hgood : Good c toyEnvelope.manifest t := by
    obtain ⟨b, key, hw, _⟩ := q1.provisioned q2
    obtain ⟨q, hq, _⟩ := hw.quorum
    obtain ⟨g, hg, _⟩ := q3.pivot
    obtain ⟨buf, hb1, f, hf, hd⟩ := q3.manifest
    obtain ⟨buf', r1, r2⟩ := q3.readable
    rw [hb1] at r1
    injection r1 with r1
    refine ⟨?_, ?_, ⟨f, _, by rw [hc]; exact hf, by rw [hd, r1]; exact r2, Envelope.manifest_withShares ..⟩, rfl⟩
    · show s.files c.paths.quorum ≠ none
      rw [hc, hq]; simp
    · show s.files c.paths.pivot ≠ none
      rw [hc, hg]; simp
  have hrun := launches_when_ready (c := c) (m := toyEnvelope.manifest) (idle := [t0, t0])
    (good := List.replicate (toyEnvelope.manifest.bridgeConfig.length + 8) t)
    ⟨hv, (by intro p hp; exact absurd hp (by show p ∉ serverPorts []; simp [serverPorts])),
      (by rintro ⟨p, x, hm⟩; exact absurd hm (by show BridgeConfig.client p x ∉ []; simp))⟩
    (by intro t ht; simp at ht; subst ht; rfl) (by intro t ht; rw [List.mem_replicate] at ht; rw [ht.2]; exact hgood)
    (by simp)
  obtain ⟨l, _, hl⟩ := hrun
  refine ⟨h, s, [t0, t0] ++ List.replicate (toyEnvelope.manifest.bridgeConfig.length + 8) t, l, q1, ⟨?_, ?_⟩, hl⟩
  · intro x hx
    rcases List.mem_append.1 hx with hx | hx
    · simp at hx; subst hx; exact .inl rfl
    · rw [List.mem_replicate] at hx; rw [hx.2]; exact .inr (.inr rfl)
  · rw [List.pairwise_append]
    refine ⟨?_, ?_, ?_⟩
    · rw [List.pairwise_pair]; exact .inr (.inr (.inr rfl))
    · exact List.pairwise_replicate.2 (.inr (.inr (.inr (.inr rfl))))
    · intro a ha b hb
      simp at ha; subst ha
      rw [List.mem_replicate] at hb
      rw [hb.2]
      exact .inl ⟨rfl, .inr (.inr rfl)⟩

end Qos.Reaper

namespace Qos.Init

/-- From the first system call to the pivot: the hypotheses of `pivot_exact` are met, and a pivot is started. -/
theorem toy_starts : ∃ (h : List (Msg × Msg)) (s : St) (ts : List Reaper.Tick) (l : Reaper.Launch),
    History toyEnv noFiles h s ∧ Reaper.Sees noFiles s ts ∧
    .act (.launch l) ∈ main true (goodKernel (utf8 "nsm-hwrng\n") false) ts := by
  obtain ⟨hb, -⟩ := (boot_ends true (goodKernel (utf8 "nsm-hwrng\n") false)).mpr good_works
  obtain ⟨h, s, ts, l, h1, h2, h3⟩ := Reaper.toy_launch_with (c := reaperConfig true 16) rfl ⟨16, 3, 0, rfl⟩
  refine ⟨h, s, ts, l, h1, h2, ?_⟩
  rw [main_works (cid := 16) hb rfl]
  refine List.mem_append_right _ (List.mem_cons_of_mem _ (List.mem_append_left _ (List.mem_map_of_mem h3)))

example : ∃ (h : List (Msg × Msg)) (e : Envelope) (pivot : Bytes) (l : Reaper.Launch), (∃ r ∈ requests h, r.BootsWith e pivot) ∧
    ApprovedBoot toyEnv.prims e pivot ∧ l.path = "/qos.pivot.bin" ∧ l.args = e.manifest.args ∧ l.env = [] := by
  obtain ⟨h, s, ts, l, h1, h2, h3⟩ := toy_starts
  obtain ⟨-, e, pivot, q⟩ := pivot_exact h1 rfl h2 rfl h3
  exact ⟨h, e, pivot, l, q⟩

end Qos.Init
