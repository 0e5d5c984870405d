import Verif.Spec.Builder
import Mathlib.Data.List.Induction
/-!
# C32: the manifest builder
-/
namespace Qos.Builder

theorem last_snoc {α : Type} (field : Call → Option α) (calls : List Call) (c : Call) :
    last field (calls ++ [c]) = (field c).or (last field calls) := by
  unfold last
  rw [List.filterMap_append]
  cases h : field c with
  | none => simp [h]
  | some a => simp [h]

/-- The builder holds the last value of every field. -/
theorem configure_eq (calls : List Call) :
    configure calls =
      { version := last Call.version? calls, namespaceOf := last Call.namespace? calls,
        pivotHash := last Call.pivotHash? calls, restartPolicy := last Call.restartPolicy? calls,
        bridgeConfig := last Call.bridgeConfig? calls, debugMode := last Call.debugMode? calls,
        pivotArgs := last Call.pivotArgs? calls, pivotEnv := last Call.pivotEnv? calls,
        manifestSet := last Call.manifestSet? calls, shareSet := last Call.shareSet? calls,
        enclave := last Call.enclave? calls, patchSet := last Call.patchSet? calls, dns := last Call.dns? calls } := by
  induction calls using List.reverseRecOn with
  | nil => rfl
  | append_singleton calls c ih =>
    unfold configure at ih ⊢
    rw [List.foldl_append, ih]
    simp only [last_snoc]
    cases c <;> rfl

theorem okOr_ok {α : Type} {x : Option α} {e : BuilderError} {a : α} : okOr x e = .ok a ↔ x = some a := by
  cases x <;> simp [okOr]

theorem refuseSome_ok {α : Type} {x : Option α} {e : BuilderError} {u : Unit} : refuseSome x e = .ok u ↔ x = none := by
  cases x <;> simp [refuseSome]

theorem bind_ok {α β : Type} {x : Except BuilderError α} {f : α → Except BuilderError β} {b : β} :
    (x >>= f) = .ok b ↔ ∃ a, x = .ok a ∧ f a = .ok b := by
  cases x with
  | error e => simp [bind, Except.bind]
  | ok a => simp [bind, Except.bind]

/-! ## Property theorems -/

/-- C32: `build` yields a V1 manifest exactly when the calls configure it. -/
theorem build_v1_iff (calls : List Call) (m : Manifest) :
    (configure calls).build = .ok (.v1 m) ↔ ConfiguresV1 calls m := by
  rw [configure_eq]
  unfold Builder.build
  simp only [bind_ok, okOr_ok]
  constructor
  · rintro ⟨ns, h1, hash, h2, ms, h3, ss, h4, enc, h5, h⟩
    cases hv : (last Call.version? calls).getD ManifestVersion.v2 with
    | v2 =>
      rw [hv] at h
      simp only [Builder.buildV2, bind_ok] at h
      obtain ⟨_, _, h⟩ := h
      cases h
    | v1 =>
      rw [hv] at h
      simp only [Builder.buildV1, bind_ok, refuseSome_ok, okOr_ok] at h
      obtain ⟨_, g1, _, g2, patch, g3, g4⟩ := h
      cases g4
      refine ⟨?_, g1, g2, h1, h2, h3, h4, h5, g3, rfl, rfl, rfl, rfl⟩
      cases hl : last Call.version? calls with
      | none => rw [hl] at hv; cases hv
      | some v => rw [hl] at hv; exact congrArg some hv
  · intro h
    refine ⟨_, h.namespace, _, h.pivotHash, _, h.manifestSet, _, h.shareSet, _, h.enclave, ?_⟩
    rw [h.version]
    simp only [Option.getD_some, Builder.buildV1, bind_ok, refuseSome_ok, okOr_ok]
    refine ⟨(), h.noEnv, (), h.noDns, _, h.patchSet, ?_⟩
    rw [← h.restart, ← h.bridges, ← h.debug, ← h.args]
    rfl

/-- C32: `build` yields a V2 manifest exactly when the calls configure it. -/
theorem build_v2_iff (calls : List Call) (m : ManifestV2) :
    (configure calls).build = .ok (.v2 m) ↔ ConfiguresV2 calls m := by
  rw [configure_eq]
  unfold Builder.build
  simp only [bind_ok, okOr_ok]
  constructor
  · rintro ⟨ns, h1, hash, h2, ms, h3, ss, h4, enc, h5, h⟩
    cases hv : (last Call.version? calls).getD ManifestVersion.v2 with
    | v1 =>
      rw [hv] at h
      simp only [Builder.buildV1, bind_ok] at h
      obtain ⟨_, _, _, _, _, _, h⟩ := h
      cases h
    | v2 =>
      rw [hv] at h
      simp only [Builder.buildV2, bind_ok, refuseSome_ok] at h
      obtain ⟨_, g1, g4⟩ := h
      cases g4
      refine ⟨?_, g1, rfl, h1, h2, h3, h4, h5, rfl, rfl, rfl, rfl, rfl, rfl⟩
      cases hl : last Call.version? calls with
      | none => exact .inr rfl
      | some v => rw [hl] at hv; exact .inl (congrArg some hv)
  · intro h
    refine ⟨_, h.namespace, _, h.pivotHash, _, h.manifestSet, _, h.shareSet, _, h.enclave, ?_⟩
    have hv : (last Call.version? calls).getD ManifestVersion.v2 = .v2 := by
      rcases h.version with h | h <;> rw [h] <;> rfl
    rw [hv]
    simp only [Builder.buildV2, bind_ok, refuseSome_ok]
    refine ⟨(), h.noPatchSet, ?_⟩
    rw [← h.restart, ← h.bridges, ← h.debug, ← h.args, ← h.env, ← h.dns, ← h.declared]
    rfl

/-- C32: `build` fails exactly when something required is missing or something foreign to the version is set; it never
yields a V0 manifest. -/
theorem build_error_iff (calls : List Call) :
    ((∃ e, (configure calls).build = .error e) ↔
      last Call.namespace? calls = none ∨ last Call.pivotHash? calls = none ∨ last Call.manifestSet? calls = none ∨
      last Call.shareSet? calls = none ∨ last Call.enclave? calls = none ∨
      (last Call.version? calls = some .v1 ∧ (last Call.patchSet? calls = none ∨ last Call.pivotEnv? calls ≠ none ∨
        last Call.dns? calls ≠ none)) ∨
      (last Call.version? calls ≠ some .v1 ∧ last Call.patchSet? calls ≠ none)) ∧
    ∀ m, (configure calls).build ≠ .ok (.v0 m) := by
  rw [configure_eq]
  unfold Builder.build
  rcases last Call.namespace? calls with _ | ns <;> rcases last Call.pivotHash? calls with _ | ph <;>
    rcases last Call.manifestSet? calls with _ | ms <;> rcases last Call.shareSet? calls with _ | ss <;>
    rcases last Call.enclave? calls with _ | en <;>
    simp [okOr, bind, Except.bind]
  rcases last Call.version? calls with _ | _ | _ <;> rcases last Call.patchSet? calls with _ | p <;>
    rcases last Call.pivotEnv? calls with _ | e <;> rcases last Call.dns? calls with _ | d <;>
    simp [Builder.buildV1, Builder.buildV2, okOr, refuseSome, bind, Except.bind, pure, Except.pure]

/-- C32: only the last value of each field matters. -/
theorem build_last_wins (calls calls' : List Call)
    (h : ∀ (α : Type) (field : Call → Option α), last field calls = last field calls') :
    (configure calls).build = (configure calls').build := by
  simp only [configure_eq, h]

/-- C32: setting a field again overrides it, and setters of different fields commute. -/
theorem setters (b : Builder) :
    (∀ c d : Call, c.ctorIdx = d.ctorIdx → (b.apply c).apply d = b.apply d) ∧
    ∀ c d : Call, c.ctorIdx ≠ d.ctorIdx → (b.apply c).apply d = (b.apply d).apply c := by
  refine ⟨fun c d h => ?_, fun c d h => ?_⟩
  · cases c <;> cases d <;> first | rfl | (exfalso; revert h; simp [Call.ctorIdx])
  · cases c <;> cases d <;> first | rfl | exact absurd rfl h

/-! ## A concrete case -/

/-- Calls in an unusual order, with one field set twice. -/
def toyCalls : List Call :=
  [.dns ⟨[.v4 ⟨1, 1, 1, 1⟩]⟩, .pivotHash [9], .shareSet ⟨2, []⟩, .enclave ⟨[0], [1], [2], [3], [4], "c"⟩, .manifestSet ⟨3, []⟩,
   .namespaceOf ⟨"n", 1, [7]⟩, .pivotHash [8]]

example : (configure toyCalls).build =
    .ok (.v2 ⟨.v2, ⟨"n", 1, [7]⟩, ⟨[8], .never, [], false, [], []⟩, ⟨3, []⟩, ⟨2, []⟩, ⟨[0], [1], [2], [3], [4], "c"⟩,
      some ⟨[.v4 ⟨1, 1, 1, 1⟩]⟩⟩) := rfl

example : (configure (toyCalls ++ [.withVersion .v1, .patchSet ⟨0, []⟩])).build = .error .v1DoesNotSupportDns := rfl

end Qos.Builder
