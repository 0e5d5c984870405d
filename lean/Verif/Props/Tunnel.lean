import Verif.Spec.Tunnel
/-!
# C84: the egress tunnel comes up again after failures – if both processes are built to abort
-/
namespace Qos.Tunnel
variable {me mh : Mode} {room : Nat} {σ σ' : Sys} {k : Kind}

theorem after_cases (mode : Mode) (c : Nat) (o i : Bool) :
    afterFailure mode c o i = .down ∨ (mode = .unwind ∧ afterFailure mode c o i = .up c o i ∧ (o = true ∨ i = true)) := by
  cases mode <;> cases o <;> cases i <;> simp [afterFailure]

theorem Run.trans {P : Kind → Prop} {n m : Nat} {σ₁ σ₂ σ₃ : Sys} (h : Run me mh room P n σ₁ σ₂) (h' : Run me mh room P m σ₂ σ₃) :
    Run me mh room P (n + m) σ₁ σ₃ := by
  induction h' with
  | refl => exact h
  | tail _ hk hs ih => exact .tail (ih h) hk hs

theorem Run.mono {P Q : Kind → Prop} (hPQ : ∀ k, P k → Q k) {n : Nat} {σ₁ σ₂ : Sys} (h : Run me mh room P n σ₁ σ₂) :
    Run me mh room Q n σ₁ σ₂ := by
  induction h with
  | refl => exact .refl _
  | tail _ hk hs ih => exact .tail ih (hPQ _ hk) hs

theorem Run.one {P : Kind → Prop} (hk : P k) (h : Step me mh room σ k σ') : Run me mh room P 1 σ σ' := .tail (.refl _) hk h

/-- What holds in every reachable state. -/
structure Inv (me mh : Mode) (σ : Sys) : Prop where
  queue : σ.enclave = .down → σ.queue = []
  enclave : me = .abort → ∀ c o i, σ.enclave = .up c o i → o = true ∧ i = true
  host : mh = .abort → ∀ c o i, σ.host = .up c o i → o = true ∧ i = true
  enclaveLive : ∀ c o i, σ.enclave = .up c o i → o = true ∨ i = true
  hostLive : ∀ c o i, σ.host = .up c o i → o = true ∨ i = true

theorem inv_setEnclave {st : Stage} (h : Inv me mh σ) (h1 : me = .abort → ∀ c o i, st = .up c o i → o = true ∧ i = true)
    (h2 : ∀ c o i, st = .up c o i → o = true ∨ i = true) : Inv me mh (σ.setEnclave st) :=
  ⟨fun e => if_pos e, h1, h.host, h2, h.hostLive⟩

theorem inv_setHost {st : Stage} (h : Inv me mh σ) (h1 : mh = .abort → ∀ c o i, st = .up c o i → o = true ∧ i = true)
    (h2 : ∀ c o i, st = .up c o i → o = true ∨ i = true) : Inv me mh { σ with host := st } :=
  ⟨h.queue, h.enclave, h1, h.enclaveLive, h2⟩

theorem after_abort {mode : Mode} {c : Nat} {o i : Bool} (hm : mode = .abort) : ∀ c' o' i', afterFailure mode c o i = .up c' o' i' →
    o' = true ∧ i' = true := by
  subst hm
  intro c' o' i' h
  cases h

theorem after_live {mode : Mode} {c : Nat} {o i : Bool} : ∀ c' o' i', afterFailure mode c o i = .up c' o' i' → o' = true ∨ i' = true := by
  intro c' o' i' h
  rcases after_cases mode c o i with h' | ⟨-, h', h2⟩
  · rw [h'] at h; cases h
  · rw [h'] at h; cases h; exact h2

theorem inv_step (h : Inv me mh σ) (hs : Step me mh room σ k σ') : Inv me mh σ' := by
  cases hs with
  | startEnclave h1 => exact ⟨(fun e => nomatch e), (fun _ _ _ _ e => nomatch e), h.host, (fun _ _ _ e => nomatch e), h.hostLive⟩
  | startHost h1 => exact inv_setHost h (fun _ _ _ _ e => nomatch e) (fun _ _ _ e => nomatch e)
  | connect h1 h2 h3 =>
    refine ⟨fun e => absurd e h2, h.enclave, ?_, h.enclaveLive, ?_⟩
    · intro _ c o i e; cases e; exact ⟨rfl, rfl⟩
    · intro c o i e; cases e; exact .inl rfl
  | accept c q h1 h2 =>
    refine ⟨(fun e => nomatch e), ?_, h.host, ?_, h.hostLive⟩
    · intro _ c o i e; cases e; exact ⟨rfl, rfl⟩
    · intro c o i e; cases e; exact .inl rfl
  | enclaveReads c o h1 h2 => exact inv_setEnclave h after_abort after_live
  | hostReads c o h1 h2 => exact inv_setHost h after_abort after_live
  | enclavePacket c i h1 h2 => exact inv_setEnclave h after_abort after_live
  | hostPacket c i h1 h2 => exact inv_setHost h after_abort after_live
  | enclaveOutward c i h1 => exact inv_setEnclave h after_abort after_live
  | enclaveInward c o h1 => exact inv_setEnclave h after_abort after_live
  | hostOutward c i h1 => exact inv_setHost h after_abort after_live
  | hostInward c o h1 => exact inv_setHost h after_abort after_live
  | enclaveEnds => exact inv_setEnclave h (fun _ _ _ _ e => nomatch e) (fun _ _ _ e => nomatch e)
  | hostEnds => exact inv_setHost h (fun _ _ _ _ e => nomatch e) (fun _ _ _ e => nomatch e)

theorem inv_run {P : Kind → Prop} {n : Nat} (hr : Run me mh room P n σ σ') (h : Inv me mh σ) : Inv me mh σ' := by
  induction hr with
  | refl => exact h
  | tail _ _ hs ih => exact inv_step (ih h) hs

theorem inv_reachable (h : Reachable me mh room σ) : Inv me mh σ :=
  inv_run h.choose_spec ⟨(fun _ => rfl), (fun _ _ _ _ e => nomatch e), (fun _ _ _ _ e => nomatch e), (fun _ _ _ e => nomatch e), (fun _ _ _ e => nomatch e)⟩

/-- C84: a process built to abort never runs with one direction only. -/
theorem never_half (h : Reachable me mh room σ) :
    (me = .abort → ∀ c o i, σ.enclave = .up c o i → o = true ∧ i = true) ∧
    (mh = .abort → ∀ c o i, σ.host = .up c o i → o = true ∧ i = true) :=
  ⟨(inv_reachable h).enclave, (inv_reachable h).host⟩

/-- C84: one not built so never ends by the failure of one direction: the other one goes on, until it fails too. -/
theorem half_first (hs : Step me .unwind room σ k σ') {c : Nat} (hh : σ.host = .up c true true) (hd : σ'.host ≠ σ.host) :
    HostHalf σ' ∨ (k = .fault ∧ σ'.host = .down) := by
  cases hs with
  | startHost h1 => rw [hh] at h1; cases h1
  | connect h1 => rw [hh] at h1; cases h1
  | hostReads c' o h1 h2 => rw [hh] at h1; cases h1; exact .inl ⟨c, .inl rfl⟩
  | hostPacket c' i h1 h2 => rw [hh] at h1; cases h1; exact .inl ⟨c, .inr rfl⟩
  | hostOutward c' i h1 => rw [hh] at h1; cases h1; exact .inl ⟨c, .inr rfl⟩
  | hostInward c' o h1 => rw [hh] at h1; cases h1; exact .inl ⟨c, .inl rfl⟩
  | hostEnds => exact .inr ⟨rfl, rfl⟩
  | _ => exact absurd rfl hd

/-! ## No endless restarts -/

/-- How far a process is from copying. -/
def rank : Stage → Nat
  | .down => 4
  | .ready => 3
  | .up _ _ true => 2
  | .up _ _ false => 1

/-- The enclave's side holds a connection that the host has left. -/
def stale (σ : Sys) : Nat := if σ.held.any (fun c => σ.host.conn != some c) then 1 else 0

/-- The host has a connection that the enclave's side has left. -/
def lost (σ : Sys) : Nat := if σ.host.conn.any (fun c => !σ.held.contains c) then 1 else 0

/-- What the steps of the programs themselves use up. -/
def credit (σ : Sys) : Nat := 32 * stale σ + 8 * lost σ + rank σ.enclave + rank σ.host

theorem rank_le (s : Stage) : 1 ≤ rank s ∧ rank s ≤ 4 := by
  cases s with
  | up c o i => cases i <;> simp [rank]
  | _ => simp [rank]

theorem stale_le (σ : Sys) : stale σ ≤ 1 := by unfold stale; split <;> omega
theorem lost_le (σ : Sys) : lost σ ≤ 1 := by unfold lost; split <;> omega

theorem stale_one {c : Nat} (h : c ∈ σ.held) (h' : σ.host.conn ≠ some c) : stale σ = 1 := by
  unfold stale
  rw [if_pos]
  exact List.any_eq_true.mpr ⟨c, h, by simpa using h'⟩

theorem stale_zero (h : ∀ c ∈ σ.held, σ.host.conn = some c) : stale σ = 0 := by
  unfold stale
  rw [if_neg]
  intro ha
  obtain ⟨c, h1, h2⟩ := List.any_eq_true.mp ha
  simp [h c h1] at h2

theorem stale_mono {τ : Sys} (h : ∀ c ∈ τ.held, τ.host.conn ≠ some c → c ∈ σ.held ∧ σ.host.conn ≠ some c) : stale τ ≤ stale σ := by
  by_cases hz : ∀ c ∈ τ.held, τ.host.conn = some c
  · rw [stale_zero hz]; omega
  · obtain ⟨c, hc⟩ := Classical.not_forall.mp hz
    obtain ⟨h1, h2⟩ := Classical.not_imp.mp hc
    rw [stale_one (h c h1 h2).1 (h c h1 h2).2]
    exact stale_le τ

theorem lost_one {c : Nat} (h : σ.host.conn = some c) (h' : c ∉ σ.held) : lost σ = 1 := by
  unfold lost
  rw [h, if_pos]
  simpa using h'

theorem lost_zero (h : ∀ c, σ.host.conn = some c → c ∈ σ.held) : lost σ = 0 := by
  unfold lost
  rw [if_neg]
  cases hc : σ.host.conn with
  | none => simp
  | some c => simpa using h c hc

theorem lost_mono {τ : Sys} (h : ∀ c, τ.host.conn = some c → c ∉ τ.held → σ.host.conn = some c ∧ c ∉ σ.held) : lost τ ≤ lost σ := by
  by_cases hz : ∀ c, τ.host.conn = some c → c ∈ τ.held
  · rw [lost_zero hz]; omega
  · obtain ⟨c, hc⟩ := Classical.not_forall.mp hz
    obtain ⟨h1, h2⟩ := Classical.not_imp.mp hc
    rw [lost_one (h c h1 h2).1 (h c h1 h2).2]
    exact lost_le τ

theorem held_up {c : Nat} {o i : Bool} (h : σ.enclave = .up c o i) : σ.held = c :: σ.queue := by
  unfold Sys.held; rw [h]; rfl

/-- Every step of the programs themselves uses up credit. -/
theorem own_step (hi : Inv me mh σ) (hs : Step me mh room σ .own σ') : credit σ' < credit σ := by
  cases hs with
  | startEnclave h1 =>
    have hh : Sys.held { σ with enclave := .ready } = σ.held := by unfold Sys.held; rw [h1]; rfl
    have a := stale_mono (σ := σ) (τ := { σ with enclave := .ready }) (fun c m1 m2 => ⟨hh ▸ m1, m2⟩)
    have b := lost_mono (σ := σ) (τ := { σ with enclave := .ready }) (fun c m1 m2 => ⟨m1, hh ▸ m2⟩)
    have e : rank σ.enclave = 4 := by rw [h1]; rfl
    have e' : rank Stage.ready = 3 := rfl
    simp only [credit] at *
    omega
  | startHost h1 =>
    have a := stale_mono (σ := σ) (τ := { σ with host := .ready }) (fun c m1 m2 => ⟨m1, by rw [h1]; exact m2⟩)
    have b := lost_mono (σ := σ) (τ := { σ with host := .ready }) (fun c m1 m2 => nomatch m1)
    have e : rank σ.host = 4 := by rw [h1]; rfl
    have e' : rank Stage.ready = 3 := rfl
    simp only [credit] at *
    omega
  | connect h1 h2 h3 =>
    have a := stale_mono (σ := σ) (τ := { σ with host := .up σ.next true true, queue := σ.queue ++ [σ.next], next := σ.next + 1 })
      (fun c m1 m2 => by
        refine ⟨?_, by rw [h1]; exact fun h => nomatch h⟩
        have hc : c ≠ σ.next := fun e => m2 (by rw [e]; rfl)
        simp only [Sys.held, List.mem_append, List.mem_singleton] at m1 ⊢
        rcases m1 with m1 | m1 | m1
        · exact .inl m1
        · exact .inr m1
        · exact absurd m1 hc)
    have b := lost_zero (σ := { σ with host := .up σ.next true true, queue := σ.queue ++ [σ.next], next := σ.next + 1 })
      (fun c m1 => by cases m1; simp [Sys.held])
    have e : rank σ.host = 3 := by rw [h1]; rfl
    have e' : rank (Stage.up σ.next true true) = 2 := rfl
    simp only [credit] at *
    omega
  | accept c q h1 h2 =>
    have hh : Sys.held { σ with enclave := .up c true true, queue := q } = σ.held := by unfold Sys.held; rw [h1, h2]; rfl
    have a := stale_mono (σ := σ) (τ := { σ with enclave := .up c true true, queue := q }) (fun c m1 m2 => ⟨hh ▸ m1, m2⟩)
    have b := lost_mono (σ := σ) (τ := { σ with enclave := .up c true true, queue := q }) (fun c m1 m2 => ⟨m1, hh ▸ m2⟩)
    have e : rank σ.enclave = 3 := by rw [h1]; rfl
    have e' : rank (Stage.up c true true) = 2 := rfl
    simp only [credit] at *
    omega
  | enclaveReads c o h1 h2 =>
    have hs1 := stale_one (σ := σ) (c := c) (by rw [held_up h1]; exact List.mem_cons_self ..) h2
    rcases after_cases me c o false with hd | ⟨-, hu, -⟩
    · rw [hd]
      have a := stale_zero (σ := σ.setEnclave .down) (fun c m => nomatch m)
      have b := lost_le (σ.setEnclave .down)
      have e := (rank_le σ.enclave).1
      have e' : rank (σ.setEnclave .down).enclave = 4 := rfl
      have e'' : (σ.setEnclave .down).host = σ.host := rfl
      simp only [credit] at *
      rw [e'']
      omega
    · rw [hu]
      have hh : Sys.held (σ.setEnclave (.up c o false)) = σ.held := by rw [held_up h1]; rfl
      have a := stale_mono (σ := σ) (τ := σ.setEnclave (.up c o false)) (fun c m1 m2 => ⟨hh ▸ m1, m2⟩)
      have b := lost_mono (σ := σ) (τ := σ.setEnclave (.up c o false)) (fun c m1 m2 => ⟨m1, hh ▸ m2⟩)
      have e : rank σ.enclave = 2 := by rw [h1]; rfl
      have e' : rank (σ.setEnclave (.up c o false)).enclave = 1 := rfl
      have e'' : (σ.setEnclave (.up c o false)).host = σ.host := rfl
      simp only [credit] at *
      rw [e'']
      omega
  | hostReads c o h1 h2 =>
    have hcn : σ.host.conn = some c := by rw [h1]; rfl
    have hl := lost_one hcn h2
    rcases after_cases mh c o false with hd | ⟨-, hu, -⟩
    · rw [hd]
      have a := stale_mono (σ := σ) (τ := { σ with host := .down }) (fun c' m1 m2 => ⟨m1, by
        rw [hcn]; intro e; cases e; exact h2 m1⟩)
      have b := lost_zero (σ := { σ with host := .down }) (fun c m => nomatch m)
      have e := (rank_le σ.host).1
      have e' : rank Stage.down = 4 := rfl
      simp only [credit] at *
      omega
    · rw [hu]
      have a := stale_mono (σ := σ) (τ := { σ with host := .up c o false }) (fun c' m1 m2 => ⟨m1, by rw [hcn]; exact m2⟩)
      have b := lost_le { σ with host := .up c o false }
      have e : rank σ.host = 2 := by rw [h1]; rfl
      have e' : rank (Stage.up c o false) = 1 := rfl
      simp only [credit] at *
      omega

theorem own_bounded {n : Nat} (hr : Run me mh room (· = .own) n σ σ') (hi : Inv me mh σ) : n + credit σ' ≤ credit σ := by
  induction hr with
  | refl => omega
  | @tail n σ₁ σ₂ σ₃ k h1 hk hs ih =>
    subst hk
    have := own_step (inv_run h1 hi) hs
    have := ih hi
    omega

/-- C84: the programs do not go round in circles: between two packets or failures there are at most 48 steps. -/
theorem no_endless_restarts (h : Reachable me mh room σ) {n : Nat} (hr : Run me mh room (· = .own) n σ σ') : n ≤ 48 := by
  have := own_bounded hr (inv_reachable h)
  have a := stale_le σ
  have b := lost_le σ
  have c := (rank_le σ.enclave).2
  have d := (rank_le σ.host).2
  unfold credit at this
  omega

/-! ## Coming to rest -/

/-- C84: so they come to rest. -/
theorem comes_to_rest (h : Reachable me mh room σ) : ∃ n σ', Run me mh room (· = .own) n σ σ' ∧ AtRest me mh room σ' := by
  have key : ∀ m (σ : Sys), Inv me mh σ → credit σ ≤ m → ∃ n σ', Run me mh room (· = .own) n σ σ' ∧ AtRest me mh room σ' := by
    intro m
    induction m with
    | zero =>
      intro σ _ hc
      have := (rank_le σ.host).1
      unfold credit at hc
      omega
    | succ m ih =>
      intro σ hi hc
      by_cases hr : AtRest me mh room σ
      · exact ⟨0, σ, .refl _, hr⟩
      · obtain ⟨σ', hs⟩ := Classical.not_forall.mp hr
        have hs := Classical.not_not.mp hs
        have := own_step hi hs
        obtain ⟨n, σ'', h1, h2⟩ := ih σ' (inv_step hi hs) (by omega)
        exact ⟨1 + n, σ'', (Run.one (P := (· = .own)) rfl hs).trans h1, h2⟩
  exact key _ σ (inv_reachable h) (Nat.le_refl _)

/-- At rest with an enclave that aborts. -/
theorem rest_cases (hi : Inv .abort mh σ) (hr : AtRest .abort mh room σ) :
    (∃ c, σ.enclave = .up c true true ∧ σ.host.conn = some c) ∨
    (σ.enclave = .ready ∧ σ.queue = [] ∧ ∃ c, σ.host = .up c true false) := by
  cases he : σ.enclave with
  | down => exact absurd (.startEnclave σ he) (hr _)
  | ready =>
    right
    cases hq : σ.queue with
    | cons c q => exact absurd (.accept σ c q he hq) (hr _)
    | nil =>
      refine ⟨rfl, rfl, ?_⟩
      cases hh : σ.host with
      | down => exact absurd (.startHost σ hh) (hr _)
      | ready => exact absurd (.connect σ hh (by rw [he]; exact fun h => nomatch h) (by rw [hq]; exact Nat.zero_le _)) (hr _)
      | up c o i =>
        have hn : c ∉ σ.held := by unfold Sys.held; rw [he, hq]; exact fun h => nomatch h
        cases i with
        | true => exact absurd (.hostReads σ c o hh hn) (hr _)
        | false =>
          rcases hi.hostLive c o false hh with h | h
          · rw [h]; exact ⟨c, rfl⟩
          · cases h
  | up c o i =>
    left
    obtain ⟨rfl, rfl⟩ := hi.enclave rfl c o i he
    refine ⟨c, rfl, ?_⟩
    by_cases hc : σ.host.conn = some c
    · exact hc
    · exact absurd (.enclaveReads σ c true he hc) (hr _)

/-- C84: with both processes built to abort, whatever failed before, the programs left to themselves come to rest only with the
tunnel working again. -/
theorem heals (h : Reachable .abort .abort room σ) {n : Nat} (hr : Run .abort .abort room (· = .own) n σ σ') (hrest : AtRest .abort .abort room σ') :
    Works σ' := by
  have hi := inv_run hr (inv_reachable h)
  rcases rest_cases hi hrest with ⟨c, h1, h2⟩ | ⟨-, -, c, h1⟩
  · refine ⟨c, h1, ?_⟩
    cases hh : σ'.host with
    | up c' o i =>
      rw [hh] at h2
      cases h2
      obtain ⟨rfl, rfl⟩ := hi.host rfl _ o i hh
      rfl
    | _ => rw [hh] at h2; cases h2
  · have := hi.host rfl _ _ _ h1
    simp at this

/-- C84: a working tunnel is at rest: it is not torn down without a failure, not even by packets. -/
theorem works_stays (hw : Works σ) (hs : Step me mh room σ k σ') : k = .fault := by
  obtain ⟨c, he, hh⟩ := hw
  have hcn : σ.host.conn = some c := by rw [hh]; rfl
  have hheld : c ∈ σ.held := by rw [held_up he]; exact List.mem_cons_self ..
  cases hs with
  | startEnclave h1 => rw [he] at h1; cases h1
  | startHost h1 => rw [hh] at h1; cases h1
  | connect h1 => rw [hh] at h1; cases h1
  | accept c q h1 => rw [he] at h1; cases h1
  | enclaveReads c' o h1 h2 => rw [he] at h1; cases h1; exact absurd hcn h2
  | hostReads c' o h1 h2 => rw [hh] at h1; cases h1; exact absurd hheld h2
  | enclavePacket c' o h1 h2 => rw [he] at h1; cases h1; exact absurd hcn h2
  | hostPacket c' o h1 h2 => rw [hh] at h1; cases h1; exact absurd hheld h2
  | _ => rfl

/-! ## The host as it is built -/

/-- C84: with the enclave built to abort and the host not, the programs come to rest only with the tunnel working or with a host
process that copies in one direction only. -/
theorem rest_as_built (h : Reachable .abort .unwind room σ) (hrest : AtRest .abort .unwind room σ) : Works σ ∨ HostHalf σ := by
  have hi := inv_reachable h
  rcases rest_cases hi hrest with ⟨c, h1, h2⟩ | ⟨-, -, c, h1⟩
  · cases hh : σ.host with
    | up c' o i =>
      rw [hh] at h2
      cases h2
      cases o <;> cases i
      · rcases hi.hostLive _ _ _ hh with h | h <;> cases h
      · exact .inr ⟨c, .inr hh⟩
      · exact .inr ⟨c, .inl hh⟩
      · exact .inl ⟨c, h1, hh⟩
    | _ => rw [hh] at h2; cases h2
  · exact .inr ⟨c, .inl h1⟩

/-- C84, recorded finding: if one direction of the host fails while the connection stays open, the tunnel works in the other
direction only, for ever: no packet and nothing the programs do ends the process. -/
theorem one_way_for_ever {c : Nat} (he : σ.enclave = .up c true true) (hh : ∃ o i, σ.host = .up c o i ∧ ¬ (o = true ∧ i = true)) {n : Nat}
    (hr : Run me mh room (· ≠ .fault) n σ σ') : σ'.enclave = .up c true true ∧ σ'.host = σ.host ∧ ¬ Works σ' := by
  obtain ⟨o, i, hh, hoi⟩ := hh
  induction hr with
  | refl =>
    refine ⟨he, rfl, ?_⟩
    rintro ⟨c', -, h⟩
    rw [hh] at h
    cases h
    exact hoi ⟨rfl, rfl⟩
  | @tail n σ₁ σ₂ σ₃ k h1 hk hs ih =>
    obtain ⟨e1, e2, e3⟩ := ih he hh
    rw [hh] at e2
    have hcn : σ₂.host.conn = some c := by rw [e2]; rfl
    have hheld : c ∈ σ₂.held := by rw [held_up e1]; exact List.mem_cons_self ..
    exfalso
    cases hs with
    | startEnclave h1 => rw [e1] at h1; cases h1
    | startHost h1 => rw [e2] at h1; cases h1
    | connect h1 => rw [e2] at h1; cases h1
    | accept c q h1 => rw [e1] at h1; cases h1
    | enclaveReads c' o h1 h2 => rw [e1] at h1; cases h1; exact h2 hcn
    | hostReads c' o h1 h2 => rw [e2] at h1; cases h1; exact h2 hheld
    | enclavePacket c' o h1 h2 => rw [e1] at h1; cases h1; exact h2 hcn
    | hostPacket c' o h1 h2 => rw [e2] at h1; cases h1; exact h2 hheld
    | _ => exact hk rfl

/-- C84, recorded finding: if the host's process has lost its connection and nothing comes in from the network, the enclave waits for
the host for ever. -/
theorem waits_for_ever {c : Nat} (he : σ.enclave = .ready) (hq : σ.queue = []) (hh : σ.host = .up c true false) :
    AtRest me mh room σ := by
  intro σ' hs
  cases hs with
  | startEnclave h1 => rw [he] at h1; cases h1
  | startHost h1 => rw [hh] at h1; cases h1
  | connect h1 => rw [hh] at h1; cases h1
  | accept c q h1 h2 => rw [hq] at h2; cases h2
  | enclaveReads c' o h1 h2 => rw [he] at h1; cases h1
  | hostReads c' o h1 h2 => rw [hh] at h1; cases h1

/-- C84: the next packet from the network then helps: the process ends, and three steps later the tunnel works. -/
theorem packet_helps {c : Nat} (he : σ.enclave = .ready) (hq : σ.queue = []) (hh : σ.host = .up c true false) :
    ∃ σ₁ σ₂, Step me mh room σ .packet σ₁ ∧ Run me mh room (· = .own) 3 σ₁ σ₂ ∧ Works σ₂ := by
  have hn : c ∉ σ.held := by unfold Sys.held; rw [he, hq]; exact fun h => nomatch h
  have hd : afterFailure mh c false false = .down := by cases mh <;> rfl
  have s1 := Step.hostPacket (enclaveMode := me) (hostMode := mh) (room := room) σ c false hh hn
  rw [hd] at s1
  refine ⟨_, { σ with host := .up σ.next true true, enclave := .up σ.next true true, queue := [], next := σ.next + 1 }, s1, ?_, ?_⟩
  · have s2 := Step.startHost (enclaveMode := me) (hostMode := mh) (room := room) { σ with host := .down } rfl
    have s3 := Step.connect (enclaveMode := me) (hostMode := mh) (room := room) { σ with host := .ready } rfl
      (by show σ.enclave ≠ _; rw [he]; exact fun h => nomatch h) (by show σ.queue.length ≤ _; rw [hq]; exact Nat.zero_le _)
    have s4 := Step.accept (enclaveMode := me) (hostMode := mh) (room := room)
      { σ with host := .up σ.next true true, queue := σ.queue ++ [σ.next], next := σ.next + 1 } σ.next [] he (by rw [hq]; rfl)
    exact .tail (.tail (.tail (.refl _) rfl s2) rfl s3) rfl s4
  · exact ⟨_, rfl, rfl⟩

/-! ## Concrete runs -/

/-- The tunnel comes up. -/
theorem up_run : Run me mh room (· = .own) 4 Sys.start ⟨.up 0 true true, [], .up 0 true true, 1⟩ :=
  .tail (.tail (.tail (.tail (.refl _) rfl (.startEnclave Sys.start rfl)) rfl (.startHost ⟨.ready, [], .down, 0⟩ rfl)) rfl
    (.connect ⟨.ready, [], .ready, 0⟩ rfl (by decide) (Nat.zero_le _))) rfl (.accept ⟨.ready, [0], .up 0 true true, 1⟩ 0 [] rfl rfl)

/-- Concrete case of the first finding: the host's pump from the connection fails once (a packet it does not understand); the tunnel,
which worked, then never works again without a second failure. -/
theorem toy_one_way : ∃ σ, Reachable .abort .unwind 1 σ ∧ AtRest .abort .unwind 1 σ ∧ HostHalf σ ∧
    ∀ n σ', Run .abort .unwind 1 (· ≠ .fault) n σ σ' → ¬ Works σ' := by
  refine ⟨⟨.up 0 true true, [], .up 0 true false, 1⟩, ⟨5, ?_⟩, ?_, ⟨0, .inl rfl⟩, ?_⟩
  · exact .tail (up_run.mono (fun _ _ => trivial)) trivial (.hostInward ⟨.up 0 true true, [], .up 0 true true, 1⟩ 0 true rfl)
  · intro σ' hs
    obtain ⟨-, -, h⟩ := one_way_for_ever (σ := ⟨.up 0 true true, [], .up 0 true false, 1⟩) (c := 0) rfl ⟨true, false, rfl, by simp⟩
      (Run.one (P := (· ≠ .fault)) (by simp) hs)
    cases hs with
    | hostReads c o h1 h2 => cases h1
    | enclaveReads c o h1 h2 => cases h1; exact h2 rfl
    | startEnclave h1 => cases h1
    | startHost h1 => cases h1
    | connect h1 => cases h1
    | accept c q h1 => cases h1
  · intro n σ' hr
    exact (one_way_for_ever (σ := ⟨.up 0 true true, [], .up 0 true false, 1⟩) (c := 0) rfl ⟨true, false, rfl, by simp⟩ hr).2.2

/-- Concrete case of the second finding: the enclave's process is killed once and started again; the host does not connect again.
With both built to abort it does. -/
theorem toy_lost : (∃ σ, Reachable .abort .unwind 1 σ ∧ σ.enclave = .ready ∧ HostHalf σ ∧ AtRest .abort .unwind 1 σ) ∧
    (∃ n σ, Run .abort .abort 1 (· = .own) n ⟨.down, [], .up 0 true true, 1⟩ σ ∧ Works σ) := by
  refine ⟨⟨⟨.ready, [], .up 0 true false, 1⟩, ⟨7, ?_⟩, rfl, ⟨0, .inl rfl⟩, waits_for_ever (c := 0) rfl rfl rfl⟩,
    5, ⟨.up 1 true true, [], .up 1 true true, 2⟩, ?_, ⟨1, rfl, rfl⟩⟩
  · exact .tail (.tail (.tail (up_run.mono (fun _ _ => trivial)) trivial (.enclaveEnds ⟨.up 0 true true, [], .up 0 true true, 1⟩)) trivial
      (.hostReads ⟨.down, [], .up 0 true true, 1⟩ 0 true rfl (by decide))) trivial (.startEnclave ⟨.down, [], .up 0 true false, 1⟩ rfl)
  · exact .tail (.tail (.tail (.tail (.tail (.refl _) rfl (.hostReads ⟨.down, [], .up 0 true true, 1⟩ 0 true rfl (by decide))) rfl
      (.startHost ⟨.down, [], .down, 1⟩ rfl)) rfl (.startEnclave ⟨.down, [], .ready, 1⟩ rfl)) rfl
      (.connect ⟨.ready, [], .ready, 1⟩ rfl (by decide) (by decide))) rfl (.accept ⟨.ready, [1], .up 1 true true, 2⟩ 1 [] rfl rfl)

end Qos.Tunnel
