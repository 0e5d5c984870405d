import Verif.Lemmas.ProxyWork
import Verif.Props.ProxyRuns
/-!
# C55, recorded finding: resolvers are kept for ever

`RESOLVERS` (proxy_connection.rs:27-28, 138-167) has no bound and nothing is ever taken out of it. Which resolvers there are
is decided by the requests, that is, by the enclave.
-/
namespace Qos.Proxy
variable {Ip : Type} [DecidableEq Ip] {A : Addresses Ip} {listeners max : Nat} {σ σ' : Sys Ip}

/-- C55, recorded finding: whatever happens, sessions ending included, the cache of resolvers only grows. -/
theorem resolvers_kept (h : Reachable A σ σ') : σ.cache <+: σ'.cache := by
  induction h with
  | refl => exact List.prefix_refl _
  | tail _ hs ih =>
    refine ih.trans ?_
    cases hs with
    | insert j s hn p k h1 h2 =>
      show _ <+: (Sys.insertResolver _ k).1.cache
      unfold Sys.insertResolver
      split
      · exact List.prefix_refl _
      · exact List.prefix_append _ _
    | _ => exact List.prefix_refl _

/-- C55, recorded finding: it holds one resolver for every configuration that any session, over or not, has ever had a name
looked up with, and no configuration twice; so with `n` different configurations asked for, at least `n` resolvers are
kept. -/
theorem resolvers_counted (hr : Reachable A (Sys.start listeners max) σ) (keys : List (Key Ip)) (hd : keys.Nodup)
    (hk : ∀ k ∈ keys, ∃ s ∈ σ.sessions, ∃ q ∈ s.queries, σ.built[q.resolver]? = some k) :
    keys.length ≤ σ.cache.length ∧ (σ.cache.map Prod.fst).Nodup := by
  have hi := sysInv_reachable hr
  refine ⟨?_, hi.keys⟩
  have hsub : keys ⊆ σ.cache.map Prod.fst := by
    intro k hmem
    obtain ⟨s, hs, q, hq, hb⟩ := hk k hmem
    obtain ⟨j, hj⟩ := List.mem_iff_getElem?.mp hs
    rcases (hi.sessions j s hj).explained with h | ⟨req, a, _, h2, _⟩
    · rw [h.1] at hq; cases hq
    · obtain ⟨k', hc⟩ := trail_cached h2 q hq
      have e := hi.built _ _ hc
      rw [hb] at e
      cases e
      exact List.mem_map.mpr ⟨_, hc, rfl⟩
  have := (hd.subperm hsub).length_le
  simpa using this

/-- Concrete case: a session asks for a name with the resolver 1.2.3.4 at port 53, is connected and ends; its resolver stays, in
this state and in every later one. -/
theorem toy_resolver : ∃ σ : Sys Nat, Reachable toyAddresses (Sys.start 1 1) σ ∧ (∃ s, σ.sessions[0]? = some s ∧ s.task = .closed false) ∧
    ∀ σ', Reachable toyAddresses σ σ' → 1 ≤ σ'.cache.length := by
  obtain ⟨req, hreq⟩ : ∃ req, req = nameRequest "host" 443 ["1.2.3.4"] 53 := ⟨_, rfl⟩
  have hlen : req.length ≤ 100 := by rw [hreq]; decide
  have he : Encodes req (.connectByName "host" 443 ["1.2.3.4"] 53) := by
    refine ⟨hreq, ?_⟩
    have h : Borsh.tryFromSlice msgCodec (nameRequest "host" 443 ["1.2.3.4"] 53) =
        some (.connectByName "host" 443 ["1.2.3.4"] 53) := by decide
    exact (decode_iff.mp h).2
  obtain ⟨inp, hinp⟩ : ∃ inp, inp = leBytes 8 req.length ++ req := ⟨_, rfl⟩
  have hf : FirstFrame inp req := ⟨by omega, [], by rw [List.append_nil]; exact hinp.symm⟩
  have a1 := Step.connect (A := toyAddresses) (Sys.start 1 1) 0
  have a2 := Step.session (A := toyAddresses) { Sys.start (Ip := Nat) 1 1 with sessions := [.fresh 0] } 0 (.fresh 0)
    _ rfl (.clientWrite (.fresh 0) inp rfl)
  have a3 := Step.permit (A := toyAddresses) { Sys.start (Ip := Nat) 1 1 with sessions := [{ Session.fresh 0 with inp := inp }] } 0 0
    ⟨1, false, true⟩ rfl rfl rfl rfl
  have a4 := Step.accept (A := toyAddresses) ⟨[{ Session.fresh 0 with inp := inp }], [⟨0, true, true⟩], [], []⟩ 0 0 ⟨0, true, true⟩
    { Session.fresh 0 with inp := inp } rfl rfl rfl rfl rfl rfl
  have r0 : Reachable toyAddresses (Sys.start 1 1) ⟨[{ Session.fresh 0 with inp := inp, task := .reading [] }], [⟨0, false, true⟩], [], []⟩ :=
    (((Reachable.refl.tail a1).tail a2).tail a3).tail a4
  obtain ⟨σ1, s1, r, r1, g1, b1, q1, -, -, -, up, down, t1⟩ := name_can_be_reached r0 (j := 0) rfl rfl rfl hf he
    (ips := [7]) (by show [some 7] = [some 7]; rfl) 7 [] (by decide)
  have hr1 := r0.trans r1
  have hact : s1.task.active = true := by rw [t1]; rfl
  have hlt := (liveInv_reachable hr1 0 s1 g1).2 hact
  have a5 := Step.abort (A := toyAddresses) σ1 0 s1 _ g1 hact (List.getElem?_eq_getElem hlt)
  refine ⟨_, hr1.tail a5, ⟨_, Net.set_get g1, rfl⟩, fun σ' h => ?_⟩
  have hc := (resolvers_counted hr1 [([7], 53)] (by simp) (by
    intro k hk
    rw [List.mem_singleton.mp hk]
    exact ⟨s1, List.mem_of_getElem? g1, ⟨r, "host", some [7]⟩, by rw [q1]; exact List.mem_singleton.mpr rfl, b1⟩)).1
  have hp := (resolvers_kept h).length_le
  exact Nat.le_trans hc hp

end Qos.Proxy
