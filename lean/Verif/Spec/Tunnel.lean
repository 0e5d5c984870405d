import Verif.Model.Tunnel
/-!
# A tunnel that works

What it means that the tunnel works, and that the two programs can do nothing more by themselves.
-/
namespace Qos.Tunnel

/-- Both processes copy in both directions, over the same connection. -/
def Works (σ : Sys) : Prop := ∃ c, σ.enclave = .up c true true ∧ σ.host = .up c true true

/-- Nothing is done any more without a packet or a failure. -/
def AtRest (me mh : Mode) (room : Nat) (σ : Sys) : Prop := ∀ σ', ¬ Step me mh room σ .own σ'

/-- The host's process is alive with one direction only. -/
def HostHalf (σ : Sys) : Prop := ∃ c, σ.host = .up c true false ∨ σ.host = .up c false true

/-- Some state that the processes, started for the first time, may be in after any failures and packets. -/
def Reachable (me mh : Mode) (room : Nat) (σ : Sys) : Prop := ∃ n, Run me mh room (fun _ => True) n Sys.start σ

end Qos.Tunnel
