import Verif.Model.Net
import Verif.Props.Stream
/-!
# What concurrent clients may rely on

Vocabulary of C35 and C36.
-/
namespace Qos.Net

variable {S : Type}

/-- One request, alone. -/
def Processor.process (P : Processor S) (s : S) (req : Bytes) : Bytes × S :=
  match P.direct req with
  | some resp => (resp, s)
  | none => P.locked s req

/-- Requests one after the other: the responses and the final state. -/
def Processor.sequential (P : Processor S) (s : S) : List Bytes → List Bytes × S
  | [] => ([], s)
  | req :: reqs =>
    ((P.process s req).1 :: (P.sequential (P.process s req).2 reqs).1, (P.sequential (P.process s req).2 reqs).2)

/-- What was processed on one connection, in order. -/
def onConn (log : List Entry) (j : Nat) : List Entry := log.filter fun e => e.conn = j

/-- Connections of a listener that are being served. -/
def Sys.serving (σ : Sys S) (l : Nat) : Nat := σ.conns.countP fun c => c.listener = l && c.serve.active

/-- Nobody is in the middle of handling a request with the state. -/
def Serve.isHandling : Serve S → Bool
  | .handling _ _ _ => true
  | _ => false

/-- What was processed on the connections opened by call `k`. -/
def Sys.processedFor (σ : Sys S) (k : Nat) : List Entry :=
  σ.log.filter fun e => (σ.conns[e.conn]?).bind (·.opener) = some k

end Qos.Net
