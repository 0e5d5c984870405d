import Verif.Props.Net
/-!
# C35, C36: a run that meets the hypotheses

One pooled stream, one listener. The first call sends its request and times out while the server handles it; the second call
gets the same stream; the server writes the late response to the first request before it even sees the second.
-/
namespace Qos.Net

/-- Answers with the request and the number of requests so far; empty requests are answered without the state. -/
def counting : Processor Nat where
  direct req := if req = [] then some [255] else none
  locked n req := (req ++ [n.toUInt8], n + 1)

/-- The run, until the second call returns. -/
theorem late_response_run : ∃ σ : Sys Nat, Reachable counting (Sys.start [0] 1 2 0) σ ∧
    σ.calls = [⟨[1], .finished none⟩, ⟨[2], .finished (some [2, 1])⟩] ∧
    σ.log = [⟨0, [1], [1, 0]⟩, ⟨1, [2], [2, 1]⟩] ∧ σ.serving 0 = 2 ∧ σ.state = 2 := by
  have r := (Reachable.refl (P := counting) (σ0 := Sys.start [0] 1 2 0)).tail (.call _ [1])
  have r := r.tail (.get _ 0 0 _ _ rfl rfl rfl rfl)
  have r := r.tail (.connect _ 0 0 _ _ rfl rfl rfl)
  have r := r.tail (.begin _ 0 0 0 _ rfl rfl (by decide))
  have r := r.tail (.write _ 0 0 0 100 _ _ _ rfl rfl rfl)
  have r := r.tail (.await _ 0 0 0 _ rfl rfl)
  have r := r.tail (.permit _ 0 _ 1 rfl rfl rfl)
  have r := r.tail (.accept _ 0 0 _ _ rfl rfl rfl rfl rfl)
  have r := r.tail (.serverRead _ 0 8 8 _ _ rfl rfl rfl (by decide) (by decide))
  have r := r.tail (.serverRead _ 0 1 1 _ _ rfl rfl rfl (by decide) (by decide))
  have r := r.tail (.serverReceived _ 0 _ _ _ rfl rfl rfl)
  have r := r.tail (.lock _ 0 _ _ rfl rfl rfl rfl)
  have r := r.tail (.abort _ 0 _ rfl rfl)
  have r := r.tail (.call _ [2])
  have r := r.tail (.get _ 1 0 _ _ rfl rfl rfl rfl)
  have r := r.tail (.connect _ 1 0 _ _ rfl rfl rfl)
  have r := r.tail (.begin _ 1 0 1 _ rfl rfl (by decide))
  have r := r.tail (.write _ 1 0 1 100 _ _ _ rfl rfl rfl)
  have r := r.tail (.await _ 1 0 1 _ rfl rfl)
  have r := r.tail (.unlock _ 0 _ _ _ _ rfl rfl)
  have r := r.tail (.replyBegin _ 0 _ _ rfl rfl (by decide))
  have r := r.tail (.serverWrite _ 0 100 _ _ rfl rfl)
  have r := r.tail (.permit _ 0 _ 0 rfl rfl rfl)
  have r := r.tail (.accept _ 0 1 _ _ rfl rfl rfl rfl rfl)
  have r := r.tail (.serverRead _ 1 8 8 _ _ rfl rfl rfl (by decide) (by decide))
  have r := r.tail (.serverRead _ 1 1 1 _ _ rfl rfl rfl (by decide) (by decide))
  have r := r.tail (.serverReceived _ 1 _ _ _ rfl rfl rfl)
  have r := r.tail (.lock _ 1 _ _ rfl rfl rfl rfl)
  have r := r.tail (.unlock _ 1 _ _ _ _ rfl rfl)
  have r := r.tail (.replyBegin _ 1 _ _ rfl rfl (by decide))
  have r := r.tail (.serverWrite _ 1 100 _ _ rfl rfl)
  have r := r.tail (.read _ 1 0 1 8 8 _ _ _ rfl rfl rfl rfl (by decide) (by decide))
  have r := r.tail (.read _ 1 0 1 2 2 _ _ _ rfl rfl rfl rfl (by decide) (by decide))
  have r := r.tail (.finish _ 1 0 1 _ _ _ rfl rfl rfl)
  exact ⟨_, r, rfl, rfl, rfl, rfl⟩

end Qos.Net
