import Verif.Lemmas.Relay
/-!
# C60: a connection through the bridge

Vocabulary: `outer` is the client's connection to the host, `inner` the connection to the application. What the client has
written is `outer.toApp.written`, what the application has been given is `inner.toApp.written`, and so on back.
-/
namespace Qos.Relay

/-- C60: whatever the schedule and whatever fails, the application is only ever given what the client wrote, from the
beginning, in order, without gaps; and the client only what the application wrote. -/
theorem nothing_invented {x : Line} (h : Reachable x) :
    x.inner.toApp.written <+: x.outer.toApp.written ∧ x.outer.toClient.written <+: x.inner.toClient.written :=
  ⟨h.good.enclave.fwd.trans h.good.host.fwd, h.good.host.back.trans h.good.enclave.back⟩

/-- C60: when both tasks have ended normally, both sides have been given everything. -/
theorem everything_delivered {x : Line} (h : Reachable x) (hh : x.host = .ended .finished)
    (he : x.enclave = .ended .finished) :
    x.inner.toApp.written = x.outer.toApp.written ∧ x.outer.toClient.written = x.inner.toClient.written := by
  have a := h.good.host
  have b := h.good.enclave
  rw [hh] at a
  rw [he] at b
  exact ⟨b.1.trans a.1, a.2.2.2.1.trans b.2.2.2.1⟩

/-- C60: when the application sees the end of the stream, the client has ended it and the application has been given all of
it, unless one of the two tasks broke off. -/
theorem app_sees_end {x : Line} (h : Reachable x) (he : x.inner.toApp.ended = true) :
    (x.outer.toApp.ended = true ∧ x.inner.toApp.written = x.outer.toApp.written) ∨
      x.host = .ended .broken ∨ x.enclave = .ended .broken := by
  rcases h.good.enclave.fwd_end he with ⟨h1, h2⟩ | h1
  · rcases h.good.host.fwd_end h1 with ⟨h3, h4⟩ | h3
    · exact .inl ⟨h3, h2.trans h4⟩
    · exact .inr (.inl h3)
  · exact .inr (.inr h1)

/-- C60: when the client sees the end of the stream, the application has ended it and the client has been given all of it,
unless one of the two tasks broke off or could not connect. -/
theorem client_sees_end {x : Line} (h : Reachable x) (he : x.outer.toClient.ended = true) :
    (x.inner.toClient.ended = true ∧ x.outer.toClient.written = x.inner.toClient.written) ∨
      x.host ∈ [Task.ended .broken, .ended .refused] ∨ x.enclave ∈ [Task.ended .broken, .ended .refused] := by
  rcases h.good.host.back_end he with ⟨h1, h2⟩ | h1
  · rcases h.good.enclave.back_end h1 with ⟨h3, h4⟩ | h3
    · exact .inl ⟨h3, h2.trans h4⟩
    · exact .inr (.inr (by simpa using h3))
  · exact .inr (.inl (by simpa using h1))

/-- C60: nothing gets stuck. From every state in which neither task has failed, there are further steps (in which nobody
writes anything new) after which both have ended normally; then everything written so far has arrived. -/
theorem can_complete {x : Line} (h : Reachable x) (hh : x.host ∉ [Task.ended .broken, .ended .refused])
    (he : x.enclave ∉ [Task.ended .broken, .ended .refused]) :
    ∃ y, Relation.ReflTransGen Step x y ∧ y.host = .ended .finished ∧ y.enclave = .ended .finished ∧
      y.inner.toApp.written = x.outer.toApp.written ∧ y.outer.toClient.written = x.inner.toClient.written := by
  simp only [List.mem_cons, List.not_mem_nil, or_false, not_or] at hh he
  obtain ⟨y, q, h1, h2⟩ := completes h.good hh.2 hh.1 he.2 he.1
  have hy : Reachable y := by
    have := q.steps
    clear q h1 h2
    induction this with
    | refl => exact h
    | tail _ hs ih => exact .step ih hs
  obtain ⟨h3, h4⟩ := everything_delivered hy h1 h2
  exact ⟨y, q.steps, h1, h2, h3.trans q.client, h4.trans q.app⟩

/-! ## Examples -/

/-- A connection over which three bytes were written by the client; the host's task has copied one. -/
def sample : Line :=
  ⟨⟨⟨[1, 2, 3], 3, false⟩, ⟨[], 0, false⟩⟩, .piping ⟨[2, 3], false, false⟩ .start, ⟨⟨[1], 0, false⟩, ⟨[], 0, false⟩⟩, .idle, .fresh⟩

theorem sample_reachable : Reachable sample := by
  have h1 := Reachable.start.step (.clientWrite .start [1, 2, 3] rfl)
  have h2 := h1.step (.host _ _ _ _ (.accept _ _))
  have h3 := h2.step (.host _ _ _ _ (.connected _ _))
  have h4 := h3.step (.host _ _ _ _ (.readFwd _ _ _ _ 3 rfl (by decide)))
  exact h4.step (.host _ _ _ _ (.writeFwd _ _ _ _ 1 rfl))

/-- `nothing_invented`: something is on the way. -/
example : sample.middle.toApp.written = [1] := rfl

/-- `everything_delivered`, `can_complete`: a normal end with the three bytes delivered is reachable. -/
example : ∃ y, Reachable y ∧ y.host = .ended .finished ∧ y.enclave = .ended .finished ∧ y.inner.toApp.written = [1, 2, 3] := by
  obtain ⟨y, hy, h1, h2, h3, h4⟩ := can_complete sample_reachable (by decide) (by decide)
  have : Reachable y := by
    clear h1 h2 h3 h4
    induction hy with
    | refl => exact sample_reachable
    | tail _ hs ih => exact .step ih hs
  exact ⟨y, this, h1, h2, h3⟩

/-- C60, the limit of `app_sees_end`: if the host's task breaks off, the application can see a regular end of a stream of
which it has only been given a part, and the task in the enclave can end normally. -/
theorem truncated_end : ∃ x, Reachable x ∧ x.outer.toApp.written = [1, 2, 3] ∧ x.inner.toApp = ⟨[1], 0, true⟩ ∧
    x.enclave = .ended .finished := by
  have h1 := sample_reachable.step (.host _ _ _ _ (.break _ _ _ _))
  have h2 := h1.step (.enclave _ _ _ _ rfl (.accept _ _))
  have h3 := h2.step (.enclave _ _ _ _ rfl (.connected _ _))
  have h4 := h3.step (.enclave _ _ _ _ rfl (.readFwd _ _ _ _ 1 rfl (by decide)))
  have h5 := h4.step (.enclave _ _ _ _ rfl (.writeFwd _ _ _ _ 1 rfl))
  have h6 := h5.step (.enclave _ _ _ _ rfl (.eofFwd _ _ _ _ rfl rfl))
  have h7 := h6.step (.enclave _ _ _ _ rfl (.doneFwd _ _ _ _ rfl rfl))
  have h8 := h7.step (.appClose _ rfl)
  have h9 := h8.step (.enclave _ _ _ _ rfl (.eofBack _ _ _ _ rfl rfl))
  have h10 := h9.step (.enclave _ _ _ _ rfl (.doneBack _ _ _ _ rfl rfl))
  exact ⟨_, h10.step (.enclave _ _ _ _ rfl (.finish _ _ _ _ rfl rfl)), rfl, rfl, rfl⟩

/-- `client_sees_end`: so it is with the client when the enclave's task cannot connect. -/
example : ∃ x, Reachable x ∧ x.outer.toClient = ⟨[], 0, true⟩ ∧ x.enclave = .ended .refused := by
  have h1 := sample_reachable.step (.enclave _ _ _ _ rfl (.accept _ _))
  have h2 := h1.step (.enclave _ _ _ _ rfl (.refused _ _))
  have h3 := h2.step (.host _ _ _ _ (.eofBack _ _ _ _ rfl rfl))
  exact ⟨_, h3.step (.host _ _ _ _ (.doneBack _ _ _ _ rfl rfl)), rfl, rfl⟩

end Qos.Relay
