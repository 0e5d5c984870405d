import Verif.Props.Forward
import Verif.Props.Scenario
import Verif.Spec.NsmProvider
/-!
# C69: the provider of the real device
-/
namespace Qos.NsmProvider
open P256 StateMachine

theorem errorName_inj {a b : NsmErrorCode} (h : errorName a = errorName b) : a = b := by
  cases a <;> cases b <;> first | rfl | exact absurd h (by decide)

theorem digestName_inj {a b : NsmDigest} (h : digestName a = digestName b) : a = b := by
  cases a <;> cases b <;> first | rfl | exact absurd h (by decide)

theorem name_ofError (e : DriverError) : errorName (ofError e) = driverErrorName e := by cases e <;> rfl
theorem name_toError (e : NsmErrorCode) : driverErrorName (toError e) = errorName e := by cases e <;> rfl
theorem name_ofDigest (e : DriverDigest) : digestName (ofDigest e) = driverDigestName e := by cases e <;> rfl
theorem name_toDigest (e : NsmDigest) : driverDigestName (toDigest e) = digestName e := by cases e <;> rfl

/-- Requests that say the same are the same. -/
theorem requestView_inj {a b : NsmRequest} (h : requestView a = requestView b) : a = b := by
  cases a <;> cases b <;> simp [requestView] at h <;> simp [h]

/-- Responses that say the same are the same. -/
theorem responseView_inj {a b : NsmResponse} (h : responseView a = responseView b) : a = b := by
  cases a <;> cases b <;> simp [responseView] at h <;> simp [h]
  · exact digestName_inj h.2.2.2.2.2.2
  · exact errorName_inj h

/-- Driver requests that say the same are the same. -/
theorem driverRequestView_inj {a b : DriverRequest} {v : View} (h : driverRequestView a = some v) (h' : driverRequestView b = some v) :
    a = b := by
  rw [← h'] at h
  cases a <;> cases b <;> simp [driverRequestView] at h h' <;> simp [h]

/-- C69: a request to the driver says what the enclave's says. -/
theorem request_same (r : NsmRequest) : driverRequestView (toRequest r) = some (requestView r) := by
  cases r <;> rfl

/-- C69: back, a request is read exactly as what it says, and only one that the code knows is read. -/
theorem request_read (q : DriverRequest) (r : NsmRequest) : ofRequest q = some r ↔ driverRequestView q = some (requestView r) := by
  constructor
  · intro h
    cases q <;> cases h <;> rfl
  · intro h
    have : q = toRequest r := driverRequestView_inj h (request_same r)
    subst this
    cases r <;> rfl

/-- C69: no request is lost or changed on the way to the driver and back. -/
theorem request_roundtrip (r : NsmRequest) : ofRequest (toRequest r) = some r := (request_read _ _).mpr (request_same r)

/-- C69: a response says to the enclave what it says to the driver's user; one the code does not know is an internal error. -/
theorem response_same (a : DriverResponse) : responseView (ofResponse a) = driverResponseView a := by
  cases a <;> simp [ofResponse, responseView, driverResponseView, name_ofError, name_ofDigest] <;> rfl

theorem response_to (r : NsmResponse) : driverResponseView (toResponse r) = responseView r := by
  cases r <;> simp [toResponse, responseView, driverResponseView, name_toError, name_toDigest]

/-- C69: no response is changed by going to the driver's type and back. -/
theorem response_roundtrip (r : NsmResponse) : ofResponse (toResponse r) = r :=
  responseView_inj (by rw [response_same, response_to])

theorem readTimestamp_tells (pki : Attest.Pki) (a : DriverResponse) : Tells pki .time (.time (readTimestamp pki (ofResponse a))) a := by
  cases a with
  | attestation d =>
    show Tells pki .time (.time (readTimestamp pki (.attestation d))) _
    cases hd : pki.decode d with
    | error e =>
      have : readTimestamp pki (.attestation d) = .error e := by simp only [readTimestamp, hd]; rfl
      rw [this]
      exact .inl ⟨d, rfl, hd⟩
    | ok doc =>
      have : readTimestamp pki (.attestation d) = .ok doc.timestamp := by simp only [readTimestamp, hd]; rfl
      rw [this]
      exact ⟨d, doc, rfl, hd, rfl⟩
  | _ => exact .inr ⟨_, rfl, response_same _, by simp [driverResponseView]⟩

theorem process_log (D : Driver) (log : List DriverCall) (r : NsmRequest) : (processRequest D log r).2 =
    log ++ [.opened (D.descriptor log), .asked (D.descriptor log) (toRequest r)
      (D.answer (log ++ [.opened (D.descriptor log)]) (D.descriptor log) (toRequest r)), .closed (D.descriptor log)] := by
  simp [processRequest]

/-- C69: whatever the driver answers, every call of the provider is one session: open, exactly that request, close; what is told is
what was answered. -/
theorem calls_exact (D : Driver) (pki : Attest.Pki) (log : List DriverCall) (as : List Ask) :
    Sessions D pki log as (calls D pki log as).1 (calls D pki log as).2 := by
  induction as generalizing log with
  | nil => exact .done log
  | cons a as ih =>
    cases a with
    | request r =>
      refine .step (toRequest r) (request_same r) (response_same _) ?_
      rw [← process_log D log r]
      exact ih _
    | time =>
      refine .step (toRequest (.attestation none none none)) rfl (readTimestamp_tells _ _) ?_
      rw [← process_log D log (.attestation none none none)]
      exact ih _

/-- C69: in an enclave on the real device every response in the record of device requests is an answer of the driver to exactly the
recorded request. -/
theorem recorded_genuine {E : Env} {D : Driver} (hb : Backed E D) (hist : List NsmRequest) (r : NsmRequest) :
    ∃ a, Answers D (requestView r) a ∧ responseView (E.nsm hist r) = driverResponseView a := by
  obtain ⟨log, h⟩ := hb.nsm hist r
  refine ⟨_, ⟨log, toRequest r, request_same r, rfl⟩, ?_⟩
  rw [h]
  exact response_same _

/-- C69: there, a key is released only if the other enclave's certificates are valid at the time that the driver's own document,
asked for at that moment and about nothing, gives. -/
theorem export_time_genuine {E : Env} {fs0 : Files} {h : List (Msg × Msg)} {s : St} {D : Driver} (hb : Backed E D)
    (H : History E fs0 h s) (hs : s.phase = .quorumKeyProvisioned) {new : Envelope} {der ct sig : Bytes}
    (hr : (handle E (.exportKeyRequest new der) s).1 = .exportKeyResponse ct sig) :
    ∃ own doc peer, Answers D ("Attestation", [.maybe none, .maybe none, .maybe none]) (.attestation own) ∧
      E.pki.decode own = .ok doc ∧ E.pki.decode der = .ok peer ∧
      E.pki.chain (peer.cabundle.tail) E.rootCa peer.certificate (doc.timestamp / 1000) = .ok () := by
  obtain ⟨b, key, hpr, hin⟩ := H.provisioned hs
  obtain ⟨ms, peer, pub, h1, h2, -⟩ := (export_exact H hs hin new der).1 ct sig hr
  obtain ⟨log, hl⟩ := hb.timestamp s.ios s.nsmHist
  rw [hl] at h1
  have ht := readTimestamp_tells E.pki (D.answer (log ++ [.opened (D.descriptor log)]) (D.descriptor log)
    (toRequest (.attestation none none none)))
  have h1' : readTimestamp E.pki (ofResponse (D.answer (log ++ [.opened (D.descriptor log)]) (D.descriptor log)
    (toRequest (.attestation none none none)))) = .ok ms := h1
  rw [h1'] at ht
  obtain ⟨own, doc, g1, g2, g3⟩ := ht
  have ha : D.answer (log ++ [.opened (D.descriptor log)]) (D.descriptor log) (toRequest (.attestation none none none)) =
      .attestation own := by
    revert g1
    cases D.answer (log ++ [.opened (D.descriptor log)]) (D.descriptor log) (toRequest (.attestation none none none)) <;>
      simp [driverResponseView]
  obtain ⟨d1, d2, d3, d4⟩ := (Attest.fromDer_exact ..).mp h2
  exact ⟨own, doc, peer, ⟨log, _, rfl, ha.symm⟩, g2, d1, by rw [g3]; exact d3⟩

/-! ## Concrete cases -/

/-- The request of a call. -/
def DriverCall.request? : DriverCall → Option NsmRequest
  | .asked _ q _ => ofRequest q
  | _ => none

/-- That many zeros. -/
def zeros (n : Nat) : Bytes := List.replicate n 0

/-- A driver for the toy surrounding: the mock device, and a fixed document after a descriptor 7 has been closed. -/
def toyDriver : Driver where
  descriptor _ := 3
  answer log _ q := match log with
    | .closed 7 :: _ => .attestation (zeros 258)
    | _ => toResponse (toyEnv.nsm (log.filterMap DriverCall.request?) ((ofRequest q).getD .getRandom))

/-- The toy surrounding is one on the real device; `ClientForwardToy.lean` has a key exported in it. -/
theorem toy_backed : Backed toyEnv toyDriver := by
  constructor
  · intro hist r
    refine ⟨hist.map fun r => .asked 3 (toRequest r) (.other 0), ?_⟩
    have hans : toyDriver.answer (hist.map (fun r => DriverCall.asked 3 (toRequest r) (.other 0)) ++ [.opened 3]) 3 (toRequest r) =
        toResponse (toyEnv.nsm hist r) := by
      have hf : (hist.map (fun r => DriverCall.asked 3 (toRequest r) (.other 0)) ++ [DriverCall.opened 3]).filterMap
          DriverCall.request? = hist := by
        induction hist with
        | nil => rfl
        | cons a l ih =>
          rw [List.map_cons, List.cons_append, List.filterMap_cons]
          simp only [DriverCall.request?, request_roundtrip]
          exact congrArg _ ih
      unfold toyDriver
      simp only [request_roundtrip, Option.getD_some]
      cases hist with
      | nil => rfl
      | cons a l =>
        show toResponse (toyEnv.nsm _ r) = _
        rw [hf]
    show _ = ofResponse (toyDriver.answer (hist.map (fun r => DriverCall.asked 3 (toRequest r) (.other 0)) ++ [.opened 3]) 3 (toRequest r))
    rw [hans, response_roundtrip]
  · intro n hist
    refine ⟨[.closed 7], ?_⟩
    show _ = readTimestamp toyEnv.pki (.attestation (zeros 258))
    have hl : (zeros 258).length = 258 := List.length_replicate
    generalize zeros 258 = z at hl
    show _ = (toyDecode z).bind _
    unfold toyDecode
    rw [if_neg (by rw [hl]; simp)]
    rfl

/-- A response of a kind the code does not know is an internal error, not an attestation. -/
example (n : Nat) : ofResponse (.other n) = .error .internalError := rfl

/-- Two calls are two sessions. -/
example : (calls toyDriver toyEnv.pki [] [.time, .request .getRandom]).2.length = 6 := by
  have := calls_exact toyDriver toyEnv.pki [] [.time, .request .getRandom]
  generalize (calls toyDriver toyEnv.pki [] [.time, .request .getRandom]).2 = l at this ⊢
  generalize (calls toyDriver toyEnv.pki [] [.time, .request .getRandom]).1 = t at this
  cases this with
  | step q _ _ rest => cases rest with
    | step q _ _ rest => cases rest; rfl

end Qos.NsmProvider
