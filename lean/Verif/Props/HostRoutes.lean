import Verif.Spec.HostRoutes
import Verif.Model.ClientCli
/-!
# C50: the host's endpoints are where they are documented to be
-/
namespace Qos.Host

theorem endpointPath_getD (b : Option String) (x : String) : endpointPath b x = "/" ++ b.getD "qos" ++ x := by
  cases b with
  | some p => rfl
  | none => show "/qos" ++ x = "/" ++ "qos" ++ x; rw [show "/" ++ "qos" = "/qos" from by decide]

theorem append_left_inj {a x y : String} (h : a ++ x = a ++ y) : x = y := by
  have := congrArg String.toList h
  rw [String.toList_append, String.toList_append] at this
  exact String.toList_inj.mp (List.append_cancel_left this)

theorem offers_unique {b : Option String} {m m' : Method} {path : String} {e e' : Endpoint} (h : Offers b m path e)
    (h' : Offers b m' path e') : m = m' ∧ e = e' := by
  generalize hp : path = q at h'
  cases h <;> cases h' <;> first | exact ⟨rfl, rfl⟩ | exact absurd (append_left_inj hp) (by decide)

theorem find_offers {b : Option String} {path : String} :
    (∀ r, (routes b).find? (fun r => r.1 = path) = some r → Offers b r.2.1 path r.2.2) ∧
    ((routes b).find? (fun r => r.1 = path) = none → ∀ m e, ¬ Offers b m path e) := by
  refine ⟨fun r h => ?_, fun h m e ho => ?_⟩
  · have hm := List.mem_of_find?_eq_some h
    have hp : r.1 = path := by simpa using List.find?_some h
    simp only [routes, endpointPath_getD, List.mem_cons, List.not_mem_nil, or_false] at hm
    rcases hm with rfl | rfl | rfl | rfl <;> subst hp
    · exact .hostHealth
    · exact .enclaveHealth
    · exact .message
    · exact .enclaveInfo
  · rw [List.find?_eq_none] at h
    simp only [routes, endpointPath_getD] at h
    cases ho
    · exact h _ (List.mem_cons_self ..) (decide_eq_true rfl)
    · exact h _ (List.mem_cons_of_mem _ (List.mem_cons_self ..)) (decide_eq_true rfl)
    · exact h _ (List.mem_cons_of_mem _ (List.mem_cons_of_mem _ (List.mem_cons_self ..))) (decide_eq_true rfl)
    · exact h _ (List.mem_cons_of_mem _ (List.mem_cons_of_mem _ (List.mem_cons_of_mem _ (List.mem_cons_self ..)))) (decide_eq_true rfl)

/-- C50: a request is served exactly if it is for an endpoint the host offers; one for such a path with another method is refused as
that; any other is not found. -/
theorem answers_exact (b : Option String) (m : Method) (path : String) :
    (∀ e, route b m path = .served e ↔ Offers b m path e) ∧
    (route b m path = .methodNotAllowed ↔ (∃ m' e, Offers b m' path e) ∧ ∀ e, ¬ Offers b m path e) ∧
    (route b m path = .notFound ↔ ∀ m' e, ¬ Offers b m' path e) := by
  obtain ⟨h1, h2⟩ := find_offers (b := b) (path := path)
  cases hf : (routes b).find? (fun r => r.1 = path) with
  | none =>
    have hn := h2 hf
    have hr : route b m path = .notFound := by unfold route; rw [hf]; rfl
    rw [hr]
    exact ⟨fun e => ⟨(fun h => nomatch h), fun h => absurd h (hn m e)⟩, ⟨(fun h => nomatch h), fun ⟨⟨m', e, h⟩, _⟩ => absurd h (hn m' e)⟩,
      ⟨fun _ => hn, fun _ => rfl⟩⟩
  | some r =>
    have ho := h1 r hf
    by_cases hm : r.2.1 = m
    · have hr : route b m path = .served r.2.2 := by unfold route; rw [hf]; exact if_pos hm
      rw [hr]
      subst hm
      refine ⟨fun e => ⟨fun h => ?_, fun h => ?_⟩, ⟨(fun h => nomatch h), fun h => absurd ho (h.2 _)⟩, ⟨(fun h => nomatch h), fun h => absurd ho (h _ _)⟩⟩
      · cases h; exact ho
      · rw [(offers_unique h ho).2]
    · have hr : route b m path = .methodNotAllowed := by unfold route; rw [hf]; exact if_neg hm
      rw [hr]
      exact ⟨fun e => ⟨(fun h => nomatch h), fun h => absurd (offers_unique ho h).1 hm⟩,
        ⟨fun _ => ⟨⟨_, _, ho⟩, fun e h => hm (offers_unique ho h).1⟩, fun _ => rfl⟩, ⟨(fun h => nomatch h), fun h => absurd ho (h _ _)⟩⟩

/-- C50: a client that was given the host's base path (or neither was given one) sends its messages where the host takes them. -/
theorem client_reaches (b : Option String) (m : Parser.TokenMap) {url : String} (hb : Parser.single m "endpoint-base-path" = b)
    (h : ClientCli.urlOf m "message" = some url) :
    ∃ ip port path, url = "http://" ++ ip ++ ":" ++ port ++ path ∧ Parser.single m "host-ip" = some ip ∧
      Parser.single m "host-port" = some port ∧ route b .post path = .served .message := by
  unfold ClientCli.urlOf at h
  cases hi : Parser.single m "host-ip" with
  | none => rw [hi] at h; cases h
  | some ip =>
    cases hp : Parser.single m "host-port" with
    | none => rw [hi, hp] at h; cases h
    | some port =>
      rw [hi, hp] at h
      cases h
      refine ⟨ip, port, "/" ++ b.getD "qos" ++ "/message", ?_, rfl, rfl, ((answers_exact b .post _).1 _).mpr .message⟩
      unfold ClientCli.baseOf
      rw [hb]
      simp only [String.append_assoc]
      rfl

/-- Concrete cases: with no base path given and with one. -/
theorem toy_routes : route none .post "/qos/message" = .served .message ∧ route none .get "/qos/message" = .methodNotAllowed ∧
    route (some "b") .get "/b/enclave-info" = .served .enclaveInfo ∧ route (some "b") .get "/qos/enclave-info" = .notFound := by
  decide

end Qos.Host
