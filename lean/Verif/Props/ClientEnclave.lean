import Verif.Props.Host
import Verif.Lemmas.Client
import Verif.Props.ClientToy
/-!
# C49: a command's request reaches the enclave once

The operator's commands against the host in front of the modelled enclave: `request::post` and its two relatives with
fallbacks. Whatever encodings are tried, the enclave acts on the request at most once.
-/
namespace Qos.Client
open Wire Host StateMachine Lifecycle
variable {E : Env} {C : Setting St}

/-- The host's `/message` endpoint in front of the modelled enclave. -/
def Facing (C : Setting St) (E : Env) : Prop := C.net = http (enclaveCall E)

/-- The enclave never answers that it could not read a request that it did read. -/
theorem handle_read (E : Env) (m : Msg) (s : St) :
    (handle E m s).1 ≠ .protocolErrorResponse .protocolMsgDeserialization := by
  rcases handle_cases E m s with ⟨h, _⟩ | ⟨r, hr, act, x, s', hact, hx, hph, h'⟩
  · rw [h]
    intro hc
    cases hc
  · have hclean := ((tame_routes E s.phase r hr).clean m act hact).run s
    rw [hx] at hclean
    rw [h']
    intro hc
    split at hc
    · cases hc
    · simp only at hc
      subst hc
      exact ((tame_routes E s.phase r hr).answers m act hact).run _ _ _ hx
    · simp only [Msg.protocolErrorResponse.injEq] at hc
      subst hc
      exact hclean.out _ rfl

theorem net_short (hC : Facing C E) {b r : Bytes} {s s' : St} (hb : b.length ≤ 128 * 1024 * 1024)
    (hp : process E b s = (some r, s')) :
    C.net s b = (s', if r.length ≤ 128 * 1024 * 1024 then some r else none) := by
  have hm : Stream.maxPayloadSize = 128 * 1024 * 1024 := rfl
  have hc : enclaveCall E s b = (s', if r.length ≤ 128 * 1024 * 1024 then some r else none) := by
    unfold enclaveCall
    rw [if_pos (by rw [hm]; exact hb), hp]
    simp only [delivered, hm]
  obtain ⟨m1, m2, -⟩ := message_exact (enclaveCall E) b s
  have hl : b.length ≤ 256 * 1024 * 1024 := by omega
  rw [hC]
  unfold http
  by_cases hr : r.length ≤ 128 * 1024 * 1024
  · rw [if_pos hr] at hc ⊢
    rw [m1 hl _ _ hc]
    rfl
  · rw [if_neg hr] at hc ⊢
    obtain ⟨x, hx, -⟩ := m2 hl _ hc
    rw [hx]
    rfl

theorem net_long (hC : Facing C E) {b : Bytes} {s : St} (hb : 128 * 1024 * 1024 < b.length) : C.net s b = (s, none) := by
  have hm : Stream.maxPayloadSize = 128 * 1024 * 1024 := rfl
  have hc : enclaveCall E s b = (s, none) := by
    unfold enclaveCall
    rw [if_neg (by rw [hm]; omega)]
  obtain ⟨-, m2, m3⟩ := message_exact (enclaveCall E) b s
  rw [hC]
  unfold http
  by_cases hl : b.length ≤ 256 * 1024 * 1024
  · obtain ⟨x, hx, -⟩ := m2 hl _ hc
    rw [hx]
    rfl
  · obtain ⟨x, hx, -⟩ := m3 (Nat.not_le.mp hl)
    rw [hx]
    rfl

theorem readAnswer_short {r : Bytes} {m : Msg} {enc : Encoding} (hr : r.length ≤ 128 * 1024 * 1024)
    (hf : fromWire r = .ok (m, enc)) : readAnswer (some r) = some m := by
  unfold readAnswer
  have : r.take (2 ^ 32 - 1) = r := List.take_of_length_le (by omega)
  simp only [this, hf]

/-- A request in JSON, put through host and enclave. -/
theorem net_json (hC : Facing C E) {m : Msg} {b : Bytes} {s : St} (hm : JCodec.msg.ok m) (hw : toWire m .json = .ok b)
    (hb : b.length ≤ 128 * 1024 * 1024) (ha : JCodec.msg.ok (handle E m s).1) :
    ∃ r, toWire (handle E m s).1 .json = .ok r ∧ (C.net s b).1 = (handle E m s).2 ∧
      readAnswer (C.net s b).2 = if r.length ≤ 128 * 1024 * 1024 then some (handle E m s).1 else none := by
  obtain ⟨b', h1, h2⟩ := fromWire_json m hm
  rw [hw] at h1
  cases h1
  obtain ⟨r, h3, h4⟩ := process_json E b s hb m h2
  obtain ⟨r', h5, h6⟩ := fromWire_json _ ha
  rw [h4] at h5
  cases h5
  refine ⟨r, h4, by rw [net_short hC hb h3], ?_⟩
  rw [net_short hC hb h3]
  by_cases hr : r.length ≤ 128 * 1024 * 1024
  · simp only [if_pos hr]
    exact readAnswer_short hr h6
  · simp only [if_neg hr]
    rfl

theorem post_sent {m : Msg} {b : Bytes} {s : St} (hw : toWire m .json = .ok b)
    (hu : unreadable (readAnswer (C.net s b).2) = false) :
    post C m s = ⟨.ok (readAnswer (C.net s b).2), (C.net s b).1, [.sent b]⟩ := by
  unfold post
  rcases postWire_cases C m .json (fun r => if unreadable r then postWire C m .borsh else pure r) s with
    ⟨h, -⟩ | ⟨b', h1, h2⟩
  · exact absurd hw (h b)
  · rw [hw] at h1
    cases h1
    rw [h2]
    simp only [hu, Bool.false_eq_true, if_false]
    rfl

theorem postWire_sent {β : Type} {m : Msg} {enc : Encoding} {b : Bytes} {s : St} (hw : toWire m enc = .ok b)
    (f : Option Msg → Run St β) : (postWire C m enc >>= f) s =
      ⟨(f (readAnswer (C.net s b).2) (C.net s b).1).result, (f (readAnswer (C.net s b).2) (C.net s b).1).state,
        .sent b :: (f (readAnswer (C.net s b).2) (C.net s b).1).events⟩ := by
  rcases postWire_cases C m enc f s with ⟨h, -⟩ | ⟨b', h1, h2⟩
  · exact absurd hw (h b)
  · rw [hw] at h1
    cases h1
    exact h2

theorem postWire_unsent {β : Type} {m : Msg} {enc : Encoding} {s : St} (hw : ∀ b, toWire m enc ≠ .ok b)
    (f : Option Msg → Run St β) : (postWire C m enc >>= f) s = f none s := by
  rcases postWire_cases C m enc f s with ⟨-, h⟩ | ⟨b', h1, h2⟩
  · exact h
  · exact absurd h1 (hw b')

/-! ## Property theorems -/

/-- C49: `post` in front of host and enclave: a request whose JSON form is at most 128 MiB is acted on exactly once and
the command gets the enclave's answer (or, when that is longer than 128 MiB, none); a longer request is not acted on.
Exactly one message is sent: the enclave never gives the answer that would make the client try again in Borsh. -/
theorem post_exact (hC : Facing C E) (m : Msg) (s : St) (hm : JCodec.msg.ok m) (ha : JCodec.msg.ok (handle E m s).1) :
    ∃ b r, toWire m .json = .ok b ∧ toWire (handle E m s).1 .json = .ok r ∧
      (b.length ≤ 128 * 1024 * 1024 → post C m s =
        ⟨.ok (if r.length ≤ 128 * 1024 * 1024 then some (handle E m s).1 else none), (handle E m s).2, [.sent b]⟩) ∧
      (128 * 1024 * 1024 < b.length → post C m s = ⟨.ok none, s, [.sent b]⟩) := by
  obtain ⟨b, hw, -⟩ := fromWire_json m hm
  obtain ⟨r, hr, -⟩ := fromWire_json _ ha
  refine ⟨b, r, hw, hr, fun hb => ?_, fun hb => ?_⟩
  · obtain ⟨r', h1, h2, h3⟩ := net_json hC hm hw hb ha
    rw [hr] at h1
    cases h1
    have hu : unreadable (readAnswer (C.net s b).2) = false := by
      rw [h3]
      split
      · have := handle_read E m s
        unfold unreadable
        split
        · rename_i heq
          exact absurd (Option.some.inj heq) this
        · rfl
      · rfl
    rw [post_sent hw hu, h2, h3]
  · rw [post_sent hw (by rw [net_long hC hb]; rfl), net_long hC hb]
    rfl

/-- With an answer that fits. -/
theorem post_fits (hC : Facing C E) (m : Msg) (s : St) (hm : Fits m) (ha : Fits (handle E m s).1) :
    ∃ b, toWire m .json = .ok b ∧ post C m s = ⟨.ok (some (handle E m s).1), (handle E m s).2, [.sent b]⟩ := by
  obtain ⟨b, r, h1, h2, h3, -⟩ := post_exact hC m s hm.1 ha.1
  refine ⟨b, h1, ?_⟩
  rw [h3 (hm.2 b h1), if_pos (ha.2 r h2)]

/-- The Borsh form of the requests that put bytes after an envelope is refused by the enclave, without any effect. -/
theorem net_refused (hC : Facing C E) {m : Msg} {b : Bytes} {s : St}
    (hm : (∃ e p, m = .bootStandardRequest e p) ∨ (∃ e p, m = .bootKeyForwardRequest e p) ∨ ∃ e p, m = .exportKeyRequest e p)
    (hw : toWire m .borsh = .ok b) : (C.net s b).1 = s ∧
      (readAnswer (C.net s b).2 = none ∨
        readAnswer (C.net s b).2 = some (.protocolErrorResponse .protocolMsgDeserialization)) := by
  by_cases hb : b.length ≤ 128 * 1024 * 1024
  · obtain ⟨-, r, h1, h2⟩ := process_undecodable E b s hb _ (borsh_envelope_requests_unreadable m b hm hw hb)
    rw [net_short hC hb h1]
    refine ⟨rfl, ?_⟩
    by_cases hr : r.length ≤ 128 * 1024 * 1024
    · simp only [if_pos hr]
      exact .inr (readAnswer_short hr h2)
    · simp only [if_neg hr]
      exact .inl rfl
  · rw [net_long hC (Nat.not_le.mp hb)]
    exact ⟨rfl, .inl rfl⟩

/-- C49: the commands with an encoding fallback (`boot-key-fwd`, `export-key`): the attempt in Borsh, if made, has no
effect; the request is acted on exactly once, and the command's result is what its parser makes of the enclave's
answer. -/
theorem fallback_exact {α : Type} (hC : Facing C E) {m : Msg} (s : St) {e : Envelope} {p : Bytes}
    (hm : m = .bootKeyForwardRequest e p ∨ m = .exportKeyRequest e p) (parse : Msg → Option α)
    (hparse : ∀ e, parse (.protocolErrorResponse e) = none) (hf : Fits m) (ha : Fits (handle E m s).1) :
    ∃ b earlier, toWire m .json = .ok b ∧ postFallback C m parse (encodingsFor e) s =
      ⟨.ok (parse (handle E m s).1), (handle E m s).2, earlier ++ [.sent b]⟩ ∧
      (earlier = [] ∨ ∃ b', toWire m .borsh = .ok b' ∧ earlier = [.sent b']) := by
  obtain ⟨b, hw, -⟩ := fromWire_json m hf.1
  obtain ⟨r, h1, h2, h3⟩ := net_json hC hf.1 hw (hf.2 b hw) ha.1 (s := s)
  rw [if_pos (ha.2 r h1)] at h3
  have hj : postFallback C m parse [.json] s = ⟨.ok (parse (handle E m s).1), (handle E m s).2, [.sent b]⟩ := by
    rw [postFallback]
    rw [postWire_sent hw, h3, h2]
    cases hp : parse (handle E m s).1 with
    | none =>
      have : parsed parse (some (handle E m s).1) = none := hp
      simp only [this]
      rfl
    | some a =>
      have : parsed parse (some (handle E m s).1) = some a := hp
      simp only [this]
      rfl
  have hb : ∃ earlier, postFallback C m parse [.borsh, .json] s =
      ⟨.ok (parse (handle E m s).1), (handle E m s).2, earlier ++ [.sent b]⟩ ∧
      (earlier = [] ∨ ∃ b', toWire m .borsh = .ok b' ∧ earlier = [.sent b']) := by
    rw [postFallback]
    by_cases hx : ∃ b', toWire m .borsh = .ok b'
    swap
    · refine ⟨[], ?_, .inl rfl⟩
      rw [postWire_unsent (fun b' h => hx ⟨b', h⟩)]
      exact hj
    · obtain ⟨b', h1'⟩ := hx
      refine ⟨[.sent b'], ?_, .inr ⟨b', h1', rfl⟩⟩
      have hm' : (∃ e p, m = .bootStandardRequest e p) ∨ (∃ e p, m = .bootKeyForwardRequest e p) ∨
          ∃ e p, m = .exportKeyRequest e p := by
        rcases hm with rfl | rfl
        · exact .inr (.inl ⟨_, _, rfl⟩)
        · exact .inr (.inr ⟨_, _, rfl⟩)
      obtain ⟨n1, n2⟩ := net_refused hC hm' h1' (s := s)
      have hn : parsed parse (readAnswer (C.net s b').2) = none := by
        rcases n2 with h | h <;> rw [h]
        · rfl
        · exact hparse _
      rw [postWire_sent h1', n1, hn]
      simp only [hj]
      rfl
  cases e with
  | v2 => exact ⟨b, [], hw, hj, .inl rfl⟩
  | v1 => obtain ⟨x, h⟩ := hb; exact ⟨b, x, hw, h⟩
  | v0 => obtain ⟨x, h⟩ := hb; exact ⟨b, x, hw, h⟩

theorem boot_answer_borsh (doc : Bytes) (hl : doc.length ≤ 100 * 1024 * 1024) :
    ∃ r, toWire (.bootStandardResponse (.attestation doc)) .borsh = .ok r ∧ r.length ≤ 128 * 1024 * 1024 := by
  have hok : Borsh.msg.ok (.bootStandardResponse (.attestation doc)) := show doc.length < 2 ^ 32 by omega
  have henc : Borsh.msg.enc (.bootStandardResponse (.attestation doc)) = 4 :: 5 :: (leBytes 4 doc.length ++ doc) := rfl
  refine ⟨4 :: 5 :: (leBytes 4 doc.length ++ doc), ?_, ?_⟩
  · simp only [toWire, isGenesis, Bool.false_eq_true, if_false, toBorsh, hok, if_true, henc, orErr]
  · have : (leBytes 4 doc.length).length = 4 := by simp
    simp only [List.length_cons, List.length_append, this]
    omega

/-- C49: `boot-standard`'s request: it is acted on exactly once; the command goes on with the document of that one
answer; and if the enclave refuses, the second attempt changes nothing and the command stops. -/
theorem boot_request_exact (hC : Facing C E) (e : Envelope) (pivot : Bytes) (s : St) {b : Bytes}
    (hw : toWire (.bootStandardJsonEnvelopeRequest e pivot) .borsh = .ok b) (hb : b.length ≤ 128 * 1024 * 1024) :
    (bootWithFallback C e pivot s).state = (handle E (.bootStandardJsonEnvelopeRequest e pivot) s).2 ∧
    (∀ doc, (handle E (.bootStandardJsonEnvelopeRequest e pivot) s).1 = .bootStandardResponse (.attestation doc) →
      doc.length ≤ 100 * 1024 * 1024 → bootWithFallback C e pivot s =
        ⟨.ok doc, (handle E (.bootStandardJsonEnvelopeRequest e pivot) s).2, [.sent b]⟩) ∧
    ((∀ doc, (handle E (.bootStandardJsonEnvelopeRequest e pivot) s).1 ≠ .bootStandardResponse (.attestation doc)) →
      (bootWithFallback C e pivot s).result = .error (.error .unexpectedProtocolMsgResponse)) := by
  have hf := jsonEnvelope_roundtrip e pivot b hw hb
  have hans : Borsh.Readable (handle E (.bootStandardJsonEnvelopeRequest e pivot) s).1 := by
    rcases handle_answers E (.bootStandardJsonEnvelopeRequest e pivot) s with ⟨_, h⟩ | ⟨_, h⟩ <;> rw [h] <;> trivial
  generalize hq : Msg.bootStandardJsonEnvelopeRequest e pivot = q at *
  -- the first attempt
  have hfirst : ∃ r, process E b s = (some r, (handle E q s).2) ∧
      (toWire (handle E q s).1 .borsh = .ok r ∨ fromWire r = .ok (.protocolErrorResponse .invalidMsg, .json) ∧
        ∀ r', toWire (handle E q s).1 .borsh ≠ .ok r') := by
    rcases process_borsh E b s hb q hf with ⟨r, h1, h2⟩ | ⟨r, x, h1, h2, h3⟩
    · exact ⟨r, h1, .inl h2⟩
    · exact ⟨r, h1, .inr ⟨h3, fun r' h => by rw [h2] at h; cases h⟩⟩
  obtain ⟨r, hp, hr⟩ := hfirst
  have hnet := net_short hC hb hp
  -- what happens after a refusal
  have hrest : bootAnswer (readAnswer (C.net s b).2) = none →
      (bootWithFallback C e pivot s).state = (handle E q s).2 ∧
      (bootWithFallback C e pivot s).result = .error (.error .unexpectedProtocolMsgResponse) := by
    intro hn
    unfold bootWithFallback
    rw [hq, postWire_sent hw]
    simp only [hn]
    by_cases hx : ∃ b', toWire (.bootStandardRequest e pivot) .borsh = .ok b'
    · obtain ⟨b', hb'⟩ := hx
      rw [postWire_sent hb']
      obtain ⟨n1, n2⟩ := net_refused hC (.inl ⟨e, pivot, rfl⟩) hb' (s := (C.net s b).1)
      rw [n1]
      have : bootAnswer (readAnswer (C.net (C.net s b).1 b').2) = none := by
        rcases n2 with h | h <;> rw [h] <;> rfl
      rw [this, hnet]
      exact ⟨rfl, rfl⟩
    · rw [postWire_unsent (fun b' h => hx ⟨b', h⟩), hnet]
      exact ⟨rfl, rfl⟩
  have hgood : ∀ doc, bootAnswer (readAnswer (C.net s b).2) = some doc →
      bootWithFallback C e pivot s = ⟨.ok doc, (handle E q s).2, [.sent b]⟩ := by
    intro doc hn
    unfold bootWithFallback
    rw [hq, postWire_sent hw]
    simp only [hn]
    rw [hnet]
    rfl
  refine ⟨?_, fun doc hdoc hl => ?_, fun hdoc => ?_⟩
  · cases hn : bootAnswer (readAnswer (C.net s b).2) with
    | none => exact (hrest hn).1
    | some doc => rw [hgood doc hn]
  · apply hgood
    obtain ⟨x, hx, hxl⟩ := boot_answer_borsh doc hl
    rw [hdoc] at hr hans
    rcases hr with h | ⟨-, h⟩
    · rw [hx] at h
      cases h
      rw [hnet, if_pos hxl, readAnswer_short hxl (fromWire_borsh _ _ hx hans hxl)]
      rfl
    · exact absurd hx (h x)
  · refine (hrest ?_).2
    rw [hnet]
    by_cases hl : r.length ≤ 128 * 1024 * 1024
    · rw [if_pos hl]
      rcases hr with h | ⟨h, -⟩
      · rw [readAnswer_short hl (fromWire_borsh _ _ h hans hl)]
        unfold bootAnswer
        split
        · rename_i heq
          exact absurd (Option.some.inj heq) (hdoc _)
        · rfl
      · rw [readAnswer_short hl h]
        rfl
    · rw [if_neg hl]
      rfl

/-! ## Non-vacuity -/

theorem toy_request_fits (d : Bytes) (hd : d.length ≤ 100000) : Fits (.exportKeyRequest toyEnvelope d) := by
  refine fits_small (by rintro _ _ ⟨⟩) ⟨toyEnvelope_ok, ?_⟩ (Nat.le_trans (Json.length_canonical _)
    (Nat.le_trans (Json.extent_exportRequest d toyEnvelope) ?_))
  · show 2 * d.length < Hex.strMaxLength
    rw [show Hex.strMaxLength = 256 * 1024 * 1024 from rfl]
    omega
  · have := Json.extent_toyEnvelope
    omega

/-- The toy operator in front of the toy enclave. -/
noncomputable def toyFacing : Setting St where
  prims := P256.toyPrims
  pki := toySetting.pki
  awsRoot := [1, 2]
  now := 0
  rand := toySetting.rand
  disk := toyDisk
  net := http (enclaveCall toyEnv)

theorem toy_facing : Facing toyFacing toyEnv := rfl

-- `post` of a status request in any state: answered, once.
example (s : St) : ∃ b, post toyFacing .statusRequest s = ⟨.ok (some (.statusResponse s.phase)), s, [.sent b]⟩ := by
  obtain ⟨b, -, h⟩ := post_fits toy_facing .statusRequest s (fits_small (by rintro _ _ ⟨⟩) trivial (by decide +kernel))
    (by rw [Wire.handle_status]; exact fits_status _)
  rw [Wire.handle_status] at h
  exact ⟨b, h⟩

-- `export-key`'s request to an enclave that serves no exports before boot: one refusal.
example : ∃ b earlier, postFallback toyFacing (.exportKeyRequest toyEnvelope [1, 2, 3]) exportAnswer (encodingsFor toyEnvelope)
    (St.initial noFiles) = ⟨.ok none, St.initial noFiles, earlier ++ [.sent b]⟩ := by
  have hr := unserved_rejected toyEnv (.exportKeyRequest toyEnvelope [1, 2, 3]) (St.initial noFiles) (by rw [show (St.initial noFiles).phase = Phase.waitingForBootInstruction from rfl]; simp [kind, served])
  obtain ⟨b, earlier, -, h, -⟩ := fallback_exact toy_facing (St.initial noFiles) (.inr rfl) exportAnswer (fun _ => rfl)
    (toy_request_fits [1, 2, 3] (by decide)) (by rw [hr]; exact fits_unserved _)
  rw [hr] at h
  exact ⟨b, earlier, h⟩

end Qos.Client
