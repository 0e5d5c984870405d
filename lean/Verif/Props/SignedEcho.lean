import Verif.Spec.SignedEcho
import Verif.Spec.Boot
import Verif.Lemmas.Typed
import Verif.Lemmas.HostCli
import Verif.Props.CanonicalJson
import Verif.Props.P256
import Verif.Props.SockAddr
import Verif.Props.ClientTools
import Verif.Props.Boot
import Verif.Props.Scenario
/-!
# C67: answers of the signed-echo application
-/
namespace Qos.SignedEcho
open P256 (Pair Public)
open Json (Step Shape observe)
open JCodec (bytesText)

/-! ## Payloads -/

theorem observe_str {s : String} {q : List Step} {sh : Shape} (h : observe (.str s) q = some sh) : q = [] ∧ sh = .text s := by
  cases q with
  | nil => simp only [observe, Json.shape, Option.some.injEq] at h; exact ⟨rfl, h.symm⟩
  | cons a q => simp [observe] at h

theorem observe_int {i : Int} {q : List Step} {sh : Shape} (h : observe (.int i) q = some sh) :
    q = [] ∧ sh = .text (toString i) := by
  cases q with
  | nil => simp only [observe, Json.shape, Option.some.injEq] at h; exact ⟨rfl, h.symm⟩
  | cons a q => simp [observe] at h

theorem repr_natCast (n : Nat) : Int.repr (n : Int) = n.repr := rfl

/-- The canonical text of a document shows what the document shows. -/
theorem reads_of {v : Json} {t : List Char} {fields : List (String × String)} (hc : Json.canon v = some t)
    (hu : Json.UniqueKeys v) (hh : Json.height v < 128) (hr : observe v [] = some .object)
    (hf : ∀ k s, (k, s) ∈ fields → observe v [.key k] = some (.text s))
    (ho : ∀ st q sh, observe v (st :: q) = some sh → q = [] ∧ ∃ k s, st = .key k ∧ sh = .text s ∧ (k, s) ∈ fields) :
    Reads (String.ofList t) fields := by
  have hb : Json.canonBytes v = some (utf8 (String.ofList t)) := by
    simp [Json.canonBytes, hc, utf8, String.toList_ofList]
  obtain ⟨u, h1, -, -, h2, -⟩ := Json.canonical_form v hu hb hh
  refine ⟨u, h1, by rw [h2, hr], fun k s h => by rw [h2, hf k s h], fun st q sh h => ho st q sh (by rw [← h2]; exact h)⟩

theorem echo_reads {m : String} {n : Nat} {t : List Char} (hc : Json.canon (echoPayload m n) = some t) :
    Reads (String.ofList t) (echoFields m n) := by
  refine reads_of hc ?_ ?_ rfl ?_ ?_
  · simp [echoPayload, Json.UniqueKeys, Json.UniqueKeysObj]
  · simp [echoPayload, Json.height, Json.heightObj]
  · intro k s h
    simp only [echoFields, List.mem_cons, Prod.mk.injEq, List.not_mem_nil, or_false] at h
    rcases h with ⟨rfl, rfl⟩ | ⟨rfl, rfl⟩ | ⟨rfl, rfl⟩ <;>
      simp [echoPayload, observe, Json.lookup, Json.shape, payloadDomain, repr_natCast]
  · intro st q sh h
    cases st with
    | idx i => simp [echoPayload, observe] at h
    | key k =>
      simp only [echoPayload, observe, Json.lookup] at h
      by_cases h1 : k = "domain"
      · rw [if_pos h1] at h
        obtain ⟨rfl, rfl⟩ := observe_str h
        exact ⟨rfl, k, _, rfl, rfl, by rw [h1]; simp [echoFields, payloadDomain]⟩
      rw [if_neg h1] at h
      by_cases h2 : k = "message"
      · rw [if_pos h2] at h
        obtain ⟨rfl, rfl⟩ := observe_str h
        exact ⟨rfl, k, _, rfl, rfl, by rw [h2]; simp [echoFields]⟩
      rw [if_neg h2] at h
      by_cases h3 : k = "time"
      · rw [if_pos h3] at h
        obtain ⟨rfl, rfl⟩ := observe_int h
        exact ⟨rfl, k, _, rfl, rfl, by rw [h3]; simp [echoFields, repr_natCast]⟩
      rw [if_neg h3] at h
      cases h

theorem getUrl_reads {url body : String} {st : UInt16} {n : Nat} {t : List Char}
    (hc : Json.canon (getUrlPayload url st body n) = some t) :
    Reads (String.ofList t) (getUrlFields url st.toNat body n) := by
  refine reads_of hc ?_ ?_ rfl ?_ ?_
  · simp [getUrlPayload, Json.UniqueKeys, Json.UniqueKeysObj]
  · simp [getUrlPayload, Json.height, Json.heightObj]
  · intro k s h
    simp only [getUrlFields, List.mem_cons, Prod.mk.injEq, List.not_mem_nil, or_false] at h
    rcases h with ⟨rfl, rfl⟩ | ⟨rfl, rfl⟩ | ⟨rfl, rfl⟩ | ⟨rfl, rfl⟩ | ⟨rfl, rfl⟩ <;>
      simp [getUrlPayload, observe, Json.lookup, Json.shape, payloadDomain, repr_natCast]
  · intro step q sh h
    cases step with
    | idx i => simp [getUrlPayload, observe] at h
    | key k =>
      simp only [getUrlPayload, observe, Json.lookup] at h
      by_cases h1 : k = "domain"
      · rw [if_pos h1] at h
        obtain ⟨rfl, rfl⟩ := observe_str h
        exact ⟨rfl, k, _, rfl, rfl, by rw [h1]; simp [getUrlFields, payloadDomain]⟩
      rw [if_neg h1] at h
      by_cases h2 : k = "url"
      · rw [if_pos h2] at h
        obtain ⟨rfl, rfl⟩ := observe_str h
        exact ⟨rfl, k, _, rfl, rfl, by rw [h2]; simp [getUrlFields]⟩
      rw [if_neg h2] at h
      by_cases h3 : k = "status"
      · rw [if_pos h3] at h
        obtain ⟨rfl, rfl⟩ := observe_int h
        exact ⟨rfl, k, _, rfl, rfl, by rw [h3]; simp [getUrlFields, repr_natCast]⟩
      rw [if_neg h3] at h
      by_cases h4 : k = "body"
      · rw [if_pos h4] at h
        obtain ⟨rfl, rfl⟩ := observe_str h
        exact ⟨rfl, k, _, rfl, rfl, by rw [h4]; simp [getUrlFields]⟩
      rw [if_neg h4] at h
      by_cases h5 : k = "time"
      · rw [if_pos h5] at h
        obtain ⟨rfl, rfl⟩ := observe_int h
        exact ⟨rfl, k, _, rfl, rfl, by rw [h5]; simp [getUrlFields, repr_natCast]⟩
      rw [if_neg h5] at h
      cases h

theorem toString_inj {a b : Nat} (h : toString a = toString b) : a = b := by
  have h' := congrArg String.toList h
  rw [Reaper.natText_toString, Reaper.natText_toString] at h'
  exact natText_injective h'

/-- C67: a signed text says one thing only: whatever two lists of members it can be read as, they have the same members. -/
theorem reads_unique {t : String} {f g : List (String × String)} (hf : Reads t f) (hg : Reads t g) (k s : String) :
    (k, s) ∈ f ↔ (k, s) ∈ g := by
  have one : ∀ {f g : List (String × String)}, Reads t f → Reads t g → (k, s) ∈ f → (k, s) ∈ g := by
    rintro f g ⟨v, hv, -, h1, -⟩ ⟨w, hw, -, -, h2⟩ h
    rw [hv, Option.some.injEq] at hw
    subst hw
    obtain ⟨-, k', s', he, hs, hm⟩ := h2 _ _ _ (h1 k s h)
    cases he
    cases hs
    exact hm
  exact ⟨one hf hg, one hg hf⟩

/-- C67: texts signed for different messages or at different times are different. -/
theorem echo_text_unambiguous {t m m' : String} {n n' : Nat} (h : Reads t (echoFields m n)) (h' : Reads t (echoFields m' n')) :
    m = m' ∧ n = n' := by
  have h1 := (reads_unique h h' "message" m).mp (by simp [echoFields])
  have h2 := (reads_unique h h' "time" (toString n)).mp (by simp [echoFields])
  simp only [echoFields, List.mem_cons, Prod.mk.injEq, List.not_mem_nil, or_false] at h1 h2
  refine ⟨by simpa using h1, ?_⟩
  have h3 : toString n = toString n' := by simpa using h2
  exact toString_inj h3

/-- C67: texts signed for different URLs, statuses, bodies or times are different. -/
theorem getUrl_text_unambiguous {t u u' b b' : String} {st st' n n' : Nat} (h : Reads t (getUrlFields u st b n))
    (h' : Reads t (getUrlFields u' st' b' n')) : u = u' ∧ st = st' ∧ b = b' ∧ n = n' := by
  have h1 := (reads_unique h h' "url" u).mp (by simp [getUrlFields])
  have h2 := (reads_unique h h' "status" (toString st)).mp (by simp [getUrlFields])
  have h3 := (reads_unique h h' "body" b).mp (by simp [getUrlFields])
  have h4 := (reads_unique h h' "time" (toString n)).mp (by simp [getUrlFields])
  simp only [getUrlFields, List.mem_cons, Prod.mk.injEq, List.not_mem_nil, or_false] at h1 h2 h3 h4
  exact ⟨by simpa using h1, toString_inj (by simpa using h2), by simpa using h3, toString_inj (by simpa using h4)⟩

/-- C67: a text signed by `POST /echo` is never one signed by `GET /get_url`, whatever the message: nobody can have a
message echoed and pass it off as a fetched page. -/
theorem kinds_distinct {t m u b : String} {st n n' : Nat} (h : Reads t (echoFields m n)) (h' : Reads t (getUrlFields u st b n')) :
    False := by
  have h1 := (reads_unique h h' "message" m).mp (by simp [echoFields])
  simp [getUrlFields] at h1

/-! ## Signing -/

theorem readKey_ok {p : Prims} {path : String} {W : Outside} {k : Pair} :
    readKey p path W = .ok k ↔ KeyFile p W path k := by
  unfold readKey KeyFile
  cases h : W.file path with
  | none => simp
  | some c =>
    simp only [Option.some.injEq, exists_eq_left']
    rw [← Client.seedText_iff]
    cases h : Pair.fromHexContents p c with
    | error e => simp
    | ok k' => simp

theorem readKey_error {p : Prims} {path : String} {W : Outside} (h : ¬ ∃ k, KeyFile p W path k) :
    readKey p path W = .error .quorumKey := by
  unfold readKey
  cases hf : W.file path with
  | none => rfl
  | some c =>
    simp only
    cases hk : Pair.fromHexContents p c with
    | error e => rfl
    | ok k => exact absurd ⟨k, c, hf, Client.seedText_iff.mp hk⟩ h

theorem hex_reads {b : Bytes} (h : b.length ≤ 130) : Hex.decode (utf8 (bytesText (Hex.encode b))) = .ok b := by
  rw [JCodec.utf8_hexText]
  exact Hex.hex_decode_encode b (by omega)

/-- The three texts of an answer for a key. -/
def answerOf (p : Prims) (k : Pair) (t : List Char) : EchoResponse :=
  ⟨String.ofList t, bytesText (Hex.encode (k.sign p (utf8 (String.ofList t)))), bytesText (Hex.encode (k.publicKey p).toBytes)⟩

theorem answerOf_signed {p : Prims} (hp : p.Laws) {W : Outside} {path : String} {k : Pair} (hk : KeyFile p W path k)
    (t : List Char) :
    SignedBy p (k.publicKey p) (answerOf p k t).signedPayloadJson (answerOf p k t).signatureHex (answerOf p k t).publicKeyHex := by
  obtain ⟨c, -, text, seed, -, -, hs⟩ := hk
  have hpub := P256.public_of_pair p hp seed k hs
  have hsc := (P256.pair_scalars p seed k hs).2
  refine ⟨⟨hex_reads (by rw [hpub.2]), hpub.1⟩, _, hex_reads ?_, P256.pair_sign_verifies p hp seed _ k hs⟩
  rw [Pair.sign, hp.sig_length _ (hp.sign_ok _ _ hsc)]
  decide

theorem signJson_some {p : Prims} {W : Outside} {path : String} {k : Pair} {v : Json} {t : List Char}
    (hk : KeyFile p W path k) (hc : Json.canon v = some t) : signJsonPayload p path W v = .ok (answerOf p k t) := by
  unfold signJsonPayload
  rw [readKey_ok.mpr hk]
  simp only [hc, answerOf]

theorem signJson_none {p : Prims} {W : Outside} {path : String} {v : Json} (h : ¬ ∃ k, KeyFile p W path k) :
    signJsonPayload p path W v = .error .quorumKey := by
  unfold signJsonPayload
  rw [readKey_error h]

theorem echo_canon (m : String) (n : Nat) : ∃ t, Json.canon (echoPayload m n) = some t := by
  have h : Json.NoFloat (echoPayload m n) := by simp [echoPayload, Json.NoFloat, Json.NoFloatObj]
  exact ⟨_, Json.canon_some _ h⟩

theorem getUrl_canon (url : String) (st : UInt16) (b : String) (n : Nat) : ∃ t, Json.canon (getUrlPayload url st b n) = some t := by
  have h : Json.NoFloat (getUrlPayload url st b n) := by simp [getUrlPayload, Json.NoFloat, Json.NoFloatObj]
  exact ⟨_, Json.canon_some _ h⟩

theorem fetch_ok {W : Outside} {url : String} {f : UInt16 × String} :
    fetch (W.get url) = .ok f ↔ Fetches W url f.1.toNat f.2 ∧ W.get url = .answered f.1 (some f.2) := by
  obtain ⟨st, b⟩ := f
  unfold Fetches
  cases h : W.get url with
  | taskFailed => simp [fetch]
  | failed => simp [fetch]
  | answered s body =>
    simp only [fetch]
    have hs : (s < 200 ∨ 300 ≤ s) ↔ (s.toNat < 200 ∨ 300 ≤ s.toNat) := by
      rw [UInt16.lt_iff_toNat_lt, UInt16.le_iff_toNat_le]; rfl
    by_cases hx : s < 200 ∨ 300 ≤ s
    · rw [if_pos hx]
      rw [hs] at hx
      simp only [reduceCtorEq, Fetch.answered.injEq, false_iff, not_and]
      rintro ⟨st', ⟨rfl, rfl⟩, h1, h2, h3⟩
      rw [h1] at hx
      omega
    · rw [if_neg hx]
      rw [hs, not_or, Nat.not_lt, Nat.not_le] at hx
      cases body with
      | none => simp
      | some b' =>
        simp only [Except.ok.injEq, Prod.mk.injEq, Fetch.answered.injEq, Option.some.injEq]
        constructor
        · rintro ⟨rfl, rfl⟩
          exact ⟨⟨s, ⟨rfl, rfl⟩, rfl, hx⟩, rfl, rfl⟩
        · rintro ⟨-, h1, h2⟩
          exact ⟨h1, h2⟩

theorem fetch_error {W : Outside} {url : String} (h : ¬ ∃ st b, Fetches W url st b) :
    ∃ e, fetch (W.get url) = .error e ∧ errorStatus e = 502 := by
  cases hf : fetch (W.get url) with
  | ok f => exact absurd ⟨_, _, (fetch_ok.mp hf).1⟩ h
  | error e =>
    refine ⟨e, rfl, ?_⟩
    cases hg : W.get url with
    | taskFailed => rw [hg] at hf; cases hf; rfl
    | failed => rw [hg] at hf; cases hf; rfl
    | answered s body =>
      rw [hg] at hf
      simp only [fetch] at hf
      by_cases hx : s < 200 ∨ 300 ≤ s
      · rw [if_pos hx] at hf; cases hf; rfl
      · rw [if_neg hx] at hf
        cases body <;> cases hf
        rfl

/-! ## Answers -/

theorem parse_response (r : EchoResponse) : Json.parse (Json.writeBytes r.json) = some r.json :=
  Json.plain_roundtrip _ (by simp [EchoResponse.json, Json.Plain, Json.PlainObj])
    (by simp [EchoResponse.json, Json.height, Json.heightObj])

theorem parse_health : Json.parse (Json.writeBytes (.obj [("status", .str "healthy")])) = some (.obj [("status", .str "healthy")]) :=
  Json.plain_roundtrip _ (by simp [Json.Plain, Json.PlainObj]) (by simp [Json.height, Json.heightObj])

theorem errorStatus_ne (e : AppError) : errorStatus e ≠ 200 := by cases e <;> simp [errorStatus]

theorem respond_answers {x : Except AppError EchoResponse} {a b c : String} (h : Answers (respond x) a b c) : x = .ok ⟨a, b, c⟩ := by
  obtain ⟨h1, h2⟩ := h
  cases x with
  | error e => exact absurd h1 (errorStatus_ne e)
  | ok r =>
    simp only [respond, parse_response, Option.some.injEq] at h2
    obtain ⟨a', b', c'⟩ := r
    simp only [EchoResponse.json, Json.obj.injEq, List.cons.injEq, Prod.mk.injEq, Json.str.injEq, true_and, and_true] at h2
    obtain ⟨rfl, rfl, rfl⟩ := h2
    rfl

theorem answers_respond (r : EchoResponse) : Answers (respond (.ok r)) r.signedPayloadJson r.signatureHex r.publicKeyHex :=
  ⟨rfl, parse_response r⟩

theorem serve_echo {p : Prims} {path : String} {W : Outside} {r : Request} (h1 : r.method = .post) (h2 : r.path = "/echo") :
    serve p path W r = serveEcho p path W r.body := by
  unfold serve
  rw [h2, if_neg (by decide), if_pos rfl, if_pos h1]

theorem serve_getUrl {p : Prims} {path : String} {W : Outside} {r : Request} (h1 : r.method = .get) (h2 : r.path = "/get_url") :
    serve p path W r = serveGetUrl p path W r.url := by
  unfold serve
  rw [h2, if_neg (by decide), if_neg (by decide), if_pos rfl, if_pos h1]

/-- Every request is one of these. -/
theorem serve_cases (p : Prims) (path : String) (W : Outside) (r : Request) :
    (r.method = .post ∧ r.path = "/echo" ∧ serve p path W r = serveEcho p path W r.body) ∨
    (r.method = .get ∧ r.path = "/get_url" ∧ serve p path W r = serveGetUrl p path W r.url) ∨
    (r.method = .get ∧ r.path = "/health" ∧ serve p path W r = ⟨200, Json.writeBytes (.obj [("status", .str "healthy")])⟩) ∨
    (r.path ∉ ["/echo", "/get_url", "/health"] ∧ serve p path W r = ⟨404, []⟩) ∨
    ((r.path = "/echo" ∧ r.method ≠ .post ∨ r.path = "/get_url" ∧ r.method ≠ .get ∨ r.path = "/health" ∧ r.method ≠ .get) ∧
      serve p path W r = ⟨405, []⟩) := by
  by_cases h1 : r.path = "/health"
  · by_cases h2 : r.method = .get
    · exact .inr (.inr (.inl ⟨h2, h1, by unfold serve; rw [if_pos h1, if_pos h2]⟩))
    · exact .inr (.inr (.inr (.inr ⟨.inr (.inr ⟨h1, h2⟩), by unfold serve; rw [if_pos h1, if_neg h2]⟩)))
  by_cases h2 : r.path = "/echo"
  · by_cases h3 : r.method = .post
    · exact .inl ⟨h3, h2, serve_echo h3 h2⟩
    · exact .inr (.inr (.inr (.inr ⟨.inl ⟨h2, h3⟩, by unfold serve; rw [if_neg h1, if_pos h2, if_neg h3]⟩)))
  by_cases h3 : r.path = "/get_url"
  · by_cases h4 : r.method = .get
    · exact .inr (.inl ⟨h4, h3, serve_getUrl h4 h3⟩)
    · exact .inr (.inr (.inr (.inr ⟨.inr (.inl ⟨h3, h4⟩), by unfold serve; rw [if_neg h1, if_neg h2, if_pos h3, if_neg h4]⟩)))
  · exact .inr (.inr (.inr (.inl ⟨by simp [h1, h2, h3], by unfold serve; rw [if_neg h1, if_neg h2, if_neg h3]⟩)))

theorem signedEcho_key {p : Prims} {path : String} {W : Outside} {k : Pair} (hk : KeyFile p W path k) (hn : 0 ≤ W.now) (m : String) :
    ∃ t, signedEcho p path W m = .ok (answerOf p k t) ∧ Reads (String.ofList t) (echoFields m W.now.toNat) := by
  obtain ⟨t, ht⟩ := echo_canon m W.now.toNat
  refine ⟨t, ?_, echo_reads ht⟩
  unfold signedEcho unixTime
  rw [if_neg (by omega)]
  exact signJson_some hk ht

theorem signedEcho_fails {p : Prims} {path : String} {W : Outside} (h : W.now < 0 ∨ ¬ ∃ k, KeyFile p W path k) (m : String) :
    ∃ e, signedEcho p path W m = .error e ∧ errorStatus e = 500 := by
  unfold signedEcho unixTime
  by_cases hn : W.now < 0
  · rw [if_pos hn]; exact ⟨_, rfl, rfl⟩
  · rw [if_neg hn]; exact ⟨_, signJson_none (h.resolve_left hn), rfl⟩

theorem signedGetUrl_key {p : Prims} {path : String} {W : Outside} {k : Pair} {url body : String} {st : Nat}
    (hk : KeyFile p W path k) (hn : 0 ≤ W.now) (hf : Fetches W url st body) :
    ∃ t, signedGetUrl p path W url = .ok (answerOf p k t) ∧ Reads (String.ofList t) (getUrlFields url st body W.now.toNat) := by
  obtain ⟨s, hg, rfl, h2⟩ := hf
  obtain ⟨t, ht⟩ := getUrl_canon url s body W.now.toNat
  refine ⟨t, ?_, getUrl_reads ht⟩
  have hk' : fetch (W.get url) = .ok (s, body) := fetch_ok.mpr ⟨⟨s, hg, rfl, h2⟩, hg⟩
  unfold signedGetUrl unixTime
  rw [hk', if_neg (by omega)]
  exact signJson_some hk ht

theorem signedGetUrl_fails {p : Prims} {path : String} {W : Outside} {url body : String} {st : Nat}
    (h : W.now < 0 ∨ ¬ ∃ k, KeyFile p W path k) (hf : Fetches W url st body) :
    ∃ e, signedGetUrl p path W url = .error e ∧ errorStatus e = 500 := by
  obtain ⟨s, hg, rfl, h2⟩ := hf
  have hk' : fetch (W.get url) = .ok (s, body) := fetch_ok.mpr ⟨⟨s, hg, rfl, h2⟩, hg⟩
  unfold signedGetUrl unixTime
  rw [hk']
  by_cases hn : W.now < 0
  · rw [if_pos hn]; exact ⟨_, rfl, rfl⟩
  · rw [if_neg hn]; exact ⟨_, signJson_none (h.resolve_left hn), rfl⟩

theorem signedGetUrl_unfetched {p : Prims} {path : String} {W : Outside} {url : String} (hf : ¬ ∃ st b, Fetches W url st b) :
    ∃ e, signedGetUrl p path W url = .error e ∧ errorStatus e = 502 := by
  obtain ⟨e, h1, h2⟩ := fetch_error hf
  exact ⟨e, by unfold signedGetUrl; rw [h1], h2⟩

/-- What an answer is, and of which request. -/
theorem wants_served {p : Prims} {path : String} {W : Outside} {r : Request} {f : List (String × String)} {k : Pair}
    (hw : Wants W r f) (hk : KeyFile p W path k) (hn : 0 ≤ W.now) :
    ∃ t, serve p path W r = respond (.ok (answerOf p k t)) ∧ Reads (String.ofList t) f := by
  cases hw with
  | echo m h1 h2 h3 h4 =>
    obtain ⟨t, ht, hr⟩ := signedEcho_key hk hn m
    refine ⟨t, ?_, hr⟩
    rw [serve_echo h1 h2]
    unfold serveEcho bodyLimit
    rw [if_neg (by omega), ← h3, utf8Decode_utf8]
    simp only [ht]
  | getUrl url st body h1 h2 h3 h4 =>
    obtain ⟨t, ht, hr⟩ := signedGetUrl_key hk hn h4
    refine ⟨t, ?_, hr⟩
    rw [serve_getUrl h1 h2, h3]
    simp only [serveGetUrl, ht]

theorem wants_refused {p : Prims} {path : String} {W : Outside} {r : Request} {f : List (String × String)}
    (hw : Wants W r f) (h : W.now < 0 ∨ ¬ ∃ k, KeyFile p W path k) : (serve p path W r).status = 500 := by
  cases hw with
  | echo m h1 h2 h3 h4 =>
    obtain ⟨e, he, hs⟩ := signedEcho_fails h m
    rw [serve_echo h1 h2]
    unfold serveEcho bodyLimit
    rw [if_neg (by omega), ← h3, utf8Decode_utf8]
    simp only [he, respond, hs]
  | getUrl url st body h1 h2 h3 h4 =>
    obtain ⟨e, he, hs⟩ := signedGetUrl_fails h h4
    rw [serve_getUrl h1 h2, h3]
    simp only [serveGetUrl, he, respond, hs]

/-- The statuses of everything else. -/
theorem unwanted_status {p : Prims} {path : String} {W : Outside} {r : Request} (hw : ∀ f, ¬ Wants W r f) :
    (serve p path W r).status =
      if r.path ∉ ["/echo", "/get_url", "/health"] then 404
      else if r.path = "/echo" then (if r.method ≠ .post then 405 else if 2097152 < r.body.length then 413 else 400)
      else if r.method ≠ .get then 405
      else if r.path = "/health" then 200 else if r.url = none then 400 else 502 := by
  rcases serve_cases p path W r with ⟨h1, h2, h3⟩ | ⟨h1, h2, h3⟩ | ⟨h1, h2, h3⟩ | ⟨h1, h3⟩ | ⟨h1, h3⟩
  · rw [h3, h1, h2, if_neg (by decide), if_pos rfl, if_neg (by decide)]
    unfold serveEcho bodyLimit
    by_cases hl : 2097152 < r.body.length
    · rw [if_pos hl, if_pos hl]
    · rw [if_neg hl, if_neg hl]
      cases hd : utf8Decode r.body with
      | none => rfl
      | some m => exact absurd (.echo m h1 h2 (utf8_of_utf8Decode hd) (by omega)) (hw _)
  · rw [h3, h1, h2, if_neg (by decide), if_neg (by decide), if_neg (by decide), if_neg (by decide)]
    cases hu : r.url with
    | none => rfl
    | some url =>
      rw [if_neg (by simp)]
      obtain ⟨e, he, hs⟩ := signedGetUrl_unfetched (p := p) (path := path) (W := W) (url := url)
        (fun ⟨st, b, hf⟩ => hw _ (.getUrl url st b h1 h2 hu hf))
      simp only [serveGetUrl, he, respond, hs]
  · rw [h3, h1, h2, if_neg (by decide), if_neg (by decide), if_neg (by decide), if_pos rfl]
  · rw [h3, if_pos h1]
  · rw [h3]
    rcases h1 with ⟨h1, h2⟩ | ⟨h1, h2⟩ | ⟨h1, h2⟩
    · rw [h1, if_neg (by decide), if_pos rfl, if_pos h2]
    · rw [h1, if_neg (by decide), if_neg (by decide), if_pos h2]
    · rw [h1, if_neg (by decide), if_neg (by decide), if_pos h2]

/-- C67: a request is answered with a signature exactly if it is one of the two, the key file holds a key and the clock is
not before the epoch; the signature is then one by that key, of a text that says exactly what was echoed or fetched, and when. -/
theorem answer_exact {p : Prims} (hp : p.Laws) {path : String} {W : Outside} {r : Request} :
    (∀ a b c, Answers (serve p path W r) a b c → ∃ k f, KeyFile p W path k ∧ 0 ≤ W.now ∧ Wants W r f ∧
      SignedBy p (k.publicKey p) a b c ∧ Reads a f) ∧
    ((∃ k f, KeyFile p W path k ∧ 0 ≤ W.now ∧ Wants W r f) → ∃ a b c, Answers (serve p path W r) a b c) := by
  constructor
  · intro a b c h
    by_cases hw : ∃ f, Wants W r f
    · obtain ⟨f, hw⟩ := hw
      by_cases hb : W.now < 0 ∨ ¬ ∃ k, KeyFile p W path k
      · have := wants_refused hw hb
        rw [h.1] at this
        cases this
      · rw [not_or, Classical.not_not] at hb
        obtain ⟨hn, k, hk⟩ := hb
        have hn : 0 ≤ W.now := by omega
        obtain ⟨t, ht, hr⟩ := wants_served hw hk hn
        rw [ht] at h
        have he := respond_answers h
        simp only [Except.ok.injEq] at he
        have hs := answerOf_signed hp hk t
        rw [he] at hs
        refine ⟨k, f, hk, hn, hw, hs, ?_⟩
        have h1 : (answerOf p k t).signedPayloadJson = a := by rw [he]
        rw [← h1]
        exact hr
    · rcases serve_cases p path W r with ⟨h1, h2, h3⟩ | ⟨h1, h2, h3⟩ | ⟨h1, h2, h3⟩ | ⟨h1, h3⟩ | ⟨h1, h3⟩
      · have := unwanted_status (p := p) (path := path) (fun f hf => hw ⟨f, hf⟩)
        rw [h.1, h1, h2, if_neg (by decide), if_pos rfl, if_neg (by decide)] at this
        split at this <;> cases this
      · have := unwanted_status (p := p) (path := path) (fun f hf => hw ⟨f, hf⟩)
        rw [h.1, h1, h2, if_neg (by decide), if_neg (by decide), if_neg (by decide), if_neg (by decide)] at this
        split at this <;> cases this
      · rw [h3] at h
        obtain ⟨-, h⟩ := h
        simp only [parse_health, Option.some.injEq, Json.obj.injEq, List.cons.injEq, Prod.mk.injEq] at h
        exact absurd h.1.1 (by decide)
      · rw [h3] at h; cases h.1
      · rw [h3] at h; cases h.1
  · rintro ⟨k, f, hk, hn, hw⟩
    obtain ⟨t, ht, -⟩ := wants_served hw hk hn
    rw [ht]
    exact ⟨_, _, _, answers_respond _⟩

/-- C67: the status of every request: 500 exactly if the clock or the key file is to blame, 502 exactly for a URL that could not
be fetched. -/
theorem status_exact (p : Prims) (path : String) (W : Outside) (r : Request) :
    ((serve p path W r).status = 500 ↔ (∃ f, Wants W r f) ∧ (W.now < 0 ∨ ¬ ∃ k, KeyFile p W path k)) ∧
    ((serve p path W r).status = 502 ↔ r.method = .get ∧ r.path = "/get_url" ∧
      ∃ url, r.url = some url ∧ ¬ ∃ st b, Fetches W url st b) := by
  by_cases hw : ∃ f, Wants W r f
  · obtain ⟨f, hw⟩ := hw
    have hno : ¬ (r.method = .get ∧ r.path = "/get_url" ∧ ∃ url, r.url = some url ∧ ¬ ∃ st b, Fetches W url st b) := by
      rintro ⟨g1, g2, url, g3, g4⟩
      cases hw with
      | echo m h1 h2 h3 h4 => rw [g2] at h2; exact absurd h2 (by decide)
      | getUrl url' st body h1 h2 h3 h4 =>
        rw [g3, Option.some.injEq] at h3
        subst h3
        exact g4 ⟨_, _, h4⟩
    by_cases hb : W.now < 0 ∨ ¬ ∃ k, KeyFile p W path k
    · rw [wants_refused hw hb]
      exact ⟨⟨fun _ => ⟨⟨f, hw⟩, hb⟩, fun _ => rfl⟩, ⟨fun h => absurd h (by decide), fun h => absurd h hno⟩⟩
    · have hb' := hb
      rw [not_or, Classical.not_not] at hb'
      obtain ⟨hn, k, hk⟩ := hb'
      obtain ⟨t, ht, -⟩ := wants_served hw hk (by omega)
      rw [ht]
      exact ⟨⟨fun h => absurd h (by decide : (200 : Nat) ≠ 500), fun h => absurd h.2 hb⟩,
        ⟨fun h => absurd h (by decide : (200 : Nat) ≠ 502), fun h => absurd h hno⟩⟩
  · have hs := unwanted_status (p := p) (path := path) (fun f hf => hw ⟨f, hf⟩)
    constructor
    · refine ⟨fun h => ?_, fun h => absurd h.1 hw⟩
      rw [h] at hs
      repeat' split at hs
      all_goals first | cases hs | skip
    · constructor
      · intro h
        rw [h] at hs
        rcases serve_cases p path W r with ⟨h1, h2, h3⟩ | ⟨h1, h2, h3⟩ | ⟨h1, h2, h3⟩ | ⟨h1, h3⟩ | ⟨h1, h3⟩
        · rw [h1, h2, if_neg (by decide), if_pos rfl, if_neg (by decide)] at hs
          split at hs <;> cases hs
        · rw [h1, h2, if_neg (by decide), if_neg (by decide), if_neg (by decide), if_neg (by decide)] at hs
          cases hu : r.url with
          | none => rw [hu, if_pos rfl] at hs; cases hs
          | some url => exact ⟨h1, h2, url, rfl, fun ⟨st, b, hf⟩ => hw ⟨_, .getUrl url st b h1 h2 hu hf⟩⟩
        · rw [h3] at h; cases h
        · rw [h3] at h; cases h
        · rw [h3] at h; cases h
      · rintro ⟨h1, h2, url, h3, -⟩
        rw [hs, h1, h2, h3, if_neg (by decide), if_neg (by decide), if_neg (by decide), if_neg (by decide), if_neg (by simp)]

/-- A toy key file, an hour after the epoch, and a page. -/
def toyOutside : Outside where
  file path := if path = "/qos.quorum.key" then some (Hex.encode (List.replicate 32 9)) else none
  now := 3600
  get url := if url = "http://a/" then .answered 204 (some "page") else .failed

theorem toy_key_file : ∃ k, KeyFile P256.toyPrims toyOutside defaultKeyPath k := by
  obtain ⟨k, hk⟩ := toy_pair (List.replicate 32 9)
  refine ⟨k, Hex.encode (List.replicate 32 9), rfl, ?_⟩
  have hs := P256.pair_seed _ _ _ hk
  rw [← Client.seedText_iff, ← hs, show Hex.encode k.seed = k.toMasterSeedHex from rfl, P256.hex_file_roundtrip _ _ (by rw [hs]; rfl), hs,
    hk]

/-- Both kinds of request are answered with a signature, and a URL that cannot be fetched is not. -/
example : (∃ a b c, Answers (serve P256.toyPrims defaultKeyPath toyOutside ⟨.post, "/echo", utf8 "hi", none⟩) a b c) ∧
    (∃ a b c, Answers (serve P256.toyPrims defaultKeyPath toyOutside ⟨.get, "/get_url", [], some "http://a/"⟩) a b c) ∧
    (serve P256.toyPrims defaultKeyPath toyOutside ⟨.get, "/get_url", [], some "http://b/"⟩).status = 502 := by
  obtain ⟨k, hk⟩ := toy_key_file
  refine ⟨(answer_exact P256.toyLaws).2 ⟨k, _, hk, by decide, .echo "hi" rfl rfl rfl (by decide)⟩,
    (answer_exact P256.toyLaws).2 ⟨k, _, hk, by decide, .getUrl "http://a/" 204 "page" rfl rfl rfl ⟨204, rfl, rfl, by decide, by decide⟩⟩, rfl⟩

/-! ## The command line -/

theorem lastOr_same {opts : List (String × String)} {n v d x : String} :
    LastOr ((n, v) :: opts) n d x ↔ LastOr opts n v x := by
  constructor
  · rintro (⟨before, after, h, ha⟩ | ⟨h, -⟩)
    · cases before with
      | nil =>
        simp only [List.nil_append, List.cons.injEq, Prod.mk.injEq, true_and] at h
        obtain ⟨rfl, rfl⟩ := h
        exact .inr ⟨ha, rfl⟩
      | cons o before =>
        simp only [List.cons_append, List.cons.injEq] at h
        exact .inl ⟨before, after, h.2, ha⟩
    · exact absurd rfl (h (n, v) List.mem_cons_self)
  · rintro (⟨before, after, h, ha⟩ | ⟨h, rfl⟩)
    · exact .inl ⟨(n, v) :: before, after, by rw [h]; rfl, ha⟩
    · exact .inl ⟨[], opts, rfl, h⟩

theorem lastOr_other {opts : List (String × String)} {n n' v d x : String} (hn : n' ≠ n) :
    LastOr ((n', v) :: opts) n d x ↔ LastOr opts n d x := by
  constructor
  · rintro (⟨before, after, h, ha⟩ | ⟨h, hd⟩)
    · cases before with
      | nil =>
        simp only [List.nil_append, List.cons.injEq, Prod.mk.injEq] at h
        exact absurd h.1.1 hn
      | cons o before =>
        simp only [List.cons_append, List.cons.injEq] at h
        exact .inl ⟨before, after, h.2, ha⟩
    · exact .inr ⟨fun o ho => h o (List.mem_cons_of_mem _ ho), hd⟩
  · rintro (⟨before, after, h, ha⟩ | ⟨h, hd⟩)
    · exact .inl ⟨(n', v) :: before, after, by rw [h]; rfl, ha⟩
    · refine .inr ⟨fun o ho => ?_, hd⟩
      rcases List.mem_cons.mp ho with rfl | ho
      · exact hn
      · exact h o ho

theorem lastOr_nil {n d x : String} : LastOr [] n d x ↔ x = d := by
  constructor
  · rintro (⟨before, after, h, -⟩ | ⟨-, h⟩)
    · cases before <;> cases h
    · exact h
  · intro h
    exact .inr ⟨(fun _ h => (nomatch h)), h⟩

/-- As `CliSays`, starting from other defaults. -/
structure SaysFrom (opts : List (String × String)) (host port keyPath : String) (c : Cli) : Prop where
  names : ∀ o ∈ opts, o.1 = "--host" ∨ o.1 = "--port" ∨ o.1 = "--quorum-file"
  ports : ∀ v, ("--port", v) ∈ opts → ∃ n, HostCli.Number v n ∧ n < 65536
  host : LastOr opts "--host" host c.host
  port : ∃ v, LastOr opts "--port" port v ∧ HostCli.Number v c.port.toNat
  keyPath : LastOr opts "--quorum-file" keyPath c.keyPath

theorem parsePort_number {v : String} {n : Nat} (h : HostCli.Number v n) (hn : n < 65536) :
    HostCli.parsePort v = some (UInt16.ofNat n) := by
  rw [HostCli.parsePort_iff, UInt16.toNat_ofNat_of_lt' hn]
  exact h

theorem port_unique {v : String} {a b : UInt16} (ha : HostCli.Number v a.toNat) (hb : HostCli.Number v b.toNat) : a = b := by
  rw [← HostCli.parsePort_iff] at ha hb
  rw [ha] at hb
  exact Option.some.inj hb

theorem parseFrom_iff : ∀ (args : List String) (c : Cli) (port : String), HostCli.Number port c.port.toNat → ∀ c' : Cli,
    (Cli.parseFrom c args = some c' ↔ ∃ opts, args = words opts ∧ SaysFrom opts c.host port c.keyPath c')
  | [], c, port, hport, c' => by
    simp only [Cli.parseFrom, Option.some.injEq]
    constructor
    · rintro rfl
      exact ⟨[], rfl, (fun _ h => (nomatch h)), (fun _ h => (nomatch h)), lastOr_nil.mpr rfl, ⟨port, lastOr_nil.mpr rfl, hport⟩,
        lastOr_nil.mpr rfl⟩
    · rintro ⟨opts, h, hs⟩
      cases opts with
      | cons o os => cases h
      | nil =>
        obtain ⟨v, hv, hp⟩ := hs.port
        rw [lastOr_nil] at hv
        subst hv
        have h1 := lastOr_nil.mp hs.host
        have h2 := lastOr_nil.mp hs.keyPath
        obtain ⟨a, b, d⟩ := c
        obtain ⟨a', b', d'⟩ := c'
        simp only at h1 h2 hp hport
        rw [h1, h2, port_unique hp hport]
  | [x], c, port, hport, c' => by
    simp only [Cli.parseFrom, reduceCtorEq, false_iff, not_exists, not_and]
    intro opts h
    cases opts with
    | nil => cases h
    | cons o os => simp [words] at h
  | a :: v :: rest, c, port, hport, c' => by
    have split : ∀ P : List (String × String) → Prop, (∃ opts, a :: v :: rest = words opts ∧ P opts) ↔
        ∃ os, rest = words os ∧ P ((a, v) :: os) := by
      intro P
      constructor
      · rintro ⟨opts, h, hP⟩
        cases opts with
        | nil => cases h
        | cons o os =>
          simp only [words, List.flatMap_cons, List.cons_append, List.nil_append, List.cons.injEq] at h
          obtain ⟨rfl, rfl, h⟩ := h
          exact ⟨os, h, hP⟩
      · rintro ⟨os, h, hP⟩
        exact ⟨(a, v) :: os, by rw [h]; rfl, hP⟩
    rw [split]
    simp only [Cli.parseFrom]
    by_cases h1 : a = "--host"
    · rw [if_pos h1, parseFrom_iff rest { c with host := v } port hport c']
      subst h1
      refine exists_congr fun os => and_congr_right fun _ => ⟨fun g => ?_, fun g => ?_⟩
      · refine ⟨fun o ho => ?_, fun w hw => ?_, lastOr_same.mpr g.host, ?_, (lastOr_other (by decide)).mpr g.keyPath⟩
        · rcases List.mem_cons.mp ho with rfl | ho
          · exact .inl rfl
          · exact g.names o ho
        · rcases List.mem_cons.mp hw with hw | hw
          · exact absurd (congrArg Prod.fst hw) (by simp)
          · exact g.ports w hw
        · obtain ⟨w, hw, hn⟩ := g.port
          exact ⟨w, (lastOr_other (by decide)).mpr hw, hn⟩
      · refine ⟨fun o ho => g.names o (List.mem_cons_of_mem _ ho), fun w hw => g.ports w (List.mem_cons_of_mem _ hw),
          lastOr_same.mp g.host, ?_, (lastOr_other (by decide)).mp g.keyPath⟩
        obtain ⟨w, hw, hn⟩ := g.port
        exact ⟨w, (lastOr_other (by decide)).mp hw, hn⟩
    rw [if_neg h1]
    by_cases h2 : a = "--port"
    · rw [if_pos h2]
      subst h2
      cases hq : HostCli.parsePort v with
      | none =>
        simp only [reduceCtorEq, false_iff, not_exists, not_and]
        intro os _ g
        obtain ⟨n, hn, hl⟩ := g.ports v List.mem_cons_self
        rw [parsePort_number hn hl] at hq
        cases hq
      | some n =>
        have hn := HostCli.parsePort_iff.mp hq
        simp only
        rw [parseFrom_iff rest { c with port := n } v hn c']
        refine exists_congr fun os => and_congr_right fun _ => ⟨fun g => ?_, fun g => ?_⟩
        · refine ⟨fun o ho => ?_, fun w hw => ?_, (lastOr_other (by decide)).mpr g.host, ?_, (lastOr_other (by decide)).mpr g.keyPath⟩
          · rcases List.mem_cons.mp ho with rfl | ho
            · exact .inr (.inl rfl)
            · exact g.names o ho
          · rcases List.mem_cons.mp hw with hw | hw
            · cases hw
              exact ⟨n.toNat, hn, n.toNat_lt⟩
            · exact g.ports w hw
          · obtain ⟨w, hw, hn'⟩ := g.port
            exact ⟨w, lastOr_same.mpr hw, hn'⟩
        · refine ⟨fun o ho => g.names o (List.mem_cons_of_mem _ ho), fun w hw => g.ports w (List.mem_cons_of_mem _ hw),
            (lastOr_other (by decide)).mp g.host, ?_, (lastOr_other (by decide)).mp g.keyPath⟩
          obtain ⟨w, hw, hn'⟩ := g.port
          exact ⟨w, lastOr_same.mp hw, hn'⟩
    rw [if_neg h2]
    by_cases h3 : a = "--quorum-file"
    · rw [if_pos h3, parseFrom_iff rest { c with keyPath := v } port hport c']
      subst h3
      refine exists_congr fun os => and_congr_right fun _ => ⟨fun g => ?_, fun g => ?_⟩
      · refine ⟨fun o ho => ?_, fun w hw => ?_, (lastOr_other (by decide)).mpr g.host, ?_, lastOr_same.mpr g.keyPath⟩
        · rcases List.mem_cons.mp ho with rfl | ho
          · exact .inr (.inr rfl)
          · exact g.names o ho
        · rcases List.mem_cons.mp hw with hw | hw
          · exact absurd (congrArg Prod.fst hw) (by simp)
          · exact g.ports w hw
        · obtain ⟨w, hw, hn⟩ := g.port
          exact ⟨w, (lastOr_other (by decide)).mpr hw, hn⟩
      · refine ⟨fun o ho => g.names o (List.mem_cons_of_mem _ ho), fun w hw => g.ports w (List.mem_cons_of_mem _ hw),
          (lastOr_other (by decide)).mp g.host, ?_, lastOr_same.mp g.keyPath⟩
        obtain ⟨w, hw, hn⟩ := g.port
        exact ⟨w, (lastOr_other (by decide)).mp hw, hn⟩
    rw [if_neg h3]
    simp only [reduceCtorEq, false_iff, not_exists, not_and]
    intro os _ g
    rcases g.names _ List.mem_cons_self with h | h | h
    · exact h1 h
    · exact h2 h
    · exact h3 h

/-- C67: the application starts exactly if its arguments are options with values, all of them known and every `--port` a
port; each takes its last value, and otherwise it serves `127.0.0.1:3000` with the enclave's quorum key file. -/
theorem cli_exact (args : List String) (c : Cli) : Cli.parse args = some c ↔ ∃ opts, args = words opts ∧ CliSays opts c := by
  have h3000 : HostCli.Number "3000" Cli.default.port.toNat := HostCli.parsePort_iff.mp (by decide +kernel)
  unfold Cli.parse
  rw [parseFrom_iff args Cli.default "3000" h3000 c]
  exact exists_congr fun os => and_congr_right fun _ =>
    ⟨fun g => ⟨g.names, g.ports, g.host, g.port, g.keyPath⟩, fun g => ⟨g.names, g.ports, g.host, g.port, g.keyPath⟩⟩

example : ∃ c, Cli.parse ["--port", "44", "--host", "0.0.0.0", "--port", "+45"] = some c ∧ c.host = "0.0.0.0" ∧ c.port = 45 ∧
    c.keyPath = "/qos.quorum.key" := ⟨⟨"0.0.0.0", 45, "/qos.quorum.key"⟩, by decide +kernel, rfl, rfl, rfl⟩

example : Cli.parse ["--port", "65536"] = none ∧ Cli.parse ["--host"] = none ∧ Cli.parse ["--help", "x"] = none := by
  decide +kernel

/-- C67: it listens exactly when the command line is one, and the last host given, or 127.0.0.1, is an IPv4 address or an IPv6
address in brackets: then on that address and the last port given, or 3000, and it signs with the key file given. -/
theorem main_exact (args : List String) (addr : SockAddr.Addr) (key : String) :
    main args = some (addr, key) ↔ ∃ opts c, args = words opts ∧ CliSays opts c ∧
      SockAddr.HostText c.host.toList addr.ip addr.scope ∧ addr.port = c.port ∧ key = c.keyPath := by
  have hs : ∀ c, Cli.parse args = some c ↔ ∃ opts, args = words opts ∧ CliSays opts c := cli_exact args
  have ha : ∀ c : Cli, c.addr = some addr ↔ SockAddr.HostText c.host.toList addr.ip addr.scope ∧ addr.port = c.port :=
    fun c => SockAddr.host_and_port
  unfold main
  cases hc : Cli.parse args with
  | none =>
    simp only [reduceCtorEq, false_iff, not_exists]
    rintro opts c ⟨h1, h2, -⟩
    rw [(hs c).mpr ⟨opts, h1, h2⟩] at hc
    cases hc
  | some c =>
    simp only [Option.map_eq_some_iff, Prod.mk.injEq]
    constructor
    · rintro ⟨a, h, rfl, rfl⟩
      obtain ⟨opts, h1, h2⟩ := (hs c).mp hc
      exact ⟨opts, c, h1, h2, ((ha c).mp h).1, ((ha c).mp h).2, rfl⟩
    · rintro ⟨opts, c', h1, h2, h3, h4, rfl⟩
      have := (hs c').mpr ⟨opts, h1, h2⟩
      rw [hc, Option.some.injEq] at this
      subst this
      exact ⟨addr, (ha c).mpr ⟨h3, h4⟩, rfl, rfl⟩

/-- Without options, 127.0.0.1:3000. -/
example : main [] = some (⟨.v4 ⟨127, 0, 0, 1⟩, 3000, 0⟩, "/qos.quorum.key") := by decide +kernel

/-- An IPv6 address only in brackets; a name is no address; nor is a host with a port of its own. -/
example : main ["--host", "[::1]", "--port", "44"] =
      some (⟨.v6 ⟨[0, 0, 0, 0, 0, 0, 0, 1], rfl⟩, 44, 0⟩, "/qos.quorum.key") ∧
    main ["--host", "::1"] = none ∧ main ["--host", "localhost"] = none ∧ main ["--host", "127.0.0.1:80"] = none := by
  decide +kernel

/-! ## In the enclave -/

variable {E : Env} {fs0 : Files} {h : List (Msg × Msg)} {s : St}

/-- C67: whenever in the life of an enclave the application, reading the enclave's quorum key file, answers with a signature:
it is one that verifies under the quorum key of the manifest of an approved boot request, of a text which says what was echoed
or fetched, and when. -/
theorem enclave_answers (H : History E fs0 h s) {fs : Files} (hm : Moment fs0 s fs) {W : Outside} {path : String} {r : Request}
    (hW : W.file path = (fs E.paths.quorum).map (·.data)) {a b c : String} (ha : Answers (serve E.prims path W r) a b c) :
    ∃ (e : Envelope) (pivot : Bytes) (pub : Public) (f : List (String × String)), (∃ m ∈ requests h, m.BootsWith e pivot) ∧
      ApprovedBoot E.prims e pivot ∧ pub.toBytes = e.manifest.namespaceOf.quorumKey ∧ SignedBy E.prims pub a b c ∧
      Wants W r f ∧ Reads a f := by
  obtain ⟨k, f, hk, -, hw, hs, hr⟩ := (answer_exact H.env.laws).1 a b c ha
  obtain ⟨ct, hf, ht⟩ := hk
  rw [hW, Option.map_eq_some_iff] at hf
  obtain ⟨file, hfile, rfl⟩ := hf
  obtain ⟨e, pivot, as, key, -, -, h1, h2, h3, h4, h5, h6, -⟩ := Qos.quorum_key_complete H hm hfile
  rw [h3, ← Client.seedText_iff, show Hex.encode key.seed = key.toMasterSeedHex from rfl, P256.hex_file_roundtrip _ _ h4, h5,
    Except.ok.injEq] at ht
  subst ht
  exact ⟨e, pivot, _, f, h1, h2, h6, hs, hw, hr⟩

/-- C67: and it does answer every request it should, at every moment at which there is a quorum key file. -/
theorem enclave_serves (H : History E fs0 h s) {fs : Files} (hm : Moment fs0 s fs) {W : Outside} {path : String} {r : Request}
    (hq : fs E.paths.quorum ≠ none) (hW : W.file path = (fs E.paths.quorum).map (·.data)) (hn : 0 ≤ W.now)
    {f : List (String × String)} (hr : Wants W r f) : ∃ a b c, Answers (serve E.prims path W r) a b c := by
  obtain ⟨file, hfile⟩ := Option.ne_none_iff_exists'.mp hq
  obtain ⟨e, pivot, as, key, -, -, h1, h2, h3, h4, h5, h6, -⟩ := Qos.quorum_key_complete H hm hfile
  refine (answer_exact H.env.laws).2 ⟨key, f, ⟨Hex.encode key.seed, by rw [hW, hfile]; exact congrArg some h3, ?_⟩, hn, hr⟩
  rw [← Client.seedText_iff, show Hex.encode key.seed = key.toMasterSeedHex from rfl, P256.hex_file_roundtrip _ _ h4, h5]

/-- There is an enclave in which it does. -/
example : ∃ (E : Env) (h : List (Msg × Msg)) (s : St) (W : Outside) (r : Request) (a b c : String), History E noFiles h s ∧
    W.file defaultKeyPath = (s.files E.paths.quorum).map (·.data) ∧ Answers (serve E.prims defaultKeyPath W r) a b c := by
  obtain ⟨setup, h0, H, ⟨doc, hdoc⟩, hph, hin, heph⟩ := toy_boot (m := .bootStandardRequest toyEnvelope [1, 2, 3]) (.inl rfl)
  obtain ⟨h, s, q1, q2, q3, q4⟩ := toy_provision (a := toyApproval 4 toyHash) H hph
    (by rcases hdoc with hd | hd <;> rw [hd] <;> rfl) h0 hin heph List.mem_cons_self
    ((approval_verify_iff ..).1 toy_share_approval)
  obtain ⟨bt, key, hw, -⟩ := q1.provisioned q2
  obtain ⟨f, hf, -⟩ := hw.quorum
  obtain ⟨a, b, c, ha⟩ := enclave_serves (W := ⟨fun _ => (s.files toyEnv.paths.quorum).map (·.data), 0, fun _ => .failed⟩)
    (path := defaultKeyPath) (r := ⟨.post, "/echo", utf8 "hi", none⟩) q1 (.inr (.inr rfl)) (by rw [hf]; simp) rfl (Int.le_refl 0)
    (.echo "hi" rfl rfl rfl (by decide))
  exact ⟨toyEnv, h, s, _, _, a, b, c, q1, rfl, ha⟩

end Qos.SignedEcho
