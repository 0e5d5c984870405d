import Verif.Props.SignedEcho
/-!
# C67: a refusal names its cause
-/
namespace Qos.SignedEcho
open P256 (Pair)

/-- The body says this is why. -/
def Blames (r : Host.Response) (why : String) : Prop := Json.parse r.body = some (.obj [("error", .str why)])

theorem respond_blames (e : AppError) : Blames (respond (.error e)) (errorText e) :=
  Json.plain_roundtrip _ (by simp [Json.Plain, Json.PlainObj]) (by simp [Json.height, Json.heightObj])

/-- C67: a request that would be signed, but is not, is told why: the clock, or else the key. -/
theorem refusal_blames {p : Prims} {path : String} {W : Outside} {r : Request} {f : List (String × String)} (hw : Wants W r f) :
    (W.now < 0 → Blames (serve p path W r) "system time is before the Unix epoch") ∧
    (0 ≤ W.now → (¬ ∃ k, KeyFile p W path k) → Blames (serve p path W r) "failed to read quorum key") := by
  cases hw with
  | echo m h1 h2 h3 h4 =>
    rw [serve_echo h1 h2]
    unfold serveEcho
    rw [if_neg (by unfold bodyLimit; omega), ← h3, utf8Decode_utf8]
    show (_ → Blames (respond (signedEcho p path W m)) _) ∧ (_ → _ → Blames (respond (signedEcho p path W m)) _)
    unfold signedEcho unixTime
    refine ⟨fun hn => ?_, fun hn hk => ?_⟩
    · rw [if_pos hn]; exact respond_blames .systemTime
    · rw [if_neg (by omega)]
      show Blames (respond (signJsonPayload p path W _)) _
      rw [signJson_none hk]; exact respond_blames .quorumKey
  | getUrl url st body h1 h2 h3 h4 =>
    rw [serve_getUrl h1 h2, h3]
    show (_ → Blames (respond (signedGetUrl p path W url)) _) ∧ (_ → _ → Blames (respond (signedGetUrl p path W url)) _)
    obtain ⟨s, hg, rfl, h5⟩ := h4
    have hk' : fetch (W.get url) = .ok (s, body) := fetch_ok.mpr ⟨⟨s, hg, rfl, h5⟩, hg⟩
    unfold signedGetUrl unixTime
    rw [hk']
    refine ⟨fun hn => ?_, fun hn hk => ?_⟩
    · rw [if_pos hn]; exact respond_blames .systemTime
    · rw [if_neg (by omega)]
      show Blames (respond (signJsonPayload p path W _)) _
      rw [signJson_none hk]; exact respond_blames .quorumKey

/-- C67: a page with another status is not signed, and the status is named. -/
theorem status_blamed {p : Prims} {path : String} {W : Outside} {r : Request} {url : String} {st : UInt16} {body : Option String}
    (h1 : r.method = .get) (h2 : r.path = "/get_url") (h3 : r.url = some url) (h4 : W.get url = .answered st body)
    (h5 : st.toNat < 200 ∨ 300 ≤ st.toNat) :
    Blames (serve p path W r) ("fetched url returned non-success status: " ++ toString st.toNat) := by
  have hs : st < 200 ∨ 300 ≤ st := h5
  have hf : fetch (W.get url) = .error (.fetchStatus st) := by
    rw [h4]
    exact if_pos hs
  rw [serve_getUrl h1 h2, h3]
  show Blames (respond (signedGetUrl p path W url)) _
  unfold signedGetUrl
  rw [hf]
  exact respond_blames (.fetchStatus st)

/-- How the text of a refusal begins. -/
def beginning : AppError → String
  | .systemTime => "system time is b"
  | .quorumKey => "failed to read q"
  | .serialize => "failed to serial"
  | .sign => "failed to sign p"
  | .fetch => "failed to fetch "
  | .fetchStatus _ => "fetched url retu"
  | .fetchRead => "failed to read f"

theorem text_begins (e : AppError) : (errorText e).toList.take 16 = (beginning e).toList := by
  have go : ∀ (t s : String), 16 ≤ t.toList.length → (t ++ s).toList.take 16 = t.toList.take 16 := by
    intro t s ht
    rw [String.toList_append]
    exact List.take_append_of_le_length ht
  cases e with
  | fetchStatus s => exact (go "fetched url returned non-success status: " (toString s.toNat) (by decide)).trans (show _ = "fetched url retu".toList by decide)
  | _ => decide

/-- C67: two refusals with the same text have the same cause. -/
theorem causes_distinct (e e' : AppError) (h : errorText e = errorText e') : e = e' := by
  have hb : (beginning e).toList = (beginning e').toList := by rw [← text_begins, ← text_begins, h]
  have same : ∀ s s' : UInt16, errorText (.fetchStatus s) = errorText (.fetchStatus s') → s = s' := by
    intro s s' h
    have h' := congrArg String.toList h
    unfold errorText at h'
    rw [String.toList_append, String.toList_append] at h'
    exact UInt16.toNat_inj.mp (toString_inj (String.toList_inj.mp (List.append_cancel_left h')))
  cases e <;> cases e' <;> first
    | rfl
    | exact congrArg _ (same _ _ h)
    | (simp only [beginning] at hb; exact absurd hb (by decide))

/-- An echo while the key file is missing is told so. -/
example : Blames (serve P256.toyPrims "key" ⟨fun _ => none, 5, fun _ => .failed⟩ ⟨.post, "/echo", [104, 105], none⟩)
    "failed to read quorum key" :=
  (refusal_blames (.echo "hi" rfl rfl (by decide) (by decide))).2 (by decide) (by rintro ⟨k, c, h, -⟩; cases h)

end Qos.SignedEcho
