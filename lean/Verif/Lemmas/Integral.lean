import Verif.Lemmas.WireJson
/-! Nothing a message contains is written as a fraction, so canonical writing never fails. -/
namespace Qos
open Json

/-- Written without fractions. -/
class JCodec.Integral {α : Type} (c : JCodec α) : Prop where
  noFloat : ∀ a, NoFloat (c.enc a)

/-- Same for the fields of a struct. -/
class Fields.Integral {α : Type} (f : Fields α) : Prop where
  noFloat : ∀ a, NoFloatObj (f.enc a)

/-- Same for a variant. -/
class JVariant.Integral {α : Type} (v : JVariant α) : Prop where
  noFloat : ∀ a x, v.enc a = some x → NoFloat x

theorem noFloatObj_append : ∀ {k l : List (String × Json)}, NoFloatObj k → NoFloatObj l → NoFloatObj (k ++ l)
  | [], _, _, hl => hl
  | (_, _) :: _, _, hk, hl => ⟨hk.1, noFloatObj_append hk.2 hl⟩

namespace JCodec

instance : string.Integral := ⟨fun _ => trivial⟩
instance : bool.Integral := ⟨fun _ => trivial⟩
instance (n : Nat) : (stringOrNumeric n).Integral := ⟨fun _ => trivial⟩
instance : hexVec.Integral := ⟨fun _ => trivial⟩
instance (n : Nat) : (hexArray n).Integral := ⟨fun _ => trivial⟩
instance {α : Type} (all : List α) (name : α → String) : (unitEnum all name).Integral := ⟨fun _ => trivial⟩
instance : v2Version.Integral := ⟨fun _ => trivial⟩
instance : envValue.Integral := ⟨fun _ => ⟨⟨trivial, trivial⟩, trivial⟩⟩

instance {α : Type} (c : JCodec α) [h : c.Integral] : (vec c).Integral := ⟨fun l => by
  simp only [vec, NoFloat]
  induction l with
  | nil => trivial
  | cons a l ih => exact ⟨h.noFloat a, ih⟩⟩

instance {α β : Type} (f : α → β) (g : β → α) (c : JCodec α) [h : c.Integral] : (imap f g c).Integral :=
  ⟨fun b => h.noFloat (g b)⟩

instance {α : Type} (d : Bool) (f : Fields α) [h : f.Integral] : (struct d f).Integral := ⟨fun a => h.noFloat a⟩

instance {α : Type} (k : String) (c : JCodec α) [h : c.Integral] : (Fields.req k c).Integral :=
  ⟨fun a => ⟨h.noFloat a, trivial⟩⟩

instance {α : Type} (k : String) (c : JCodec α) [h : c.Integral] : (Fields.opt k c).Integral := ⟨fun a => by
  cases a with
  | none => trivial
  | some a => exact ⟨h.noFloat a, trivial⟩⟩

instance {α : Type} (k : String) (c : JCodec (List α)) [h : c.Integral] : (Fields.orEmpty k c).Integral := ⟨fun a => by
  simp only [Fields.orEmpty]
  split
  · trivial
  · exact ⟨h.noFloat a, trivial⟩⟩

instance {α β : Type} (f : Fields α) (g : Fields β) [hf : f.Integral] [hg : g.Integral] : (Fields.both f g).Integral :=
  ⟨fun a => noFloatObj_append (hf.noFloat a.1) (hg.noFloat a.2)⟩

instance {α β : Type} (f : α → β) (g : β → α) (c : Fields α) [h : c.Integral] : (Fields.imap f g c).Integral :=
  ⟨fun b => h.noFloat (g b)⟩

instance {α β : Type} (t n m : String) (f : Fields α) (g : Fields β) [hf : f.Integral] [hg : g.Integral] :
    (tagged2 t n f m g).Integral := ⟨fun a => by
  cases a with
  | inl a => exact ⟨trivial, hf.noFloat a⟩
  | inr a => exact ⟨trivial, hg.noFloat a⟩⟩

instance {α β : Type} (c : JCodec α) (d : JCodec β) [hc : c.Integral] [hd : d.Integral] : (tuple2 c d).Integral :=
  ⟨fun a => ⟨hc.noFloat a.1, hd.noFloat a.2, trivial⟩⟩

instance {α : Type} (n : String) (a : α) (l : List String) : (JVariant.unit n a l).Integral := ⟨fun _ _ h => nomatch h⟩

instance {α β : Type} (n : String) (c : JCodec β) (f : β → α) (g : α → Option β) [hc : c.Integral] :
    (JVariant.data n c f g).Integral := ⟨fun a x h => by
  simp only [JVariant.data] at h
  split at h
  · cases h; exact hc.noFloat _
  · cases h⟩

/-- Every variant is integral. -/
class AllIntegral {α : Type} (vs : List (JVariant α)) : Prop where
  all : ∀ v ∈ vs, v.Integral

instance {α : Type} : AllIntegral ([] : List (JVariant α)) := ⟨fun _ h => nomatch h⟩
instance {α : Type} (v : JVariant α) (vs : List (JVariant α)) [hv : v.Integral] [h : AllIntegral vs] :
    AllIntegral (v :: vs) := ⟨fun w hw => by
  rcases List.mem_cons.mp hw with rfl | hw
  · exact hv
  · exact h.all w hw⟩

instance {α : Type} (tag : α → Nat) (vs : List (JVariant α)) [h : AllIntegral vs] : (enum tag vs).Integral := ⟨fun a => by
  simp only [enum]
  cases hv : vs[tag a]? with
  | none => trivial
  | some v =>
    have := h.all v (List.mem_of_getElem? hv)
    cases he : v.enc a with
    | none => simp only [he]; trivial
    | some x => simp only [he]; exact ⟨this.noFloat a x he, trivial⟩⟩

instance : u32.Integral := inferInstanceAs (imap _ _ _).Integral
instance : u16.Integral := inferInstanceAs (imap _ _ _).Integral
instance : restartPolicy.Integral := inferInstanceAs (unitEnum _ _).Integral
instance : bridgeConfig.Integral := inferInstanceAs (imap _ _ _).Integral
instance : nitroConfig.Integral := inferInstanceAs (struct _ _).Integral
instance : pivotConfigV0.Integral := inferInstanceAs (struct _ _).Integral
instance : pivotConfig.Integral := inferInstanceAs (struct _ _).Integral
instance : pivotEnv.Integral := ⟨fun m => by
  simp only [pivotEnv, NoFloat]
  generalize m = l
  induction l with
  | nil => trivial
  | cons kv l ih => exact ⟨⟨⟨trivial, trivial⟩, trivial⟩, ih⟩⟩
instance : pivotConfigV2.Integral := inferInstanceAs (struct _ _).Integral
instance : quorumMember.Integral := inferInstanceAs (struct _ _).Integral
instance : quorumSet.Integral := inferInstanceAs (struct _ _).Integral
instance : patchSet.Integral := inferInstanceAs (struct _ _).Integral
instance : «namespace».Integral := inferInstanceAs (struct _ _).Integral
instance : ipAddr.Integral := ⟨fun _ => trivial⟩
instance : dnsConfig.Integral := inferInstanceAs (struct _ _).Integral
instance : manifest.Integral := inferInstanceAs (struct _ _).Integral
instance : manifestV0.Integral := inferInstanceAs (struct _ _).Integral
instance : manifestV2.Integral := inferInstanceAs (struct _ _).Integral
instance : approval.Integral := inferInstanceAs (struct _ _).Integral
instance {M : Type} (c : JCodec M) (a b d : String) [c.Integral] : (envelopeFields c a b d).Integral :=
  inferInstanceAs (Fields.imap _ _ _).Integral
instance : envelopeV1.Integral := inferInstanceAs (struct _ _).Integral
instance : envelopeV0.Integral := inferInstanceAs (struct _ _).Integral
instance : envelopeV2.Integral := inferInstanceAs (struct _ _).Integral
instance : envelope.Integral := ⟨fun e => by
  cases e with
  | v2 e => exact Integral.noFloat (c := envelopeV2) e
  | v1 e => exact Integral.noFloat (c := envelopeV1) e
  | v0 e => exact Integral.noFloat (c := envelopeV0) e⟩
instance : setU16.Integral := ⟨fun l => Integral.noFloat (c := vec u16) l⟩
instance : phase.Integral := by
  unfold phase Phase.variants; simp only [List.map]; infer_instance
instance : nsmErrorCode.Integral := by
  unfold nsmErrorCode NsmErrorCode.variants; simp only [List.map]; infer_instance
instance : nsmDigest.Integral := by
  unfold nsmDigest NsmDigest.variants; simp only [List.map]; infer_instance
instance : nsmResponse.Integral := by
  unfold nsmResponse NsmResponse.variants; simp only [List.map]; infer_instance
instance : p256Error.Integral := by
  unfold p256Error P256Error.variants; simp only [List.map]; infer_instance
instance : expectedActual.Integral := inferInstanceAs (struct _ _).Integral
set_option synthInstance.maxSize 4000 in
set_option synthInstance.maxHeartbeats 400000 in
instance : protocolError.Integral := by
  unfold protocolError ProtocolError.variants; simp only [List.map]; infer_instance
instance : genesisSet.Integral := inferInstanceAs (struct _ _).Integral
instance : memberOutput.Integral := inferInstanceAs (struct _ _).Integral
instance : memberShard.Integral := inferInstanceAs (struct _ _).Integral
instance : genesisOutput.Integral := inferInstanceAs (struct _ _).Integral
set_option synthInstance.maxSize 4000 in
set_option synthInstance.maxHeartbeats 400000 in
instance : msg.Integral := by
  unfold msg Msg.jvariants; infer_instance

end JCodec

/-- Any message but the one with no JSON form can be written as JSON. -/
theorem toJson_some (m : Msg) (h : ∀ e p, m ≠ .bootStandardJsonEnvelopeRequest e p) :
    Wire.toJson m = some (writeBytes (norm (JCodec.msg.enc m))) := by
  have := canonBytes_eq (JCodec.Integral.noFloat (c := JCodec.msg) m)
  cases m <;> first | exact this | exact absurd rfl (h _ _)

end Qos
