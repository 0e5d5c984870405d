import Verif.Lemmas.Client
import Verif.Lemmas.Yubikey
import Verif.Model.ClientCli
import Verif.Model.Yubikey
/-!
# Where a command writes, step by step
-/
namespace Qos.Client
variable {S α β : Type}

/-- Every file written has a path in `W`. -/
def Only (W : String → Prop) (x : Run S α) : Prop := ∀ s path b, .wrote path b ∈ (x s).events → W path

theorem Only.pure {W : String → Prop} (a : α) : Only W (pure a : Run S α) := fun _ _ _ h => nomatch h

theorem Only.lift {W : String → Prop} (x : Except Stop α) : Only W (Run.lift x : Run S α) := fun _ _ _ h => nomatch h

theorem Only.bind {W : String → Prop} {x : Run S α} {f : α → Run S β} (hx : Only W x) (hf : ∀ a, Only W (f a)) :
    Only W (x >>= f) := by
  intro s path b h
  rw [Run.bind_events, List.mem_append] at h
  rcases h with h | h
  · exact hx s path b h
  · cases hr : (x s).result with
    | error e => rw [hr] at h; cases h
    | ok a => rw [hr] at h; exact hf a _ path b h

theorem Only.write {W : String → Prop} (C : Setting S) {path : String} (c : Bytes) (h : W path) : Only W (write C path c) := by
  intro s p b hm
  unfold Client.write at hm
  cases hw : C.disk.writable path with
  | true =>
    rw [hw] at hm
    cases List.mem_singleton.mp hm
    exact h
  | false => rw [hw] at hm; cases hm

theorem Only.writeOrError {W : String → Prop} (C : Setting S) {path : String} (c : Bytes) (h : W path) :
    Only W (writeOrError C path c) := by
  intro s p b hm
  unfold Client.writeOrError at hm
  cases hw : C.disk.writable path with
  | true =>
    rw [hw] at hm
    cases List.mem_singleton.mp hm
    exact h
  | false => rw [hw] at hm; cases hm

theorem interview_wrote (qs : List Question) (input : List String) (path : String) (b : Bytes) :
    .wrote path b ∉ (interview qs input).2 := by
  induction qs generalizing input with
  | nil => exact fun h => nomatch h
  | cons q qs ih =>
    intro h
    unfold interview at h
    by_cases hp : (promptIsYes input).1 = true
    · simp only [hp, if_true] at h
      rcases List.mem_cons.mp h with h | h
      · cases h
      · exact ih _ h
    · simp only [hp, if_false] at h
      cases List.mem_singleton.mp h

theorem Only.confirm {W : String → Prop} (auto : Bool) (qs : List Question) (input : List String) :
    Only W (confirm auto qs input : Run S Unit) := by
  intro s p b hm
  exfalso
  unfold Client.confirm at hm
  cases auto with
  | true => cases hm
  | false =>
    simp only [Bool.false_eq_true, if_false] at hm
    split at hm <;> exact interview_wrote _ _ _ _ hm

theorem Only.postWire {W : String → Prop} (C : Setting S) (m : Msg) (enc : Wire.Encoding) : Only W (postWire C m enc) := by
  intro s p b hm
  unfold Client.postWire at hm
  cases ht : Wire.toWire m enc with
  | error e => rw [ht] at hm; cases hm
  | ok w => rw [ht] at hm; cases List.mem_singleton.mp hm

theorem Only.post {W : String → Prop} (C : Setting S) (m : Msg) : Only W (post C m) := by
  refine Only.bind (Only.postWire C m .json) fun r => ?_
  cases unreadable r with
  | true => exact Only.postWire C m .borsh
  | false => exact Only.pure _

theorem Only.postFallback {W : String → Prop} (C : Setting S) (m : Msg) (parse : Msg → Option α) (l : List Wire.Encoding) :
    Only W (postFallback C m parse l) := by
  induction l with
  | nil => exact Only.pure _
  | cons enc l ih =>
    refine Only.bind (Only.postWire C m enc) fun r => ?_
    cases parsed parse r with
    | some a => exact Only.pure _
    | none => exact ih

theorem Only.bootWithFallback {W : String → Prop} (C : Setting S) (e : Envelope) (pivot : Bytes) :
    Only W (bootWithFallback C e pivot) := by
  refine Only.bind (Only.postWire C _ _) fun r => ?_
  cases bootAnswer r with
  | some a => exact Only.pure _
  | none => exact Only.bind (Only.postWire C _ _) fun _ => Only.lift _

theorem Only.quiet {W : String → Prop} {x : Run S Unit} (h : Only W x) : Only W (ClientCli.quiet x) :=
  Only.bind h fun _ => Only.pure _

theorem Only.mono {V W : String → Prop} {x : Run S α} (h : Only V x) (hw : ∀ p, V p → W p) : Only W x :=
  fun s p b hm => hw p (h s p b hm)

theorem Only.onCard {D : Type} {W : String → Prop} (wrap : YubiKeyError → ClientError) (x : Yubi.Dev D α) :
    Only W (Yubi.onCard wrap x) := by
  intro s p b hm
  cases hm

theorem Only.openCard {D : Type} {W : String → Prop} (P : Yubi.Piv D) (e : ClientError) : Only W (Yubi.openCard P e) := by
  intro s p b hm
  unfold Yubi.openCard at hm
  split at hm <;> cases hm

theorem Only.orPanic {W : String → Prop} {x : Run S α} (h : Only W x) : Only W (Yubi.orPanic x) := h

theorem Only.writeShares {W : String → Prop} (C : Setting S) (dir : String) (hw : ∀ i, W (pathJoin dir (shareName i)))
    (l : List Bytes) : ∀ i, Only W (writeShares C dir i l) := by
  induction l with
  | nil => exact fun i => Only.pure _
  | cons b l ih => exact fun i => Only.bind (Only.write C b (hw i)) fun _ => ih (i + 1)

theorem Only.writeOptional {W : String → Prop} (C : Setting S) {path : String} (h : W path) (b : Option Bytes) :
    Only W (writeOptional C path b) := by
  cases b with
  | none => exact Only.pure _
  | some b => exact Only.write C b h

end Qos.Client
