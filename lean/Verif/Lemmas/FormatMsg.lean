import Verif.Spec.FormatMsg
import Verif.Props.FormatWrites
import Verif.Lemmas.WireJson
import Verif.Lemmas.WireBorsh
namespace Qos.Format
open Json

/-! ## JSON enumerations -/

/-- What the member of a variant is, if anything. -/
def Carries : Option (Json → Prop) → Option Json → Prop
  | none, o => o = none ∨ o = some .null
  | some P, o => ∃ x, o = some x ∧ P x

/-- Whatever the variant reads is a value of its names that carries this. -/
def Gives {α : Type} (names : α → List String) (said : α → Option (Json → Prop)) (w : JVariant α) : Prop :=
  ∀ o a, w.dec o = some a → names a = w.name :: w.aliases ∧ Carries (said a) o

/-- Every value has its variant. -/
def Takes {α : Type} (names : α → List String) (said : α → Option (Json → Prop)) (a : α) (w : JVariant α) : Prop :=
  names a = w.name :: w.aliases ∧ ∀ o, Carries (said a) o → w.dec o = some a

theorem gives_unit {α : Type} {names : α → List String} {said : α → Option (Json → Prop)} {n : String} {a : α} {al : List String}
    (h1 : names a = n :: al) (h2 : said a = none) : Gives names said (JVariant.unit n a al) := by
  intro o b h
  match o, h with
  | none, h => cases h; rw [h2]; exact ⟨h1, .inl rfl⟩
  | some .null, h => cases h; rw [h2]; exact ⟨h1, .inr rfl⟩

theorem takes_unit {α : Type} {names : α → List String} {said : α → Option (Json → Prop)} {n : String} {a : α} {al : List String}
    (h1 : names a = n :: al) (h2 : said a = none) : Takes names said a (JVariant.unit n a al) := by
  refine ⟨h1, fun o h => ?_⟩
  rw [h2] at h
  rcases h with rfl | rfl <;> rfl

theorem gives_data {α β : Type} {names : α → List String} {said : α → Option (Json → Prop)} {n : String} {c : JCodec β}
    {inj : β → α} {proj : α → Option β} {P : β → Json → Prop} (h1 : ∀ b, names (inj b) = [n])
    (h2 : ∀ b, said (inj b) = some (P b)) (h3 : ∀ v b, c.dec v = some b ↔ P b v) :
    Gives names said (JVariant.data n c inj proj) := by
  intro o a h
  match o, h with
  | none, h => cases h
  | some v, h =>
    simp only [JVariant.data, Option.map_eq_some_iff] at h
    obtain ⟨b, hb, rfl⟩ := h
    rw [h2]
    exact ⟨h1 b, v, rfl, (h3 v b).mp hb⟩

theorem takes_data {α β : Type} {names : α → List String} {said : α → Option (Json → Prop)} {n : String} {c : JCodec β}
    {inj : β → α} {proj : α → Option β} {P : β → Json → Prop} {a : α} (b : β) (h0 : inj b = a) (h1 : names (inj b) = [n])
    (h2 : said (inj b) = some (P b)) (h3 : ∀ v b, c.dec v = some b ↔ P b v) :
    Takes names said a (JVariant.data n c inj proj) := by
  subst h0
  refine ⟨h1, fun o h => ?_⟩
  rw [h2] at h
  obtain ⟨x, rfl, hx⟩ := h
  simp only [JVariant.data, Option.map_eq_some_iff]
  exact ⟨b, (h3 x b).mpr hx, rfl⟩

theorem find_variant {α : Type} {vs : List (JVariant α)} (hd : ((vs.map fun v => v.name :: v.aliases).flatten).Nodup)
    {w : JVariant α} (hw : w ∈ vs) {s : String} (hs : w.named s = true) : vs.find? (fun v => v.named s) = some w := by
  induction vs with
  | nil => cases hw
  | cons u vs ih =>
    simp only [List.map_cons, List.flatten_cons, List.nodup_append] at hd
    obtain ⟨-, hd2, hd3⟩ := hd
    rcases List.mem_cons.mp hw with rfl | hw
    · simp [List.find?_cons, hs]
    · have hu : u.named s = false := by
        cases hu : u.named s with
        | false => rfl
        | true =>
          simp only [JVariant.named, List.contains_iff_mem] at hu hs
          refine absurd rfl (hd3 s hu s ?_)
          rw [List.mem_flatten]
          exact ⟨_, List.mem_map_of_mem hw, hs⟩
      rw [List.find?_cons, hu]
      exact ih hd2 hw

theorem enum_iff {α : Type} {tag : α → Nat} {vs : List (JVariant α)} {names : α → List String}
    {said : α → Option (Json → Prop)} (hd : ((vs.map fun v => v.name :: v.aliases).flatten).Nodup)
    (pos : α → Nat) (hg : ∀ w ∈ vs, Gives names said w)
    (ht : ∀ a, (∃ w, vs[pos a]? = some w ∧ Takes names said a w) ∨ ∀ o, ¬ Carries (said a) o) {v : Json} {a : α} :
    (JCodec.enum tag vs).dec v = some a ↔ ∃ n ∈ names a, Variant v n (said a) := by
  have fwd : ∀ s o, (match vs.find? fun v => v.named s with | some v => v.dec o | none => none) = some a ↔
      s ∈ names a ∧ Carries (said a) o := by
    intro s o
    constructor
    · intro h
      cases hf : vs.find? fun v => v.named s with
      | none => rw [hf] at h; cases h
      | some w =>
        rw [hf] at h
        obtain ⟨h1, h2⟩ := hg w (List.mem_of_find?_eq_some hf) o a h
        have h3 := List.find?_some hf
        simp only [JVariant.named, List.contains_iff_mem] at h3
        exact ⟨h1 ▸ h3, h2⟩
    · rintro ⟨h1, h2⟩
      obtain ⟨w, hw, hn, h⟩ | hn := ht a
      case inr => exact absurd h2 (hn o)
      rw [find_variant hd (List.mem_of_getElem? hw) (s := s) (by simp only [JVariant.named, List.contains_iff_mem]; exact hn ▸ h1)]
      exact h o h2
  have hnull : ∀ n, Variant .null n (said a) ↔ False := by
    intro n; cases said a <;> simp [Variant, IsName]
  cases v with
  | str s =>
    refine Iff.trans (fwd s none) ?_
    cases said a with
    | none => simp [Carries, Variant, IsName]
    | some P => simp [Carries, Variant]
  | obj kvs =>
    match kvs with
    | [] => cases said a <;> simp [JCodec.enum, Variant, IsName]
    | [(s, x)] =>
      refine Iff.trans (fwd s (some x)) ?_
      cases said a with
      | none => simp [Carries, Variant, IsName, and_comm]
      | some P =>
        simp only [Carries, Variant, Option.some.injEq, Json.obj.injEq, List.cons.injEq, Prod.mk.injEq, and_true]
        constructor
        · rintro ⟨h1, y, rfl, h2⟩; exact ⟨s, h1, x, ⟨rfl, rfl⟩, h2⟩
        · rintro ⟨n, h1, y, ⟨rfl, rfl⟩, h2⟩; exact ⟨h1, x, rfl, h2⟩
    | _ :: _ :: _ => cases said a <;> simp [JCodec.enum, Variant, IsName]
  | _ => cases said a <;> simp [JCodec.enum, Variant, IsName]

/-! ## Borsh -/

/-- Reading up to the rest `r` gives exactly the values the bytes stand for. -/
def Exact {α : Type} (c : Borsh.Codec α) (F : Bytes → α → Prop) (r : Bytes) : Prop :=
  ∀ bs a, c.dec bs = some (a, r) ↔ ∃ b, bs = b ++ r ∧ F b a

theorem exact_lawful {α : Type} {c : Borsh.Codec α} (h : Borsh.Lawful c) {f : α → Bytes} (hf : ∀ a, c.enc a = f a)
    {P : α → Prop} (hp : ∀ a, c.ok a ↔ P a) (r : Bytes) : Exact c (fun b a => b = f a ∧ P a) r := by
  intro bs a
  constructor
  · intro hd
    obtain ⟨h1, h2⟩ := h.enc_dec bs a r hd
    exact ⟨f a, by rw [h1, hf], rfl, (hp a).mp h2⟩
  · rintro ⟨b, rfl, rfl, h2⟩
    rw [← hf]
    exact h.dec_enc a r ((hp a).mpr h2)

theorem exact_pair {α β : Type} {c : Borsh.Codec α} {d : Borsh.Codec β} {F : Bytes → α → Prop} {G : Bytes → β → Prop}
    (hc : ∀ r, Exact c F r) {r : Bytes} (hd : Exact d G r) :
    Exact (Borsh.pair c d) (fun b ab => ∃ x y, b = x ++ y ∧ F x ab.1 ∧ G y ab.2) r := by
  rintro bs ⟨a, b⟩
  constructor
  · intro h
    simp only [Borsh.pair] at h
    cases h1 : c.dec bs with
    | none => rw [h1] at h; cases h
    | some ar =>
      obtain ⟨a', r1⟩ := ar
      rw [h1] at h
      simp only at h
      cases h2 : d.dec r1 with
      | none => rw [h2] at h; cases h
      | some br =>
        obtain ⟨b', r2⟩ := br
        rw [h2] at h
        cases h
        obtain ⟨x, rfl, hx⟩ := (hc r1 bs a).mp h1
        obtain ⟨y, rfl, hy⟩ := (hd r1 b).mp h2
        exact ⟨x ++ y, by simp, x, y, rfl, hx, hy⟩
  · rintro ⟨-, rfl, x, y, rfl, hx, hy⟩
    have h1 : c.dec (x ++ (y ++ r)) = some (a, y ++ r) := (hc (y ++ r) _ a).mpr ⟨x, rfl, hx⟩
    have h2 : d.dec (y ++ r) = some (b, r) := (hd _ b).mpr ⟨y, rfl, hy⟩
    simp only [Borsh.pair, List.append_assoc, h1, h2]

theorem exact_option {α : Type} {c : Borsh.Codec α} {F : Bytes → α → Prop} {r : Bytes} (hc : Exact c F r) :
    Exact (Borsh.option c) (fun b o => (o = none ∧ b = [0]) ∨ ∃ e b', o = some e ∧ b = [1] ++ b' ∧ F b' e) r := by
  intro bs o
  cases bs with
  | nil =>
    constructor
    · intro h; cases h
    · rintro ⟨b, h, ⟨-, rfl⟩ | ⟨e, b', -, rfl, -⟩⟩ <;> simp at h
  | cons t bs =>
    simp only [Borsh.option]
    by_cases h0 : t = 0
    · rw [if_pos h0]
      subst h0
      constructor
      · intro h; cases h; exact ⟨[0], rfl, .inl ⟨rfl, rfl⟩⟩
      · rintro ⟨b, h, ⟨rfl, rfl⟩ | ⟨e, b', -, rfl, -⟩⟩
        · simp only [List.cons_append, List.nil_append, List.cons.injEq, true_and] at h; rw [h]
        · simp at h
    · rw [if_neg h0]
      by_cases h1 : t = 1
      · rw [if_pos h1]
        subst h1
        constructor
        · intro h
          cases hd : c.dec bs with
          | none => rw [hd] at h; cases h
          | some ar =>
            rw [hd] at h
            cases h
            obtain ⟨b, rfl, hb⟩ := (hc bs ar.1).mp hd
            exact ⟨1 :: b, rfl, .inr ⟨_, b, rfl, rfl, hb⟩⟩
        · rintro ⟨b, h, ⟨-, rfl⟩ | ⟨e, b', rfl, rfl, hb⟩⟩
          · simp at h
          · simp only [List.cons_append, List.nil_append, List.cons.injEq, true_and] at h
            rw [(hc bs e).mpr ⟨b', h, hb⟩]
      · rw [if_neg h1]
        constructor
        · intro h; cases h
        · rintro ⟨b, h, ⟨-, rfl⟩ | ⟨e, b', -, rfl, -⟩⟩ <;> simp_all

/-- Whatever the variant reads is a value of this position that stands for what was read. -/
def GivesB {α : Type} (pos : α → Nat) (F : Bytes → α → Prop) (r : Bytes) (i : Nat) (w : BVariant α) : Prop :=
  ∀ bs a, w.dec bs = some (a, r) → pos a = i ∧ ∃ b, bs = b ++ r ∧ F b a

/-- What stands for the value is read by the variant. -/
def TakesB {α : Type} (F : Bytes → α → Prop) (r : Bytes) (a : α) (w : BVariant α) : Prop :=
  ∀ b, F b a → w.dec (b ++ r) = some (a, r)

/-- Each variant at its position. -/
def EachB {α : Type} (P : Nat → BVariant α → Prop) : Nat → List (BVariant α) → Prop
  | _, [] => True
  | i, w :: ws => P i w ∧ EachB P (i + 1) ws

theorem eachB_get {α : Type} {P : Nat → BVariant α → Prop} {ws : List (BVariant α)} : ∀ {i : Nat}, EachB P i ws →
    ∀ {k : Nat} {w : BVariant α}, ws[k]? = some w → P (i + k) w := by
  induction ws with
  | nil => intro i _ k w h; simp at h
  | cons u ws ih =>
    intro i h k w hw
    cases k with
    | zero => simp only [List.getElem?_cons_zero, Option.some.injEq] at hw; subst hw; exact h.1
    | succ k =>
      simp only [List.getElem?_cons_succ] at hw
      have := ih h.2 hw
      rwa [show i + 1 + k = i + (k + 1) from by omega] at this

theorem givesB_unit {α : Type} {pos : α → Nat} {F : Bytes → α → Prop} {r : Bytes} {i : Nat} {a : α} (h1 : pos a = i)
    (h2 : F [] a) : GivesB pos F r i (BVariant.unit a) := by
  intro bs b h
  cases h
  exact ⟨h1, [], rfl, h2⟩

theorem takesB_unit {α : Type} {F : Bytes → α → Prop} {r : Bytes} {a : α} (h2 : ∀ b, F b a → b = []) :
    TakesB F r a (BVariant.unit a) := by
  intro b h
  rw [h2 b h]
  rfl

theorem givesB_data {α β : Type} {pos : α → Nat} {F : Bytes → α → Prop} {r : Bytes} {i : Nat} {c : Borsh.Codec β} {inj : β → α}
    {proj : α → Option β} {G : Bytes → β → Prop} (hc : Exact c G r) (h1 : ∀ b, pos (inj b) = i)
    (h2 : ∀ x b, G x b → F x (inj b)) : GivesB pos F r i (BVariant.data c inj proj) := by
  intro bs a h
  simp only [BVariant.data] at h
  cases hd : c.dec bs with
  | none => rw [hd] at h; cases h
  | some ar =>
    rw [hd] at h
    cases h
    obtain ⟨x, hx, hg⟩ := (hc bs ar.1).mp hd
    exact ⟨h1 _, x, hx, h2 _ _ hg⟩

theorem takesB_data {α β : Type} {F : Bytes → α → Prop} {r : Bytes} {c : Borsh.Codec β} {inj : β → α}
    {proj : α → Option β} {G : Bytes → β → Prop} {a : α} (hc : Exact c G r) (b : β) (h0 : inj b = a)
    (h2 : ∀ x, F x (inj b) → G x b) : TakesB F r a (BVariant.data c inj proj) := by
  subst h0
  intro x h
  simp only [BVariant.data, (hc (x ++ r) b).mpr ⟨x, rfl, h2 x h⟩]

theorem exact_enum {α : Type} {tag pos : α → Nat} {vs : List (BVariant α)} {F : Bytes → α → Prop} {r : Bytes}
    (hg : EachB (GivesB pos F r) 0 vs) (ht : ∀ a, ∃ w, vs[pos a]? = some w ∧ TakesB F r a w) (hl : vs.length ≤ 256) :
    Exact (Borsh.enum tag vs) (fun b a => ∃ body, b = tagged (pos a) body ∧ F body a) r := by
  intro bs a
  constructor
  · intro h
    cases bs with
    | nil => cases h
    | cons t bs =>
      simp only [Borsh.enum] at h
      cases hv : vs[t.toNat]? with
      | none => rw [hv] at h; cases h
      | some w =>
        rw [hv] at h
        obtain ⟨h1, b, rfl, h2⟩ := eachB_get hg hv bs a h
        refine ⟨t :: b, rfl, b, ?_, h2⟩
        rw [h1]
        simp [tagged]
  · rintro ⟨-, rfl, body, rfl, h⟩
    obtain ⟨w, hw, hk⟩ := ht a
    have hlt : pos a < 256 := by
      have := (List.getElem?_eq_some_iff.mp hw).1
      omega
    have e : (UInt8.ofNat (pos a)).toNat = pos a := UInt8.toNat_ofNat_of_lt' hlt
    simp only [tagged, List.cons_append, Borsh.enum, e, hw]
    exact hk body h

theorem exact_congr {α : Type} {c : Borsh.Codec α} {F G : Bytes → α → Prop} {r : Bytes} (h : ∀ b a, F b a ↔ G b a)
    (hc : Exact c F r) : Exact c G r := by
  intro bs a
  rw [hc bs a]
  exact exists_congr fun b => and_congr_right fun _ => h b a

theorem whole_iff {α : Type} {c : Borsh.Codec α} {F : Bytes → α → Prop} (h : Exact c F []) {bs : Bytes} {a : α} :
    Borsh.tryFromSlice c bs = some a ↔ F bs a := by
  have : Borsh.tryFromSlice c bs = some a ↔ c.dec bs = some (a, []) := by
    unfold Borsh.tryFromSlice
    cases hd : c.dec bs with
    | none => simp
    | some ar =>
      obtain ⟨a', r⟩ := ar
      cases r <;> simp
  rw [this, h bs a]
  simp

end Qos.Format
