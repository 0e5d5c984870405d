import Verif.Props.YubikeyProvision
import Verif.Props.ClientTools
import Verif.Props.ClientProxy
import Mathlib.Data.List.Forall2
/-!
# C64: a card in place of a key file

Concrete cases: `Props/YubikeyToy.lean`.
-/
namespace Qos.Yubi
open Client (Stop ClientError YubiKeyError Setting Run Disk orStop mapStop guardStop)
open P256 (Pair Public)

/-! ## Laws of sequences -/

variable {S α β γ : Type}

theorem bind_assoc' (x : Run S α) (f : α → Run S β) (g : β → Run S γ) : (x >>= f) >>= g = x >>= fun a => f a >>= g := by
  funext s
  show Run.bind (Run.bind x f) g s = Run.bind x (fun a => Run.bind (f a) g) s
  unfold Run.bind
  rcases x s with ⟨_ | a, s', es⟩
  · rfl
  · rcases h : f a s' with ⟨_ | b, s'', es'⟩
    · simp [h]
    · simp [h]

theorem lift_bind (x : Except Stop α) (f : α → Except Stop β) :
    (Run.lift (x >>= f) : Run S β) = Run.lift x >>= fun a => Run.lift (f a) := by
  funext s
  cases x with
  | error e => rfl
  | ok a => rfl

theorem lift_pure (a : α) : (Run.lift (pure a) : Run S α) = pure a := rfl

theorem pure_bind' (a : α) (f : α → Run S β) : (pure a >>= f : Run S β) = f a := by
  funext s
  show Run.bind (Run.pure a) f s = _
  unfold Run.bind Run.pure
  simp

theorem lift_ok_bind {x : Except Stop α} {a : α} (h : x = .ok a) (f : α → Run S β) : (Run.lift x >>= f : Run S β) = f a := by
  funext s; exact Client.Run.lift_ok h f s

/-! ## Key files -/

variable {D : Type}

theorem afterGenesis_pair (C : Setting (Plugged D)) (P : Piv D) (k : Pair) (a : Client.AfterGenesisArgs) :
    afterGenesis C P (.pair k) a = Client.afterGenesis C k a := by
  unfold afterGenesis Client.afterGenesis genesisOf Client.checkAfterGenesis Holder.publicKeyBytes Holder.decrypt
  simp only [lift_bind, bind_assoc', lift_pure, pure_bind']

theorem approveManifest_pair (C : Setting (Plugged D)) (der : Bytes → Option Bytes) (P : Piv D) (k : Pair) (a : Client.ApproveArgs)
    (input : List String) : approveManifest C der P (.pair k) a input = Client.approveManifest C k a input := by
  unfold approveManifest Client.approveManifest Holder.publicKeyBytes Holder.sign
  simp only [pure_bind']
  rfl

theorem orPanic_lift {ε : Type} (x : Except ε α) (f : ε → Stop) :
    (orPanic (Run.lift (mapStop x f)) : Run S α) = Run.lift (mapStop x fun _ => .panic) := by
  funext s
  cases x <;> rfl

theorem orPanic_pure (a : α) : (orPanic (pure a) : Run S α) = pure a := rfl

theorem proxyReEncryptShare_pair (C : Setting (Plugged D)) (der : Bytes → Option Bytes) (P : Piv D) (k : Pair) (a : Client.ProxyArgs)
    (input : List String) : proxyReEncryptShare C der P (.pair k) a input = Client.proxyReEncryptShare C k a input := by
  unfold proxyReEncryptShare Client.proxyReEncryptShare proxyInputs proxyMember Client.proxyChecks Client.reEncrypt
    Holder.publicKeyBytes Holder.decrypt Holder.sign
  simp only [lift_bind, bind_assoc', lift_pure, pure_bind', orPanic_lift, orPanic_pure]
  rfl

/-- Whoever signs with a key file gets the same from a client built with YubiKey support as from one built without. -/
theorem key_files_unchanged (C : Setting (Plugged D)) (o : ClientCli.Outside (Plugged D)) (der : Bytes → Option Bytes) (P : Piv D)
    (prompt : Option Bytes) {x : ClientCli.Signer → ClientCli.Call} (hx : KeyCommand x) (path : String) :
    execute C o der P prompt (x (.file path)) = ClientCli.execute C o (x (.file path)) := by
  cases hx with
  | afterGenesis a =>
    show (openHolder C P prompt (.file path) >>= fun h => ClientCli.quiet (afterGenesis C P h a)) = _
    unfold openHolder
    simp only [bind_assoc', pure_bind', afterGenesis_pair]
    rfl
  | approveManifest a =>
    show (openHolder C P prompt (.file path) >>= fun h => ClientCli.quiet (approveManifest C der P h a o.input)) = _
    unfold openHolder
    simp only [bind_assoc', pure_bind', approveManifest_pair]
    rfl
  | proxyReEncryptShare a =>
    show (openHolder C P prompt (.file path) >>= fun h => ClientCli.quiet (proxyReEncryptShare C der P h a o.input)) = _
    unfold openHolder
    simp only [bind_assoc', pure_bind', proxyReEncryptShare_pair]
    rfl

/-! ## Two runs side by side -/

/-- The two runs end alike from any two states, as long as the first starts with a good card; it ends with one. -/
def Like (p : Prims) (G : Card → Prop) (R : α → α → Prop) (x y : Run (Plugged Card) α) : Prop :=
  ∀ s t, G s.card → G (x s).state.card ∧ List.Forall₂ (Alike p) (x s).events (y t).events ∧
    ((∃ a b, (x s).result = .ok a ∧ (y t).result = .ok b ∧ R a b) ∨
      ∃ e e', (x s).result = .error e ∧ (y t).result = .error e')

section
variable {p : Prims} {G : Card → Prop} {R : α → α → Prop} {R' : β → β → Prop}

theorem Like.bind {x y : Run (Plugged Card) α} {f g : α → Run (Plugged Card) β} (h : Like p G R x y)
    (hf : ∀ a b, R a b → Like p G R' (f a) (g b)) : Like p G R' (x >>= f) (y >>= g) := by
  intro s t hs
  obtain ⟨h1, h2, ⟨a, b, ha, hb, hr⟩ | ⟨e, e', ha, hb⟩⟩ := h s t hs
  · obtain ⟨k1, k2, k3⟩ := hf a b hr _ (y t).state h1
    rw [Client.Run.bind_state, Client.Run.bind_events, Client.Run.bind_events, Client.Run.bind_result, Client.Run.bind_result,
      ha, hb]
    exact ⟨k1, List.rel_append h2 k2, k3⟩
  · rw [Client.Run.bind_state, Client.Run.bind_events, Client.Run.bind_events, Client.Run.bind_result, Client.Run.bind_result,
      ha, hb]
    exact ⟨h1, by simpa using h2, Or.inr ⟨e, e', rfl, rfl⟩⟩

theorem Like.lift (x : Except Stop α) : Like p G Eq (Run.lift x) (Run.lift x) := by
  intro s t hs
  refine ⟨hs, .nil, ?_⟩
  cases x with
  | error e => exact Or.inr ⟨e, e, rfl, rfl⟩
  | ok a => exact Or.inl ⟨a, a, rfl, rfl, rfl⟩

theorem Like.pure {a b : α} (h : R a b) : Like p G R (Pure.pure a) (Pure.pure b) :=
  fun _ _ hs => ⟨hs, .nil, Or.inl ⟨a, b, rfl, rfl, h⟩⟩

theorem Like.write (C : Setting (Plugged Card)) (path : String) {b b' : Bytes} (h : Alike p (.wrote path b) (.wrote path b')) :
    Like p G Eq (Client.write C path b) (Client.write C path b') := by
  intro s t hs
  unfold Client.write
  by_cases hw : C.disk.writable path = true
  · simp only [hw, if_true]
    exact ⟨hs, .cons h .nil, Or.inl ⟨(), (), by trivial, by trivial, by trivial⟩⟩
  · simp only [hw]
    exact ⟨hs, .nil, Or.inr ⟨_, _, rfl, rfl⟩⟩

theorem alike_refl (l : List Client.Event) : List.Forall₂ (Alike p) l l := by
  induction l with
  | nil => exact .nil
  | cons e l ih => exact .cons (.same e) ih

theorem Like.confirm (auto : Bool) (qs : List Client.Question) (input : List String) :
    Like p G Eq (Client.confirm auto qs input) (Client.confirm auto qs input) := by
  intro s t hs
  unfold Client.confirm
  by_cases ha : auto = true
  · simp only [ha, if_true]
    exact ⟨hs, .nil, Or.inl ⟨(), (), by trivial, by trivial, by trivial⟩⟩
  · by_cases hi : (Client.interview qs input).1 = true
    · simp only [ha, hi, if_true, if_false, Bool.false_eq_true]
      exact ⟨hs, alike_refl _, Or.inl ⟨(), (), by trivial, by trivial, by trivial⟩⟩
    · simp only [ha, hi, if_false, Bool.false_eq_true]
      exact ⟨hs, alike_refl _, Or.inr ⟨_, _, rfl, rfl⟩⟩

theorem Like.orPanic {x y : Run (Plugged Card) α} (h : Like p G R x y) : Like p G R (orPanic x) (orPanic y) := by
  intro s t hs
  obtain ⟨h1, h2, ⟨a, b, ha, hb, hr⟩ | ⟨e, e', ha, hb⟩⟩ := h s t hs
  · exact ⟨h1, h2, Or.inl ⟨a, b, by simp [Yubi.orPanic, ha, mapStop], by simp [Yubi.orPanic, hb, mapStop], hr⟩⟩
  · exact ⟨h1, h2, Or.inr ⟨.panic, .panic, by simp [Yubi.orPanic, ha, mapStop], by simp [Yubi.orPanic, hb, mapStop]⟩⟩

end

/-! ## What is done with the key -/

section
variable {p : Prims} {der : Bytes → Option Bytes} (M : Maker p der)

/-- A card with the secrets of the pair, and otherwise as the given card. -/
def Good (p : Prims) (c : Card) (pin : Bytes) (k : Pair) (d : Card) : Prop :=
  d.Usable p pin k.signSecret k.encSecret ∧ c.Same d

theorem Same.trans {a b c : Card} (h : a.Same b) (h' : b.Same c) : a.Same c :=
  ⟨h.1.trans h'.1, h.2.1.trans h'.2.1, h.2.2.1.trans h'.2.2.1, h.2.2.2.1.trans h'.2.2.2.1, h.2.2.2.2.1.trans h'.2.2.2.2.1,
    h.2.2.2.2.2.trans h'.2.2.2.2.2⟩

variable {c : Card} {pin : Bytes} {k : Pair}

theorem like_publicKey (hp : p.Laws) (hk : p.scalarOk k.encSecret ∧ p.scalarOk k.signSecret) :
    Like p (Good p c pin k) (fun a b => a = (k.publicKey p).toBytes ∧ b = a) ((Holder.yubi pin).publicKeyBytes p (Card.piv M))
      ((Holder.pair k).publicKeyBytes p (Card.piv M)) := by
  rintro ⟨d, l⟩ t hg
  obtain ⟨he, hs⟩ := hk
  obtain ⟨l', h⟩ := card_shows M hp hg.1.2 hs he l
  have e : (Holder.yubi pin).publicKeyBytes p (Card.piv M) ⟨d, l⟩ =
      ⟨.ok (p.point k.encSecret ++ p.point k.signSecret), ⟨d, l'⟩, []⟩ := by
    show onCard _ _ _ = _
    simp [onCard, h, mapStop]
  rw [e]
  exact ⟨hg, .nil, Or.inl ⟨_, _, rfl, rfl, rfl, rfl⟩⟩

theorem like_decrypt (hp : p.Laws) (hk : p.scalarOk k.encSecret ∧ p.scalarOk k.signSecret) (buf : Bytes) :
    Like p (Good p c pin k) Eq ((Holder.yubi pin).decrypt p (Card.piv M) buf) ((Holder.pair k).decrypt p (Card.piv M) buf) := by
  rintro ⟨d, l⟩ t hg
  obtain ⟨he, hs⟩ := hk
  obtain ⟨r, c', l', h, hsame, hu, hr⟩ := card_decrypts M hp hg.1 he buf l
  rw [h]
  refine ⟨⟨hu, Same.trans hg.2 hsame⟩, .nil, ?_⟩
  show (∃ a b, r = .ok a ∧ mapStop (P256.openSealed p k.encSecret buf) _ = .ok b ∧ a = b) ∨
    ∃ e e', r = .error e ∧ mapStop (P256.openSealed p k.encSecret buf) _ = .error e'
  cases hm : P256.openSealed p k.encSecret buf with
  | ok m => exact Or.inl ⟨m, m, (hr m).mpr hm, rfl, rfl⟩
  | error e =>
    cases hx : r with
    | ok m => rw [(hr m).mp hx] at hm; cases hm
    | error e' => exact Or.inr ⟨e', _, rfl, rfl⟩

theorem like_sign (hp : p.Laws) (hd : DerOk p der) (hk : p.scalarOk k.encSecret ∧ p.scalarOk k.signSecret) (data : Bytes) :
    Like p (Good p c pin k) (fun a b => (k.publicKey p).verify p data a = .ok () ∧ (k.publicKey p).verify p data b = .ok ())
      ((Holder.yubi pin).sign p der (Card.piv M) data) ((Holder.pair k).sign p der (Card.piv M) data) := by
  rintro ⟨d, l⟩ t hg
  obtain ⟨he, hs⟩ := hk
  obtain ⟨sig, c', l', h, ho, hv, hsame, hu⟩ := card_signs M hp hd hg.1 hs data l
  have e : (Holder.yubi pin).sign p der (Card.piv M) data ⟨d, l⟩ = ⟨.ok sig, ⟨c', l'⟩, []⟩ := by
    show onCard _ _ _ = _
    simp [onCard, h, mapStop]
  rw [e]
  refine ⟨⟨hu, Same.trans hg.2 hsame⟩, .nil, Or.inl ⟨sig, _, rfl, rfl, ?_, by
    simp [Public.verify, Pair.sign, Pair.publicKey, hp.sign_ok _ _ hs, hp.verify_sign _ _ hs]⟩⟩
  simp [Public.verify, Pair.publicKey, ho, hv]

end

/-! ## The commands -/

section
variable {C : Setting (Plugged Card)} {der : Bytes → Option Bytes} (M : Maker C.prims der) {c : Card} {pin : Bytes} {k : Pair}

theorem like_afterGenesis (hp : C.prims.Laws) (hk : C.prims.scalarOk k.encSecret ∧ C.prims.scalarOk k.signSecret) (a : Client.AfterGenesisArgs) :
    Like C.prims (Good C.prims c pin k) Eq (afterGenesis C (Card.piv M) (.yubi pin) a) (afterGenesis C (Card.piv M) (.pair k) a) := by
  unfold afterGenesis
  refine .bind (.lift _) ?_
  rintro out _ rfl
  refine .bind (like_publicKey M hp hk) ?_
  rintro key _ ⟨rfl, rfl⟩
  refine .bind (.lift _) ?_
  rintro own _ rfl
  refine .bind (like_decrypt M hp hk _) ?_
  rintro share _ rfl
  refine .bind (.lift _) ?_
  rintro _ _ rfl
  exact .write C _ (.same _)

theorem like_approve (hp : C.prims.Laws) (hd : DerOk C.prims der) (hk : C.prims.scalarOk k.encSecret ∧ C.prims.scalarOk k.signSecret)
    (a : Client.ApproveArgs) (input : List String) :
    Like C.prims (Good C.prims c pin k) Eq (approveManifest C der (Card.piv M) (.yubi pin) a input)
      (approveManifest C der (Card.piv M) (.pair k) a input) := by
  unfold approveManifest
  refine .bind (.lift _) ?_
  rintro m _ rfl
  refine .bind (.confirm _ _ _) ?_
  rintro _ _ rfl
  refine .bind (like_sign M hp hd hk _) ?_
  rintro sig sig' ⟨h1, h2⟩
  refine .bind (like_publicKey M hp hk) ?_
  rintro key _ ⟨rfl, rfl⟩
  exact .write C _ (.approval _ _ _ _ _ _ (Client.public_of_secrets _ hp k hk).1 h1 h2)

theorem like_proxy (hp : C.prims.Laws) (hd : DerOk C.prims der) (hk : C.prims.scalarOk k.encSecret ∧ C.prims.scalarOk k.signSecret)
    (a : Client.ProxyArgs) (input : List String) :
    Like C.prims (Good C.prims c pin k) Eq (proxyReEncryptShare C der (Card.piv M) (.yubi pin) a input)
      (proxyReEncryptShare C der (Card.piv M) (.pair k) a input) := by
  unfold proxyReEncryptShare
  refine .bind (.lift _) ?_
  rintro ch _ rfl
  refine .bind (like_publicKey M hp hk) ?_
  rintro key _ ⟨rfl, rfl⟩
  refine .bind (.lift _) ?_
  rintro _ _ rfl
  refine .bind (.confirm _ _ _) ?_
  rintro _ _ rfl
  refine .bind (.orPanic (like_decrypt M hp hk _)) ?_
  rintro share _ rfl
  refine .bind (.lift _) ?_
  rintro wrapped _ rfl
  refine .bind (.orPanic (like_sign M hp hd hk _)) ?_
  rintro sig sig' ⟨h1, h2⟩
  refine .bind (.write C _ (.approval _ _ _ _ _ _ (Client.public_of_secrets _ hp k hk).1 h1 h2)) ?_
  rintro _ _ rfl
  exact .write C _ (.same _)

/-- A card with the secrets of a key file, used with its PIN, can take the place of that key file in every command that uses the
operator's key: the command succeeds with one exactly if it succeeds with the other, asks the same questions, and writes the same
files with the same contents, except that the signature in an approval may be a different one by the same member of the same
manifest. The card stays as it is. -/
theorem card_replaces_key_file (hp : C.prims.Laws) (hd : DerOk C.prims der) (o : ClientCli.Outside (Plugged Card))
    {prompt : Option Bytes} {pinPath : Option String} {path : String} (hpin : PinGiven C.disk prompt pin pinPath)
    (hk : Client.pairFromFile C.prims C.disk path = .ok k) (hu : c.Usable C.prims pin k.signSecret k.encSecret)
    {x : ClientCli.Signer → ClientCli.Call} (hx : KeyCommand x) (l : List (Cmd × Answer)) (s : Plugged Card) :
    let card := execute C o der (Card.piv M) prompt (x (.yubikey pinPath)) ⟨c, l⟩
    let file := ClientCli.execute C o (x (.file path)) s
    ((∃ r, card.result = .ok r) ↔ ∃ r, file.result = .ok r) ∧ List.Forall₂ (Alike C.prims) card.events file.events ∧
      card.state.card.Usable C.prims pin k.signSecret k.encSecret ∧ c.Same card.state.card := by
  replace hpin := (pin_given ..).mpr hpin
  obtain ⟨_, -, _, seed, -, -, hseed⟩ := Client.pairFromFile_ok.mp hk
  intro card file
  have e : ∀ f : Holder → Run (Plugged Card) ClientCli.Shown, (openHolder C (Card.piv M) prompt (.yubikey pinPath) >>= f) =
      f (.yubi pin) := by
    intro f
    unfold openHolder
    simp only [bind_assoc']
    funext s
    show Run.bind _ _ s = _
    unfold Run.bind openCard
    simp only [Card.piv, if_true]
    rw [Client.Run.lift_ok hpin, pure_bind']
    simp
  have e' : ∀ f : Holder → Run (Plugged Card) ClientCli.Shown, (openHolder C (Card.piv M) prompt (.file path) >>= f) =
      f (.pair k) := by
    intro f
    unfold openHolder
    simp only [bind_assoc', pure_bind']
    exact lift_ok_bind hk _
  have main : ∀ y z : Run (Plugged Card) Unit, Like C.prims (Good C.prims c pin k) Eq y z →
      Like C.prims (Good C.prims c pin k) Eq (ClientCli.quiet y) (ClientCli.quiet z) := by
    intro y z h
    unfold ClientCli.quiet
    exact .bind h fun _ _ _ => .pure rfl
  have : ∃ y z, card = y ⟨c, l⟩ ∧ file = z s ∧ Like C.prims (Good C.prims c pin k) Eq y z := by
    have hf : file = execute C o der (Card.piv M) prompt (x (.file path)) s := by
      rw [key_files_unchanged C o der (Card.piv M) prompt hx path]
    cases hx with
    | afterGenesis a =>
      exact ⟨_, _, congrFun (e _) _, hf.trans (congrFun (e' _) _), main _ _ (like_afterGenesis M hp (P256.pair_scalars _ _ _ hseed) a)⟩
    | approveManifest a =>
      exact ⟨_, _, congrFun (e _) _, hf.trans (congrFun (e' _) _), main _ _ (like_approve M hp hd (P256.pair_scalars _ _ _ hseed) a o.input)⟩
    | proxyReEncryptShare a =>
      exact ⟨_, _, congrFun (e _) _, hf.trans (congrFun (e' _) _), main _ _ (like_proxy M hp hd (P256.pair_scalars _ _ _ hseed) a o.input)⟩
  obtain ⟨y, z, hy, hz, hlike⟩ := this
  obtain ⟨⟨h1, h2⟩, h3, h4⟩ := hlike ⟨c, l⟩ s ⟨hu, rfl, rfl, rfl, rfl, rfl, rfl⟩
  rw [hy, hz]
  refine ⟨?_, h3, h1, h2⟩
  rcases h4 with ⟨a, b, ha, hb, -⟩ | ⟨e1, e2, ha, hb⟩
  · exact ⟨fun _ => ⟨b, hb⟩, fun _ => ⟨a, ha⟩⟩
  · constructor
    · rintro ⟨r, hr⟩
      rw [ha] at hr
      cases hr
    · rintro ⟨r, hr⟩
      rw [hb] at hr
      cases hr

end
end Qos.Yubi
