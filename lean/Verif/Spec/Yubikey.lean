import Verif.Model.Yubikey
/-!
# What is expected of YubiKey commands

Written without the functions of the model, apart from the card's command language: which logs are acceptable, and a
well-behaved card (`Card`), the PIV application as its manual describes it: a PIN with a limited number of tries, a management
key, and per slot a private key that never leaves the card and a certificate.
-/
namespace Qos.Yubi

/-! ## Logs -/

/-- The command puts a key into the slot. -/
def Cmd.WritesKey (slot : Slot) (c : Cmd) : Prop :=
  (∃ p t, c = .generate slot p t) ∨ ∃ k t p, c = .importKey slot k t p

/-- A key is only ever put into a slot right after the card was asked for the certificate in it and had none to show. -/
def Guarded (log : List (Cmd × Answer)) : Prop :=
  ∀ before c after slot, log = before ++ c :: after → c.1.WritesKey slot →
    ∃ before', before = before' ++ [(.readCertificate slot, .failed)]

/-- Every key that is put on the card is one that needs the PIN and a touch each time it is used. -/
def Protected (log : List (Cmd × Answer)) : Prop :=
  (∀ slot p t a, (Cmd.generate slot p t, a) ∈ log → p = .always ∧ t = .always) ∧
  (∀ slot k t p a, (Cmd.importKey slot k t p, a) ∈ log → p = .always ∧ t = .always)

/-- Nothing in the log changes what the card holds. -/
def Cmd.Harmless : Cmd → Prop
  | .verifyPin _ | .authenticate _ | .readCertificate _ | .sign _ _ | .agree _ _ => True
  | _ => False

/-! ## PIN files -/

/-- The PIN in a file is its first line, without the line ending (a line feed, or a carriage return and a line feed). The file
must not be empty, the line must be text, and nothing is asked of the rest. -/
def PinFile (contents pin : Bytes) : Prop :=
  contents ≠ [] ∧
  ((10 ∉ contents ∧ (∃ t, utf8Decode contents = some t) ∧ pin = contents) ∨
   ∃ line rest, contents = line ++ 10 :: rest ∧ 10 ∉ line ∧ (∃ t, utf8Decode line = some t) ∧
     (line = pin ++ [13] ∨ (line = pin ∧ line.getLast? ≠ some 13)))

/-- The PIN a command uses: from the file that was named, or else from the terminal. -/
def PinGiven (d : Client.Disk) (prompt : Option Bytes) (pin : Bytes) : Option String → Prop
  | some path => ∃ c, d.file path = some c ∧ PinFile c pin
  | none => prompt = some pin

/-! ## A well-behaved card -/

/-- `Signature::from_der` yields signatures. -/
def DerOk (p : Prims) (der : Bytes → Option Bytes) : Prop := ∀ b s, der b = some s → p.sigOk s = true

/-- What is inside the cards of a maker: a source of randomness, and ECDSA on digests. -/
structure Maker (p : Prims) (der : Bytes → Option Bytes) where
  /-- the scalars the card draws, the n-th one -/
  fresh : Nat → Bytes
  /-- the n-th signature: with a scalar, of a digest, in DER -/
  signature : Nat → Bytes → Bytes → Bytes
  fresh_ok : ∀ n, p.scalarOk (fresh n) = true
  signature_ok : ∀ n s m, p.scalarOk s = true →
    ∃ sig, der (signature n s (p.sha256 m)) = some sig ∧ p.ecdsaVerify (p.point s) m sig = true
  /-- points are written in the uncompressed form -/
  point_form : ∀ s, p.scalarOk s = true → (p.point s).head? = some 4

/-- A private key on the card. -/
structure Held where
  scalar : Bytes
  pinPolicy : PinPolicy
  touchPolicy : TouchPolicy

/-- The state of a card. -/
structure Card where
  pin : Bytes
  /-- tries left before the PIN is blocked -/
  tries : Nat
  /-- tries a right PIN gives back -/
  limit : Nat
  /-- the PIN was presented since the last use of a key that always asks for it -/
  verified : Bool
  /-- the management key was presented -/
  authed : Bool
  /-- the management key is the factory's -/
  factoryMgm : Bool
  pukBlocked : Bool
  key : Slot → Option Held
  cert : Slot → Option Bytes
  /-- how often randomness was drawn -/
  count : Nat

/-- A map with one entry changed. -/
def update {α : Type} (f : Slot → α) (slot : Slot) (a : α) : Slot → α := fun s => if s = slot then a else f s

namespace Card

/-- A card out of the box. -/
def factory (count : Nat) : Card :=
  { pin := ascii "123456", tries := 3, limit := 3, verified := false, authed := false, factoryMgm := true, pukBlocked := false,
    key := fun _ => none, cert := fun _ => none, count }

/-- The PIN is presented: right, wrong, or blocked. -/
def presentPin (c : Card) (pin : Bytes) : Card × Bool :=
  if c.tries = 0 then (c, false)
  else if pin = c.pin then ({ c with tries := c.limit, verified := true }, true)
  else ({ c with tries := c.tries - 1, verified := false }, false)

/-- The key in the slot may be used now. -/
def mayUse (c : Card) (h : Held) : Bool := h.pinPolicy = .never || c.verified

/-- After a use of the key. -/
def used (c : Card) (h : Held) : Card :=
  { c with verified := c.verified && !decide (h.pinPolicy = .always), count := c.count + 1 }

/-- A use of the key in the slot. -/
def useKey (c : Card) (slot : Slot) (f : Bytes → Answer) : Card × Answer :=
  match c.key slot with
  | none => (c, .failed)
  | some h => if c.mayUse h then (c.used h, f h.scalar) else (c, .failed)

/-- Whether something has an answer. -/
def yes (b : Bool) : Answer := if b then .done [] else .failed

/-- What a card answers, and what becomes of it. -/
def act {p : Prims} {der : Bytes → Option Bytes} (M : Maker p der) (c : Card) : Cmd → Card × Answer
  | .verifyPin pin => ((c.presentPin pin).1, yes (c.presentPin pin).2)
  | .authenticate .factory => ({ c with authed := c.factoryMgm }, yes c.factoryMgm)
  | .authenticate .random => ({ c with authed := false }, .failed)
  | .readCertificate slot =>
    match c.cert slot with
    | some k => (c, .done k)
    | none => (c, .failed)
  | .generate slot pp tp =>
    if c.authed then
      ({ c with key := update c.key slot (some ⟨M.fresh c.count, pp, tp⟩), count := c.count + 1 },
        .done (p.point (M.fresh c.count)))
    else (c, .failed)
  | .importKey slot k tp pp =>
    if c.authed ∧ p.scalarOk k = true then ({ c with key := update c.key slot (some ⟨k, pp, tp⟩) }, .done [])
    else (c, .failed)
  | .selfSign slot k =>
    match c.useKey slot fun _ => .done [] with
    | (c', .done b) => if c'.authed then ({ c' with cert := update c'.cert slot (some k) }, .done b) else (c', .failed)
    | r => r
  | .sign slot digest => c.useKey slot fun s => .done (M.signature c.count s digest)
  | .agree slot point => c.useKey slot fun s => if p.pointOk point then .done (p.dh s point) else .failed
  | .changePin old new =>
    if (c.presentPin old).2 then ({ (c.presentPin old).1 with pin := new, verified := false }, .done [])
    else ((c.presentPin old).1, .failed)
  | .blockPuk => ({ c with pukBlocked := true }, .done [])
  | .reset => if c.tries = 0 ∧ c.pukBlocked then (factory c.count, .done []) else (c, .failed)

/-- One such card, plugged in. -/
def piv {p : Prims} {der : Bytes → Option Bytes} (M : Maker p der) : Piv Card := ⟨fun _ => true, act M⟩

/-- The PIN is this one and not blocked. -/
def Accepts (c : Card) (pin : Bytes) : Prop := c.pin = pin ∧ 0 < c.tries ∧ 0 < c.limit

/-- The card holds these two secrets, with certificates to show for them. -/
def Holds (p : Prims) (c : Card) (signing agreement : Bytes) : Prop :=
  (∃ h, c.key .signature = some h ∧ h.scalar = signing) ∧
  (∃ h, c.key .keyManagement = some h ∧ h.scalar = agreement) ∧
  c.cert .signature = some (p.point signing) ∧ c.cert .keyManagement = some (p.point agreement)

/-- With this PIN the card signs with one of these secrets and agrees on keys with the other. -/
def Usable (p : Prims) (c : Card) (pin signing agreement : Bytes) : Prop := c.Accepts pin ∧ c.Holds p signing agreement

/-- The same keys, certificates, PIN and management key. -/
def Same (c d : Card) : Prop :=
  c.key = d.key ∧ c.cert = d.cert ∧ c.pin = d.pin ∧ c.limit = d.limit ∧ c.factoryMgm = d.factoryMgm ∧
    c.pukBlocked = d.pukBlocked

end Card

/-! ## A card instead of a key file -/

/-- What two runs do, one with a card and one with a key file, differs at most in the signature of an approval: it is by the
same member, of the same message, and both signatures are the member's. -/
inductive Alike (p : Prims) : Client.Event → Client.Event → Prop
  | same (e : Client.Event) : Alike p e e
  | approval (path : String) (member : QuorumMember) (key : P256.Public) (msg sig sig' : Bytes)
      (hk : P256.Public.fromBytes p member.pubKey = .ok key) (h : key.verify p msg sig = .ok ())
      (h' : key.verify p msg sig' = .ok ()) :
      Alike p (.wrote path (Client.approvalBytes ⟨sig, member⟩)) (.wrote path (Client.approvalBytes ⟨sig', member⟩))

/-- The commands that use the operator's key, by the key they use. -/
inductive KeyCommand : (ClientCli.Signer → ClientCli.Call) → Prop
  | afterGenesis (a : Client.AfterGenesisArgs) : KeyCommand fun s => .afterGenesis s a
  | approveManifest (a : Client.ApproveArgs) : KeyCommand fun s => .approveManifest s a
  | proxyReEncryptShare (a : Client.ProxyArgs) : KeyCommand fun s => .proxyReEncryptShare s a

end Qos.Yubi
