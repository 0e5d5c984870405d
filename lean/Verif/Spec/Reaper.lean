import Verif.Model.Reaper
/-!
# What the reaper is meant to do

Vocabulary of C34. Nothing here uses the helper functions of the model.
-/
namespace Qos.Reaper
open Pool (Address)

/-- Ports of the server bridges of a manifest, in order. -/
def serverPorts (bs : List BridgeConfig) : List UInt16 :=
  bs.filterMap fun b => match b with
    | .server port _ => some port
    | .client _ _ => none

/-- Some bridge is a client bridge. -/
def HasClient (bs : List BridgeConfig) : Prop := ∃ port host, BridgeConfig.client port host ∈ bs

/-- The socket on which the host reaches the application port: same CID, that port; for Unix sockets a file beside the
core socket. -/
def SocketFor (core : Address) (port : UInt16) (a : Address) : Prop :=
  match core with
  | .vsock cid _ flags => a = .vsock cid (UInt32.ofNat port.toNat) flags
  | .unix path => a = .unix (path ++ ('.' :: (toString port.toNat).toList) ++ ".appsock".toList)

/-- Parts of a list of actions. -/
def resolvers (acts : List Act) : List String := acts.filterMap fun a => match a with
  | .resolvConf t => some t
  | _ => none

def ingresses (acts : List Act) : List (Address × UInt16) := acts.filterMap fun a => match a with
  | .ingress s p => some (s, p)
  | _ => none

def egresses (acts : List Act) : List Launch := acts.filterMap fun a => match a with
  | .egress l => some l
  | _ => none

def launches (acts : List Act) : List Launch := acts.filterMap fun a => match a with
  | .launch l => some l
  | _ => none

def exits (acts : List Act) : List Int := acts.filterMap fun a => match a with
  | .exited s => some s
  | _ => none

/-- An action of the set-up. -/
def Act.IsSetup : Act → Prop
  | .resolvConf _ | .ingress _ _ | .egress _ => True
  | _ => False

/-- The set-up a manifest asks for: exactly its resolvers, exactly its server bridges, and one egress helper if and only if
it has a client bridge. -/
structure SetUp (c : Config) (m : VersionedManifest) (acts : List Act) : Prop where
  only : ∀ a ∈ acts, a.IsSetup
  dns : resolvers acts = match m.dnsConfig with
    | none => []
    | some d => [String.join (d.resolvers.map fun r => "nameserver " ++ Ip.display r ++ "\n")]
  ports : (ingresses acts).map (·.2) = serverPorts m.bridgeConfig
  sockets : ∀ x ∈ ingresses acts, SocketFor c.core x.2 x.1 ∧ x.2.toNat < 65534
  client : HasClient m.bridgeConfig → ∃ cid port flags, c.core = .vsock cid port flags ∧ c.egress = true ∧
    egresses acts = [⟨"/egress", ["--cid", toString cid.toNat, "--vsock-to-host", "false"], [], .inherited⟩]
  noClient : ¬ HasClient m.bridgeConfig → egresses acts = []

/-- The pivot as the manifest describes it: the pivot file, the arguments of the manifest, an empty environment, output
reprinted in debug mode only. -/
structure PivotOf (c : Config) (m : VersionedManifest) (l : Launch) : Prop where
  path : l.path = c.paths.pivot
  args : l.args = m.args
  env : l.env = []
  output : l.output = if m.debugMode then .reprinted else .discarded

/-- In these files, at this moment, the manifest file decodes to an envelope with this manifest. -/
def Stores (c : Config) (m : VersionedManifest) (fs : Files) : Prop :=
  ∃ f e, fs c.paths.manifest = some f ∧ Envelope.tryFromSliceCompat f.data = some e ∧ e.manifest = m

/-- Four successive steps at which the quorum key file, the pivot file and the manifest file were there and the manifest
was read. -/
def Ready (c : Config) (m : VersionedManifest) (ts : List Tick) : Prop :=
  ∃ pre tq tp tm tl post, ts = pre ++ tq :: tp :: tm :: tl :: post ∧
    tq.files c.paths.quorum ≠ none ∧ tp.files c.paths.pivot ≠ none ∧ tm.files c.paths.manifest ≠ none ∧
    Stores c m tl.files

/-- What may follow a launch with policy `Always`: exits, each followed by the same launch, for ever (or until a system
call fails). -/
inductive Relaunches (l : Launch) : List Act → Prop
  | running : Relaunches l []
  | exited (s : Int) : Relaunches l [.exited s]
  | again (s : Int) {rest : List Act} : Relaunches l rest → Relaunches l (.exited s :: .launch l :: rest)
  | panicked : Relaunches l [.panicked]
  | exitPanicked (s : Int) : Relaunches l [.exited s, .panicked]

/-- What may follow a launch with policy `Never`: one exit, then the server is stopped and the reaper returns. -/
def RunsOnce (rest : List Act) : Prop := rest = [.panicked] ∨ ∃ s, rest <+: [.exited s, .stopServer, .returned]

end Qos.Reaper
