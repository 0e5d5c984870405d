import Verif.Model.Ip
import Verif.Model.Parser
import Verif.Model.Pool
/-!
# The command lines of the host, of the bridge and of the network proxy

`/repo/src/qos_host/src/cli.rs`, `/repo/src/qos_bridge/src/cli.rs`, `/repo/src/qos_net/src/cli.rs`: which options there are,
and what is started with them. Simplifications: printed text is not modelled; the targets other than macOS.
-/
namespace Qos.HostCli
open Parser (Token TokenMap single flag)
open Pool (Address)
open NChooseK (Overflow)

/-! ## IPv4 addresses -/

/-- `Ipv4Addr::from_str`: at most 15 bytes, four octets with dots between, nothing else. External: standard library, used at
qos_host/src/cli.rs:101-107 and qos_bridge/src/host.rs:152-157. -/
def parseIpv4 (s : String) : Option Ipv4 :=
  if 15 < (utf8 s).length then none else
  (readIpv4 s.toList).bind fun (i, r) => if r = [] then some i else none

/-! ## Common -/

/-- What a program does with its arguments. qos_host/src/cli.rs:191-213, qos_bridge/src/cli.rs:160-222,
qos_net/src/cli.rs:97-125. -/
inductive Started (C : Type) where
  | version
  | help
  | runs (c : C)
  | panics

/-- `parse(..).expect(..)`, then version, help, or the program itself. qos_host/src/cli.rs:77-82, 191-213,
qos_bridge/src/cli.rs:66-71, 160-222, qos_net/src/cli.rs:34-39, 97-125. -/
def start {C : Type} (tokens : List Token) (config : TokenMap → Option C) (args : List String) : Started C :=
  match Parser.parseOptions tokens args with
  | .error _ => .panics
  | .ok m => if Parser.version m then .version else if Parser.help m then .help else
    match config m with
    | some c => .runs c
    | none => .panics

/-- `bool::from_str`. External: standard library, used at qos_host/src/cli.rs:168-177, qos_bridge/src/cli.rs:140-149. -/
def parseBool (s : String) : Option Bool :=
  if s = "true" then some true else if s = "false" then some false else none

/-- `VMADDR_FLAG_TO_HOST` or `VMADDR_NO_FLAGS`. qos_host/src/cli.rs:179-186, qos_bridge/src/cli.rs:151-157. -/
def flagByte (b : Bool) : UInt8 := if b then 1 else 0

/-- `to_host_flag`, with the value used if the option is not given; `none` is a panic. qos_host/src/cli.rs:164-187 (not given:
no flag), qos_bridge/src/cli.rs:137-158 (not given: flag). -/
def toHostFlag (unset : Bool) (m : TokenMap) : Option UInt8 :=
  match single m "vsock-to-host" with
  | none => some (flagByte unset)
  | some s => (parseBool s).map flagByte

/-- `SocketAddress::new_unix` (io/mod.rs:93-101); `none` is a panic. -/
def newUnix (path : String) : Option Address :=
  match Pool.unixAddr path.toList with
  | .ok a => some a
  | .error _ => none

/-- `SocketAddress::new_vsock` of two parsed numbers (qos_host/src/cli.rs:136-145, qos_net/src/cli.rs:62-73); `none` is an
error that ends the program. -/
def newVsock (cid port : String) (flags : Option UInt8) : Option Address :=
  match parseUnsigned (2 ^ 32) cid.toList, parseUnsigned (2 ^ 32) port.toList, flags with
  | some c, some p, some f => some (.vsock (UInt32.ofNat c) (UInt32.ofNat p) f)
  | _, _, _ => none

/-! ## qos_host -/

/-- `HostParser` (qos_host/src/cli.rs:22-70). -/
def hostTokens : List Token :=
  [{ name := "cid", takesValue := true, forbids := ["usock"], requires := some "port" },
   { name := "port", takesValue := true, forbids := ["usock"], requires := some "cid" },
   { name := "usock", takesValue := true, forbids := ["port", "cid"] },
   { name := "host-ip", takesValue := true, required := true },
   { name := "host-port", takesValue := true, required := true },
   { name := "endpoint-base-path", takesValue := true },
   { name := "socket-timeout", takesValue := true, default := some "20000" },
   { name := "vsock-to-host", takesValue := true, forbids := ["usock"] }]

/-- `enclave_socket` (qos_host/src/cli.rs:121-150); `none` is an error or a panic. -/
def hostSocket (m : TokenMap) : Option Address :=
  match single m "cid", single m "port", single m "usock" with
  | some c, some p, none => newVsock c p (toHostFlag false m)
  | none, none, some u => newUnix u
  | _, _, _ => none

/-- What `HostServer::new` gets (qos_host/src/cli.rs:202-208). -/
structure HostConfig where
  socket : Address
  timeoutMs : Nat
  ip : Ipv4
  port : UInt16
  basePath : Option String
  deriving DecidableEq

/-- `host_addr`'s port (qos_host/src/cli.rs:104-105). -/
def parsePort (s : String) : Option UInt16 := (parseUnsigned (2 ^ 16) s.toList).map UInt16.ofNat

/-- `execute` without version or help (qos_host/src/cli.rs:202-211). -/
def hostConfig (m : TokenMap) : Option HostConfig :=
  (hostSocket m).bind fun socket =>
  (parseUnsigned (2 ^ 64) ((single m "socket-timeout").getD "20000").toList).bind fun timeout =>
  ((single m "host-ip").bind parseIpv4).bind fun ip =>
  ((single m "host-port").bind parsePort).bind fun port =>
  some ⟨socket, timeout, ip, port, single m "endpoint-base-path"⟩

/-- `CLI::execute` of qos_host (qos_host/src/cli.rs:191-213). -/
def host (args : List String) : Started HostConfig := start hostTokens hostConfig args

/-! ## qos_bridge -/

/-- `HostParser` of qos_bridge (qos_bridge/src/cli.rs:17-57). -/
def bridgeTokens : List Token :=
  [{ name := "control-url", takesValue := true },
   { name := "cid", takesValue := true, forbids := ["usock"] },
   { name := "usock", takesValue := true, forbids := ["cid"] },
   { name := "host-port-override", takesValue := true },
   { name := "vsock-to-host", takesValue := true, forbids := ["usock"] },
   { name := "egress-host" },
   { name := "egress-bin-path", takesValue := true }]

/-- `enclave_socket` of qos_bridge (qos_bridge/src/cli.rs:107-124): the port is a placeholder. -/
def bridgeSocket (m : TokenMap) : Option Address :=
  match single m "cid", single m "usock" with
  | some c, none => newVsock c "3001" (toHostFlag true m)
  | none, some u => newUnix u
  | _, _ => none

/-- What `BridgeServer::new` gets (qos_bridge/src/cli.rs:209-216). -/
structure BridgeConfig where
  socket : Address
  controlUrl : String
  hostPortOverride : Option UInt16
  egressBinPath : Option String
  deriving DecidableEq

/-- `execute_ingress` without version or help (qos_bridge/src/cli.rs:208-217). -/
def bridgeConfig (m : TokenMap) : Option BridgeConfig :=
  (bridgeSocket m).bind fun socket => (single m "control-url").bind fun url =>
    some ⟨socket, url, (single m "host-port-override").bind parsePort, single m "egress-bin-path"⟩

/-- `Cli::execute_ingress` (qos_bridge/src/cli.rs:199-222). -/
def bridge (args : List String) : Started BridgeConfig := start bridgeTokens bridgeConfig args

/-- What the egress program runs as: host or enclave side, with the cid and the flags. qos_bridge/src/cli.rs:170-195. -/
structure EgressConfig where
  hostSide : Bool
  cid : UInt32
  flags : UInt8
  deriving DecidableEq

/-- `cid` (qos_bridge/src/cli.rs:126-133); `none` is a panic. -/
def parseCid (s : String) : Option UInt32 := (parseUnsigned (2 ^ 32) s.toList).map UInt32.ofNat

/-- `execute_egress` without version or help, with the `egress` feature (qos_bridge/src/cli.rs:170-195). -/
def egressConfig (m : TokenMap) : Option EgressConfig :=
  ((single m "cid").bind parseCid).bind fun cid => (toHostFlag true m).bind fun flags =>
    some ⟨(flag m "egress-host").getD false, cid, flags⟩

/-- `Cli::execute_egress` (qos_bridge/src/cli.rs:162-195). -/
def egress (args : List String) : Started EgressConfig := start bridgeTokens egressConfig args

/-! ## qos_net -/

/-- `ProxyParser` (qos_net/src/cli.rs:128-171). -/
def proxyTokens : List Token :=
  [{ name := "cid", takesValue := true, forbids := ["usock"], requires := some "port" },
   { name := "port", takesValue := true, forbids := ["usock"], requires := some "cid" },
   { name := "usock", takesValue := true, forbids := ["port", "cid"] },
   { name := "max-connections", takesValue := true, default := some "256" },
   { name := "pool-size", takesValue := true, forbids := ["port", "cid"], default := some "1" }]

/-- The address of `async_pool` (qos_net/src/cli.rs:57-83); `none` is a panic. -/
def proxySocket (m : TokenMap) : Option Address :=
  match single m "cid", single m "port", single m "usock" with
  | some c, some p, none => newVsock c p (some 0)
  | none, none, some u => newUnix u
  | _, _, _ => none

/-- The sockets that the proxy listens on and the number of connections. qos_net/src/cli.rs:110-115. -/
structure ProxyConfig where
  pool : Pool.Pool
  maxConnections : Nat

/-- `StreamPool::new` of the address (qos_net/src/cli.rs:72, 77; pool.rs:72-95); `none` is an error, on which the program
panics. -/
def newPool (o : Overflow) (a : Address) (size : Nat) : Option Pool.Pool :=
  match Pool.Pool.new o a (UInt8.ofNat size) with
  | .ok p => some p
  | .error _ => none

/-- `execute` without version or help (qos_net/src/cli.rs:41-84, 109-116). -/
def proxyConfig (o : Overflow) (m : TokenMap) : Option ProxyConfig :=
  ((single m "pool-size").bind fun s => parseUnsigned (2 ^ 8) s.toList).bind fun size =>
  (proxySocket m).bind fun a =>
  (newPool o a size).bind fun pool =>
  (parseUnsigned (2 ^ 64) ((single m "max-connections").getD "256").toList).bind fun max =>
  some ⟨pool, max⟩

/-- `CLI::execute` of qos_net (qos_net/src/cli.rs:97-125). -/
def proxy (o : Overflow) (args : List String) : Started ProxyConfig := start proxyTokens (proxyConfig o) args

end Qos.HostCli
