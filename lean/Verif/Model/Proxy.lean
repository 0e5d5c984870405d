import Verif.Model.Net
import Verif.Model.Wire
/-!
# `qos_net`: the TCP proxy for enclave applications

`/repo/src/qos_net/src/proxy_msg.rs`, `error.rs`, `proxy.rs`, `proxy_connection.rs`, `proxy_stream.rs`: the messages, one
session of the proxy (receive one request, resolve, dial, answer, then copy bytes both ways), the shared cache of resolvers,
the accept loop, and what the enclave side makes of an answer. Every interleaving of the sessions, every split of the byte
streams, every time-out and I/O error is a run of the transition system below.

Simplifications: a step of a task between two `await`s that does not touch shared data is one transition; a time-out (10 s
for the whole session, proxy.rs:17, 130-141), an I/O error and a panic of the task are the same transition (`abort`); the
buffer of `copy_bidirectional` has no bound; nothing is claimed to happen eventually. Outside the model: parsing and
printing of IP addresses (`Addresses`), the DNS protocol (a query is answered with any list of addresses), TCP below
connect, read, write and shutdown.
-/
namespace Qos.Proxy

/-- `QosNetError` (error.rs:10-31). -/
inductive NetError where
  | qosIoError (text : String)
  | oversizeMsg
  | oversizedPayload
  | invalidMsg
  | parseError (text : String)
  | dnsResolutionError (text : String)
  | readOverflow (received size : Nat)
  | tooManyConnections (n : Nat)
  deriving DecidableEq, Repr

/-- `ProxyMsg` (proxy_msg.rs:5-41). -/
inductive Msg where
  | proxyError (e : NetError)
  | statusRequest
  | statusResponse (n : Nat)
  | connectByName (hostname : String) (port : UInt16) (resolvers : List String) (dnsPort : UInt16)
  | connectByIp (ip : String) (port : UInt16)
  | connectResponse (remoteIp : String)
  deriving DecidableEq, Repr

/-- The variants of `QosNetError` in Borsh; `usize` is written as `u64`. error.rs:10-31. -/
def NetError.variants : List (BVariant NetError) :=
  [.data Borsh.string .qosIoError (fun | .qosIoError s => some s | _ => none),
   .unit .oversizeMsg,
   .unit .oversizedPayload,
   .unit .invalidMsg,
   .data Borsh.string .parseError (fun | .parseError s => some s | _ => none),
   .data Borsh.string .dnsResolutionError (fun | .dnsResolutionError s => some s | _ => none),
   .data (Borsh.pair (Borsh.le 8) (Borsh.le 8)) (fun x => .readOverflow x.1 x.2)
     (fun | .readOverflow a b => some (a, b) | _ => none),
   .data (Borsh.le 8) .tooManyConnections (fun | .tooManyConnections n => some n | _ => none)]

/-- `QosNetError` in Borsh. error.rs:10-31. -/
def netErrorCodec : Borsh.Codec NetError := Borsh.enum NetError.ctorIdx NetError.variants

/-- The variants of `ProxyMsg` in Borsh. proxy_msg.rs:5-41. -/
def Msg.variants : List (BVariant Msg) :=
  [.data netErrorCodec .proxyError (fun | .proxyError e => some e | _ => none),
   .unit .statusRequest,
   .data (Borsh.le 8) .statusResponse (fun | .statusResponse n => some n | _ => none),
   .data (Borsh.pair Borsh.string (Borsh.pair Borsh.u16 (Borsh.pair (Borsh.vec Borsh.string) Borsh.u16)))
     (fun x => .connectByName x.1 x.2.1 x.2.2.1 x.2.2.2)
     (fun | .connectByName h p r d => some (h, p, r, d) | _ => none),
   .data (Borsh.pair Borsh.string Borsh.u16) (fun x => .connectByIp x.1 x.2)
     (fun | .connectByIp i p => some (i, p) | _ => none),
   .data Borsh.string .connectResponse (fun | .connectResponse i => some i | _ => none)]

/-- `ProxyMsg` in Borsh. proxy_msg.rs:5-41. -/
def msgCodec : Borsh.Codec Msg := Borsh.enum Msg.ctorIdx Msg.variants

/-- `str::parse::<IpAddr>` and `IpAddr::to_string` (standard library). proxy_connection.rs:54-72, 119-126. -/
structure Addresses (Ip : Type) where
  parse : String → Option Ip
  text : Ip → String

/-- `ResolverKey` (proxy_connection.rs:25): the configuration of a resolver. -/
abbrev Key (Ip : Type) := List Ip × UInt16

/-- `MAX_ENCODED_MSG_LEN` (proxy.rs:19-20). -/
def maxEncodedMsgLen : Nat := 128 * (1024 * 1024)

/-- The text of an `AddrParseError` for an IP address. error.rs:46-51. -/
def addrParseError : NetError := .parseError "AddrParseError(Ip)"

/-- The text for an empty answer. proxy_connection.rs:131-135. -/
def emptyAnswer (hostname : String) : NetError :=
  .dnsResolutionError ("Empty response when querying for host " ++ hostname)

/-- What a request asks for, before anything is awaited. -/
inductive Action (Ip : Type) where
  /-- answer at once -/
  | answer (m : Msg)
  /-- look for a resolver with this configuration, ask it for the hostname, then dial -/
  | lookup (hostname : String) (port : UInt16) (key : Key Ip)
  /-- dial; `text` is reported as remote address -/
  | dial (text : String) (addr : Ip) (port : UInt16)
  deriving DecidableEq

/-- `new_from_name` up to `cached_resolver` (proxy_connection.rs:45-55, 116-128): the first resolver that cannot be parsed
ends it. -/
def byName {Ip : Type} (A : Addresses Ip) (hostname : String) (port : UInt16) (resolvers : List String) (dnsPort : UInt16) :
    Action Ip :=
  match resolvers.mapM A.parse with
  | none => .answer (.proxyError addrParseError)
  | some ips => .lookup hostname port (ips, dnsPort)

/-- `new_from_ip` up to `connect` (proxy_connection.rs:64-72). -/
def byIp {Ip : Type} (A : Addresses Ip) (ip : String) (port : UInt16) : Action Ip :=
  match A.parse ip with
  | none => .answer (.proxyError addrParseError)
  | some a => .dial ip a port

/-- The `match` of `process_req` on a decoded request (proxy.rs:89-109). -/
def dispatchMsg {Ip : Type} (A : Addresses Ip) : Msg → Action Ip
  | .statusRequest => .answer (.statusResponse 0)
  | .connectByName h p r d => byName A h p r d
  | .connectByIp i p => byIp A i p
  | .proxyError e => .answer (.proxyError e)
  | .statusResponse _ => .answer (.proxyError .invalidMsg)
  | .connectResponse _ => .answer (.proxyError .invalidMsg)

/-- `process_req` up to its first `await` (proxy.rs:80-112). -/
def dispatch {Ip : Type} (A : Addresses Ip) (req : Bytes) : Action Ip :=
  if req.length > maxEncodedMsgLen then .answer (.proxyError .oversizedPayload)
  else match Borsh.tryFromSlice msgCodec req with
    | none => .answer (.proxyError .invalidMsg)
    | some m => dispatchMsg A m

/-- One direction of `tokio::io::copy_bidirectional` (proxy.rs:155-159): bytes read and not yet written, whether the end of
the input was read, whether the output was shut down after it. -/
structure Half where
  pending : Bytes
  eof : Bool
  done : Bool
  deriving DecidableEq

/-- A session task (proxy.rs:212-229), at its `await` points. -/
inductive Task (Ip : Type) where
  /-- connected, not yet accepted -/
  | queued
  /-- in `recv` (proxy.rs:145), with the bytes read so far -/
  | reading (buf : Bytes)
  /-- in `process_req` -/
  | received (req : Bytes)
  /-- in `cached_resolver`, before the first look at the cache (proxy_connection.rs:146-159) -/
  | seeking (hostname : String) (port : UInt16) (key : Key Ip)
  /-- nothing found: builds a resolver, before the second look (proxy_connection.rs:161-167) -/
  | building (hostname : String) (port : UInt16) (key : Key Ip)
  /-- in `lookup_ip` (proxy_connection.rs:129-130) of a resolver -/
  | querying (hostname : String) (port : UInt16) (resolver : Nat)
  /-- in `TcpStream::connect` (proxy_connection.rs:54, 71) -/
  | dialing (text : String) (addr : Ip) (port : UInt16)
  /-- in `send` (proxy.rs:148), nothing written yet -/
  | replying (resp : Msg)
  /-- in `send`, these bytes left -/
  | writing (rest : Bytes)
  /-- in `copy_bidirectional`: from the enclave to the remote host, and back -/
  | piping (up down : Half)
  /-- ended; `true` if `run` returned `Ok` -/
  | closed (ok : Bool)

/-- The task is running, that is, it has a permit. server.rs:145-149. -/
def Task.active {Ip : Type} : Task Ip → Bool
  | .queued | .closed _ => false
  | _ => true

/-- An attempt to open a TCP connection and its outcome; only used to state properties. proxy_connection.rs:53-54, 69-71. -/
structure Dial (Ip : Type) where
  addr : Ip
  port : UInt16
  connected : Bool
  deriving DecidableEq

/-- A DNS query and its outcome (`none`: failed); only used to state properties. proxy_connection.rs:128-130. -/
structure Query (Ip : Type) where
  resolver : Nat
  hostname : String
  answer : Option (List Ip)
  deriving DecidableEq

/-- A TCP connection to a remote host (`ProxyConnection`, proxy_connection.rs:31-36): what was written to it, whether its
write side was shut down, what the remote host has sent so far, how much of it was read, whether the remote host still
sends. -/
structure Tcp where
  sent : Bytes
  shut : Bool
  incoming : Bytes
  taken : Nat
  remoteOpen : Bool
  deriving DecidableEq

/-- A connection just made. proxy_connection.rs:54, 71. -/
def Tcp.fresh : Tcp := ⟨[], false, [], 0, true⟩

/-- A connection to the proxy and its task: the two directions of the socket (as in `Net.Conn`), the TCP connection made
last and whether the proxy still has it (`tcp_connection`, proxy.rs:23-26). -/
structure Session (Ip : Type) where
  listener : Nat
  inp : Bytes
  inpRead : Nat
  clientOpen : Bool
  out : Bytes
  outShut : Bool
  task : Task Ip
  queries : List (Query Ip)
  dials : List (Dial Ip)
  tcp : Option Tcp
  held : Bool

/-- A session just connected (proxy.rs:30-32). -/
def Session.fresh {Ip : Type} (listener : Nat) : Session Ip :=
  ⟨listener, [], 0, true, [], false, .queued, [], [], none, false⟩

/-- After `process_req` has dispatched the request. proxy.rs:87-112. -/
def Action.next {Ip : Type} : Action Ip → Task Ip
  | .answer m => .replying m
  | .lookup h p k => .seeking h p k
  | .dial t a p => .dialing t a p

/-- After a query (proxy_connection.rs:129-136, 50-54): the first address is dialled. `text` is the text of a resolver
error. -/
def afterQuery {Ip : Type} (A : Addresses Ip) (hostname : String) (port : UInt16) (text : String) :
    Option (List Ip) → Task Ip
  | none => .replying (.proxyError (.dnsResolutionError text))
  | some [] => .replying (.proxyError (emptyAnswer hostname))
  | some (a :: _) => .dialing (A.text a) a port

/-- The session after a TCP connection was made (proxy.rs:51-55, 69-73). -/
def Session.connected {Ip : Type} (s : Session Ip) (text : String) (addr : Ip) (port : UInt16) : Session Ip :=
  { s with dials := s.dials ++ [⟨addr, port, true⟩], tcp := some .fresh, held := true, task := .replying (.connectResponse text) }

/-- The session after it failed. `text` is the text of the I/O error. proxy.rs:57-60, 75-78, error.rs:33-38. -/
def Session.refused {Ip : Type} (s : Session Ip) (text : String) (addr : Ip) (port : UInt16) : Session Ip :=
  { s with dials := s.dials ++ [⟨addr, port, false⟩], task := .replying (.proxyError (.qosIoError text)) }

/-- A session task ends: its TCP connection is dropped. proxy.rs:148-151, 163-165, 212-229. -/
def Session.end {Ip : Type} (s : Session Ip) (ok : Bool) : Session Ip := { s with task := .closed ok, held := false }

/-- The steps of a session that do not touch shared data, and of its two peers.
proxy.rs:34-172, proxy_connection.rs:45-74, 116-136, as cited at each transition. -/
inductive Local {Ip : Type} (A : Addresses Ip) : Session Ip → Session Ip → Prop
  /-- the client writes -/
  | clientWrite (s : Session Ip) (bytes : Bytes) : s.clientOpen = true → Local A s { s with inp := s.inp ++ bytes }
  /-- the client closes its side -/
  | clientClose (s : Session Ip) : Local A s { s with clientOpen := false }
  /-- some bytes of the request are read (stream.rs:225-254) -/
  | read (s : Session Ip) (buf : Bytes) (n m : Nat) : s.task = .reading buf → Net.progress buf = .more m → n ≤ m →
      s.inpRead + n ≤ s.inp.length →
      Local A s { s with inpRead := s.inpRead + n, task := .reading (buf ++ (s.inp.drop s.inpRead).take n) }
  /-- the request is complete (proxy.rs:145) -/
  | receive (s : Session Ip) (buf req : Bytes) : s.task = .reading buf → Net.progress buf = .done req →
      Local A s { s with task := .received req }
  /-- it is dispatched (proxy.rs:146, 80-112) -/
  | dispatch (s : Session Ip) (req : Bytes) : s.task = .received req → Local A s { s with task := (dispatch A req).next }
  /-- the resolver cannot be built (proxy_connection.rs:161, 200-206) -/
  | buildFailed (s : Session Ip) (hostname text : String) (port : UInt16) (key : Key Ip) :
      s.task = .building hostname port key → Local A s { s with task := .replying (.proxyError (.dnsResolutionError text)) }
  /-- the resolver answers or fails (proxy_connection.rs:129-136) -/
  | query (s : Session Ip) (hostname text : String) (port : UInt16) (r : Nat) (answer : Option (List Ip)) :
      s.task = .querying hostname port r →
      Local A s { s with queries := s.queries ++ [⟨r, hostname, answer⟩], task := afterQuery A hostname port text answer }
  /-- the TCP connection is made -/
  | connected (s : Session Ip) (text : String) (addr : Ip) (port : UInt16) : s.task = .dialing text addr port →
      Local A s (s.connected text addr port)
  /-- or not -/
  | refused (s : Session Ip) (text err : String) (addr : Ip) (port : UInt16) : s.task = .dialing text addr port →
      Local A s (s.refused err addr port)
  /-- `send` accepts the answer (stream.rs:199-206) -/
  | reply (s : Session Ip) (m : Msg) : s.task = .replying m → (msgCodec.enc m).length ≤ Stream.maxPayloadSize →
      Local A s { s with task := .writing (Net.encode (msgCodec.enc m)) }
  /-- some bytes of it are written -/
  | write (s : Session Ip) (rest : Bytes) (n : Nat) : s.task = .writing rest →
      Local A s { s with out := s.out ++ rest.take n, task := .writing (rest.drop n) }
  /-- all of it is written and there is a TCP connection: the pipe (proxy.rs:153-159) -/
  | answered (s : Session Ip) : s.task = .writing [] → s.held = true →
      Local A s { s with task := .piping ⟨[], false, false⟩ ⟨[], false, false⟩ }
  /-- the remote host sends -/
  | remoteSend (s : Session Ip) (t : Tcp) (bytes : Bytes) : s.tcp = some t → t.remoteOpen = true →
      Local A s { s with tcp := some { t with incoming := t.incoming ++ bytes } }
  /-- the remote host closes its side -/
  | remoteClose (s : Session Ip) (t : Tcp) : s.tcp = some t → Local A s { s with tcp := some { t with remoteOpen := false } }
  /-- bytes from the enclave are read -/
  | upRead (s : Session Ip) (up down : Half) (n : Nat) : s.task = .piping up down → up.eof = false →
      s.inpRead + n ≤ s.inp.length →
      Local A s { s with inpRead := s.inpRead + n,
                         task := .piping { up with pending := up.pending ++ (s.inp.drop s.inpRead).take n } down }
  /-- and written to the remote host -/
  | upWrite (s : Session Ip) (up down : Half) (t : Tcp) (n : Nat) : s.task = .piping up down → s.tcp = some t →
      Local A s { s with tcp := some { t with sent := t.sent ++ up.pending.take n },
                         task := .piping { up with pending := up.pending.drop n } down }
  /-- the end of the input is read -/
  | upEof (s : Session Ip) (up down : Half) : s.task = .piping up down → s.clientOpen = false → s.inpRead = s.inp.length →
      Local A s { s with task := .piping { up with eof := true } down }
  /-- everything is written: the remote host is told -/
  | upDone (s : Session Ip) (up down : Half) (t : Tcp) : s.task = .piping up down → up.eof = true → up.pending = [] →
      s.tcp = some t →
      Local A s { s with tcp := some { t with shut := true }, task := .piping { up with done := true } down }
  /-- bytes from the remote host are read -/
  | downRead (s : Session Ip) (up down : Half) (t : Tcp) (n : Nat) : s.task = .piping up down → down.eof = false →
      s.tcp = some t → t.taken + n ≤ t.incoming.length →
      Local A s { s with tcp := some { t with taken := t.taken + n },
                         task := .piping up { down with pending := down.pending ++ (t.incoming.drop t.taken).take n } }
  /-- and written to the enclave -/
  | downWrite (s : Session Ip) (up down : Half) (n : Nat) : s.task = .piping up down →
      Local A s { s with out := s.out ++ down.pending.take n,
                         task := .piping up { down with pending := down.pending.drop n } }
  /-- the end is read -/
  | downEof (s : Session Ip) (up down : Half) (t : Tcp) : s.task = .piping up down → s.tcp = some t →
      t.remoteOpen = false → t.taken = t.incoming.length →
      Local A s { s with task := .piping up { down with eof := true } }
  /-- everything is written: the enclave is told -/
  | downDone (s : Session Ip) (up down : Half) : s.task = .piping up down → down.eof = true → down.pending = [] →
      Local A s { s with outShut := true, task := .piping up { down with done := true } }

/-- A listener: free permits, whether the accept loop has one, whether the loop still runs. proxy.rs:204-210. -/
structure Gate where
  permits : Nat
  held : Bool
  running : Bool
  deriving DecidableEq

/-- The whole proxy: the sessions, the listeners, the cache (proxy_connection.rs:27-28), and all resolvers ever built, with
their configurations. -/
structure Sys (Ip : Type) where
  sessions : List (Session Ip)
  gates : List Gate
  cache : List (Key Ip × Nat)
  built : List (Key Ip)

namespace Sys
variable {Ip : Type}

/-- Start: a number of listeners with `max` permits each (proxy.rs:183-202, 208). -/
def start (listeners max : Nat) : Sys Ip := ⟨[], List.replicate listeners ⟨max, false, true⟩, [], []⟩

/-- Replace a session. State passing for the `&mut self` of proxy.rs:28-172. -/
def setSession (σ : Sys Ip) (j : Nat) (s : Session Ip) : Sys Ip := { σ with sessions := σ.sessions.set j s }

/-- Replace a listener. State passing for the loop of proxy.rs:204-231. -/
def setGate (σ : Sys Ip) (l : Nat) (g : Gate) : Sys Ip := { σ with gates := σ.gates.set l g }

/-- The second half of `cached_resolver` (proxy_connection.rs:161-167): a resolver has been built; it goes into the cache
unless somebody else was faster, and the one in the cache is used. -/
def insertResolver [DecidableEq Ip] (σ : Sys Ip) (key : Key Ip) : Sys Ip × Nat :=
  match σ.cache.lookup key with
  | some r => ({ σ with built := σ.built ++ [key] }, r)
  | none => ({ σ with built := σ.built ++ [key], cache := σ.cache ++ [(key, σ.built.length)] }, σ.built.length)

end Sys

/-- The transitions of the whole proxy. proxy.rs:183-231, proxy_connection.rs:138-167, as cited at each transition. -/
inductive Step {Ip : Type} [DecidableEq Ip] (A : Addresses Ip) : Sys Ip → Sys Ip → Prop
  /-- somebody connects -/
  | connect (σ : Sys Ip) (l : Nat) : Step A σ { σ with sessions := σ.sessions ++ [.fresh l] }
  /-- the accept loop gets a permit (server.rs:160-163) -/
  | permit (σ : Sys Ip) (l n : Nat) (g : Gate) : σ.gates[l]? = some g → g.running = true → g.held = false →
      g.permits = n + 1 → Step A σ (σ.setGate l ⟨n, true, true⟩)
  /-- and accepts a connection, which takes the permit along (server.rs:165-167, proxy.rs:211-214) -/
  | accept (σ : Sys Ip) (l j : Nat) (g : Gate) (s : Session Ip) : σ.gates[l]? = some g → g.running = true → g.held = true →
      σ.sessions[j]? = some s → s.listener = l → s.task = .queued →
      Step A σ ((σ.setGate l ⟨g.permits, false, true⟩).setSession j { s with task := .reading [] })
  /-- or fails to accept: the loop ends (the `?` of proxy.rs:211-212) -/
  | acceptFailed (σ : Sys Ip) (l : Nat) (g : Gate) : σ.gates[l]? = some g → g.running = true → g.held = true →
      Step A σ (σ.setGate l ⟨g.permits + 1, false, false⟩)
  /-- a session or one of its peers goes on -/
  | session (σ : Sys Ip) (j : Nat) (s s' : Session Ip) : σ.sessions[j]? = some s → Local A s s' →
      Step A σ (σ.setSession j s')
  /-- first look at the cache: found (proxy_connection.rs:146-159) -/
  | found (σ : Sys Ip) (j r : Nat) (s : Session Ip) (hostname : String) (port : UInt16) (key : Key Ip) :
      σ.sessions[j]? = some s → s.task = .seeking hostname port key → σ.cache.lookup key = some r →
      Step A σ (σ.setSession j { s with task := .querying hostname port r })
  /-- not found -/
  | missing (σ : Sys Ip) (j : Nat) (s : Session Ip) (hostname : String) (port : UInt16) (key : Key Ip) :
      σ.sessions[j]? = some s → s.task = .seeking hostname port key → σ.cache.lookup key = none →
      Step A σ (σ.setSession j { s with task := .building hostname port key })
  /-- built, second look (proxy_connection.rs:161-167) -/
  | insert (σ : Sys Ip) (j : Nat) (s : Session Ip) (hostname : String) (port : UInt16) (key : Key Ip) :
      σ.sessions[j]? = some s → s.task = .building hostname port key →
      Step A σ ((σ.insertResolver key).1.setSession j { s with task := .querying hostname port (σ.insertResolver key).2 })
  /-- the pipe is closed on both sides: `run` returns `Ok`, the permit is returned (proxy.rs:155-168) -/
  | finish (σ : Sys Ip) (j : Nat) (s : Session Ip) (up down : Half) (g : Gate) : σ.sessions[j]? = some s →
      s.task = .piping up down → up.done = true → down.done = true → σ.gates[s.listener]? = some g →
      Step A σ ((σ.setSession j (s.end true)).setGate s.listener { g with permits := g.permits + 1 })
  /-- the answer is written and there is no TCP connection: the task ends with `MissingProxyConnection`, its permit is returned
  (proxy.rs:169-171) -/
  | missingConnection (σ : Sys Ip) (j : Nat) (s : Session Ip) (g : Gate) : σ.sessions[j]? = some s →
      s.task = .writing [] → s.held = false → σ.gates[s.listener]? = some g →
      Step A σ ((σ.setSession j (s.end false)).setGate s.listener { g with permits := g.permits + 1 })
  /-- time-out, I/O error or oversized frame at any point: the task ends, its permit is returned (proxy.rs:130-141,
  145-151) -/
  | abort (σ : Sys Ip) (j : Nat) (s : Session Ip) (g : Gate) : σ.sessions[j]? = some s → s.task.active = true →
      σ.gates[s.listener]? = some g →
      Step A σ ((σ.setSession j (s.end false)).setGate s.listener { g with permits := g.permits + 1 })

/-- The states reachable from a start. proxy.rs:183-231. -/
inductive Reachable {Ip : Type} [DecidableEq Ip] (A : Addresses Ip) (σ0 : Sys Ip) : Sys Ip → Prop
  | refl : Reachable A σ0 σ0
  | tail {σ σ' : Sys Ip} : Reachable A σ0 σ → Step A σ σ' → Reachable A σ0 σ'

/-- What `ProxyStream::connect_by_name` and `connect_by_ip` make of the answer (proxy_stream.rs:58-71, 98-110): the address
of the remote host, or an error. -/
def readAnswer (resp : Bytes) : Except NetError String :=
  match Borsh.tryFromSlice msgCodec resp with
  | some (.connectResponse ip) => .ok ip
  | some (.proxyError e) => .error e
  | some _ => .error .invalidMsg
  | none => .error .invalidMsg

/-- The request that `connect_by_name` sends (proxy_stream.rs:51-57). -/
def nameRequest (hostname : String) (port : UInt16) (resolvers : List String) (dnsPort : UInt16) : Bytes :=
  msgCodec.enc (.connectByName hostname port resolvers dnsPort)

/-- The request that `connect_by_ip` sends (proxy_stream.rs:95-96). -/
def ipRequest (ip : String) (port : UInt16) : Bytes := msgCodec.enc (.connectByIp ip port)

end Qos.Proxy
