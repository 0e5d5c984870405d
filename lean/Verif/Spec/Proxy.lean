import Verif.Model.Proxy
/-!
# What a proxy session may do for a request, and what it answers

Independent of the steps of the proxy: a request (the first frame on the connection), the DNS queries and TCP connections
made for it, and the answer.
-/
namespace Qos.Proxy
variable {Ip : Type}

/-- The connection begins with a frame that carries `req`: 8 bytes length (little endian), then the bytes; at most 128 MiB. -/
def FirstFrame (inp req : Bytes) : Prop := req.length ≤ 134217728 ∧ leBytes 8 req.length ++ req <+: inp

/-- What follows the first frame. -/
def afterFrame (inp req : Bytes) : Bytes := inp.drop (8 + req.length)

/-- `req` is the encoding of `m`. -/
def Encodes (req : Bytes) (m : Msg) : Prop := req = msgCodec.enc m ∧ msgCodec.ok m

/-- The resolver addresses of a request are all addresses, namely these. -/
def AllParse (A : Addresses Ip) (texts : List String) (ips : List Ip) : Prop := texts.map A.parse = ips.map some

/-- Queries made, TCP connections tried, and the answer (`none`: not yet) for a request. `config r key` says that resolver
`r` asks the name servers `key.1` at port `key.2`. -/
inductive Trail (A : Addresses Ip) (config : Nat → Key Ip → Prop) (req : Bytes) :
    List (Query Ip) → List (Dial Ip) → Option Msg → Prop
  /-- nothing done yet -/
  | nothing : Trail A config req [] [] none
  /-- not a message: `InvalidMsg` -/
  | unreadable : (∀ m, ¬ Encodes req m) → Trail A config req [] [] (some (.proxyError .invalidMsg))
  /-- the status is always 0 -/
  | status : Encodes req .statusRequest → Trail A config req [] [] (some (.statusResponse 0))
  /-- an error is sent back -/
  | echo (e : NetError) : Encodes req (.proxyError e) → Trail A config req [] [] (some (.proxyError e))
  /-- responses are not requests -/
  | notRequest (m : Msg) : Encodes req m → (∃ n, m = .statusResponse n) ∨ (∃ ip, m = .connectResponse ip) →
      Trail A config req [] [] (some (.proxyError .invalidMsg))
  /-- by address: not an address -/
  | badIp (ip : String) (port : UInt16) : Encodes req (.connectByIp ip port) → A.parse ip = none →
      Trail A config req [] [] (some (.proxyError addrParseError))
  /-- by address: connected to exactly this address and port -/
  | ipConnected (ip : String) (port : UInt16) (a : Ip) : Encodes req (.connectByIp ip port) → A.parse ip = some a →
      Trail A config req [] [⟨a, port, true⟩] (some (.connectResponse ip))
  /-- by address: tried to -/
  | ipRefused (ip text : String) (port : UInt16) (a : Ip) : Encodes req (.connectByIp ip port) → A.parse ip = some a →
      Trail A config req [] [⟨a, port, false⟩] (some (.proxyError (.qosIoError text)))
  /-- by name: one of the resolvers is not an address -/
  | badResolver (h : String) (port : UInt16) (rs : List String) (dp : UInt16) : Encodes req (.connectByName h port rs dp) →
      (∃ r ∈ rs, A.parse r = none) → Trail A config req [] [] (some (.proxyError addrParseError))
  /-- by name: no resolver could be set up -/
  | noResolver (h text : String) (port : UInt16) (rs : List String) (dp : UInt16) (ips : List Ip) :
      Encodes req (.connectByName h port rs dp) → AllParse A rs ips →
      Trail A config req [] [] (some (.proxyError (.dnsResolutionError text)))
  /-- by name: the given resolvers were asked for this name and failed -/
  | queryFailed (h text : String) (port : UInt16) (rs : List String) (dp : UInt16) (ips : List Ip) (r : Nat) :
      Encodes req (.connectByName h port rs dp) → AllParse A rs ips → config r (ips, dp) →
      Trail A config req [⟨r, h, none⟩] [] (some (.proxyError (.dnsResolutionError text)))
  /-- or know no address -/
  | queryEmpty (h : String) (port : UInt16) (rs : List String) (dp : UInt16) (ips : List Ip) (r : Nat) :
      Encodes req (.connectByName h port rs dp) → AllParse A rs ips → config r (ips, dp) →
      Trail A config req [⟨r, h, some []⟩] []
        (some (.proxyError (.dnsResolutionError ("Empty response when querying for host " ++ h))))
  /-- or answered; nothing dialled yet -/
  | queried (h : String) (port : UInt16) (rs : List String) (dp : UInt16) (ips : List Ip) (r : Nat) (a : Ip) (as : List Ip) :
      Encodes req (.connectByName h port rs dp) → AllParse A rs ips → config r (ips, dp) →
      Trail A config req [⟨r, h, some (a :: as)⟩] [] none
  /-- connected to the first address they gave, at the requested port -/
  | nameConnected (h : String) (port : UInt16) (rs : List String) (dp : UInt16) (ips : List Ip) (r : Nat) (a : Ip)
      (as : List Ip) : Encodes req (.connectByName h port rs dp) → AllParse A rs ips → config r (ips, dp) →
      Trail A config req [⟨r, h, some (a :: as)⟩] [⟨a, port, true⟩] (some (.connectResponse (A.text a)))
  /-- tried to -/
  | nameRefused (h text : String) (port : UInt16) (rs : List String) (dp : UInt16) (ips : List Ip) (r : Nat) (a : Ip)
      (as : List Ip) : Encodes req (.connectByName h port rs dp) → AllParse A rs ips → config r (ips, dp) →
      Trail A config req [⟨r, h, some (a :: as)⟩] [⟨a, port, false⟩] (some (.proxyError (.qosIoError text)))

/-- Bytes that went through a session. Before the answer: none. With it: what was written to the enclave side is the answer
frame, then what the remote host sent; what was written to the remote host is what followed the request; and there is a
remote host only if a connection was made. An answer that is too long for a frame is not written. -/
def Traffic (s : Session Ip) (req : Bytes) : Option Msg → Prop
  | none => s.out = [] ∧ s.tcp = none
  | some m => (s.tcp.isSome ↔ ∃ d ∈ s.dials, d.connected = true) ∧
      (134217728 < (msgCodec.enc m).length → s.out = []) ∧
      (s.tcp = none → s.out <+: leBytes 8 (msgCodec.enc m).length ++ msgCodec.enc m) ∧
      ∀ t, s.tcp = some t → s.out <+: leBytes 8 (msgCodec.enc m).length ++ msgCodec.enc m ++ t.incoming ∧
        t.sent <+: afterFrame s.inp req

/-- No request has arrived, and nothing was done. -/
def Unheard (s : Session Ip) : Prop := s.queries = [] ∧ s.dials = [] ∧ s.tcp = none ∧ s.out = []

/-- Everything that a session has done, in terms of its request. -/
def Explained (A : Addresses Ip) (config : Nat → Key Ip → Prop) (s : Session Ip) : Prop :=
  Unheard s ∨ ∃ req answer, FirstFrame s.inp req ∧ Trail A config req s.queries s.dials answer ∧ Traffic s req answer

/-- A connection that was made, used and closed on both sides, with nothing missing in either direction. -/
def Complete (A : Addresses Ip) (config : Nat → Key Ip → Prop) (s : Session Ip) : Prop :=
  ∃ req m t, FirstFrame s.inp req ∧ Trail A config req s.queries s.dials (some m) ∧ s.tcp = some t ∧
    (∃ d ∈ s.dials, d.connected = true) ∧ s.clientOpen = false ∧ t.sent = afterFrame s.inp req ∧ t.remoteOpen = false ∧
    s.out = leBytes 8 (msgCodec.enc m).length ++ msgCodec.enc m ++ t.incoming

/-- How many sessions a listener serves. -/
def Sys.serving (σ : Sys Ip) (l : Nat) : Nat := σ.sessions.countP fun s => s.listener = l && s.task.active

end Qos.Proxy
