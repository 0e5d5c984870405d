import Verif.Spec.Proxy
/-!
# What "the proxy keeps going" means

Vocabulary of C83. `Work` lists what the proxy does when it is left to itself: neither end of a session writes or closes,
nobody new connects, there is no time-out and no I/O error, and every read and write moves at least one byte. The answers of
name servers and the outcomes of connection attempts, whatever they are, count as work: both end at some time. The only
failures among these steps are the ones that the code decides on itself: a message above the size limit, the end of a closed
stream, and an answer without a TCP connection.
-/
namespace Qos.Proxy
variable {Ip : Type}

/-- What a session does by itself, without shared data. -/
inductive LocalWork (A : Addresses Ip) : Session Ip → Session Ip → Prop
  /-- at least one byte of the request is read -/
  | read (s : Session Ip) (buf : Bytes) (n m : Nat) : s.task = .reading buf → Net.progress buf = .more m → 0 < n → n ≤ m →
      s.inpRead + n ≤ s.inp.length →
      LocalWork A s { s with inpRead := s.inpRead + n, task := .reading (buf ++ (s.inp.drop s.inpRead).take n) }
  /-- the request is complete -/
  | receive (s : Session Ip) (buf req : Bytes) : s.task = .reading buf → Net.progress buf = .done req →
      LocalWork A s { s with task := .received req }
  /-- it is dispatched -/
  | dispatch (s : Session Ip) (req : Bytes) : s.task = .received req →
      LocalWork A s { s with task := (dispatch A req).next }
  /-- no resolver can be built -/
  | buildFailed (s : Session Ip) (hostname text : String) (port : UInt16) (key : Key Ip) :
      s.task = .building hostname port key →
      LocalWork A s { s with task := .replying (.proxyError (.dnsResolutionError text)) }
  /-- the resolver answers or fails -/
  | query (s : Session Ip) (hostname text : String) (port : UInt16) (r : Nat) (answer : Option (List Ip)) :
      s.task = .querying hostname port r →
      LocalWork A s { s with queries := s.queries ++ [⟨r, hostname, answer⟩], task := afterQuery A hostname port text answer }
  /-- the TCP connection is made -/
  | connected (s : Session Ip) (text : String) (addr : Ip) (port : UInt16) : s.task = .dialing text addr port →
      LocalWork A s (s.connected text addr port)
  /-- or not -/
  | refused (s : Session Ip) (text err : String) (addr : Ip) (port : UInt16) : s.task = .dialing text addr port →
      LocalWork A s (s.refused err addr port)
  /-- the answer is sent -/
  | reply (s : Session Ip) (m : Msg) : s.task = .replying m → (msgCodec.enc m).length ≤ Stream.maxPayloadSize →
      LocalWork A s { s with task := .writing (Net.encode (msgCodec.enc m)) }
  /-- at least one byte of it is written -/
  | write (s : Session Ip) (rest : Bytes) (n : Nat) : s.task = .writing rest → 0 < n → n ≤ rest.length →
      LocalWork A s { s with out := s.out ++ rest.take n, task := .writing (rest.drop n) }
  /-- all of it is written and there is a TCP connection: the pipe -/
  | answered (s : Session Ip) : s.task = .writing [] → s.held = true →
      LocalWork A s { s with task := .piping ⟨[], false, false⟩ ⟨[], false, false⟩ }
  /-- at least one byte from the enclave is read -/
  | upRead (s : Session Ip) (up down : Half) (n : Nat) : s.task = .piping up down → up.eof = false → 0 < n →
      s.inpRead + n ≤ s.inp.length →
      LocalWork A s { s with inpRead := s.inpRead + n,
                             task := .piping { up with pending := up.pending ++ (s.inp.drop s.inpRead).take n } down }
  /-- and written to the remote host -/
  | upWrite (s : Session Ip) (up down : Half) (t : Tcp) (n : Nat) : s.task = .piping up down → s.tcp = some t → 0 < n →
      n ≤ up.pending.length →
      LocalWork A s { s with tcp := some { t with sent := t.sent ++ up.pending.take n },
                             task := .piping { up with pending := up.pending.drop n } down }
  /-- the end of the input is read -/
  | upEof (s : Session Ip) (up down : Half) : s.task = .piping up down → up.eof = false → s.clientOpen = false →
      s.inpRead = s.inp.length → LocalWork A s { s with task := .piping { up with eof := true } down }
  /-- everything is written: the remote host is told -/
  | upDone (s : Session Ip) (up down : Half) (t : Tcp) : s.task = .piping up down → up.done = false → up.eof = true →
      up.pending = [] → s.tcp = some t →
      LocalWork A s { s with tcp := some { t with shut := true }, task := .piping { up with done := true } down }
  /-- at least one byte from the remote host is read -/
  | downRead (s : Session Ip) (up down : Half) (t : Tcp) (n : Nat) : s.task = .piping up down → down.eof = false →
      s.tcp = some t → 0 < n → t.taken + n ≤ t.incoming.length →
      LocalWork A s { s with tcp := some { t with taken := t.taken + n },
                             task := .piping up { down with pending := down.pending ++ (t.incoming.drop t.taken).take n } }
  /-- and written to the enclave -/
  | downWrite (s : Session Ip) (up down : Half) (n : Nat) : s.task = .piping up down → 0 < n → n ≤ down.pending.length →
      LocalWork A s { s with out := s.out ++ down.pending.take n,
                             task := .piping up { down with pending := down.pending.drop n } }
  /-- the end is read -/
  | downEof (s : Session Ip) (up down : Half) (t : Tcp) : s.task = .piping up down → down.eof = false → s.tcp = some t →
      t.remoteOpen = false → t.taken = t.incoming.length →
      LocalWork A s { s with task := .piping up { down with eof := true } }
  /-- everything is written: the enclave is told -/
  | downDone (s : Session Ip) (up down : Half) : s.task = .piping up down → down.done = false → down.eof = true →
      down.pending = [] → LocalWork A s { s with outShut := true, task := .piping up { down with done := true } }

/-- A session that ends by itself without having answered. -/
inductive GivesUp (s : Session Ip) : Prop
  /-- the announced request is too long -/
  | oversized (buf : Bytes) : s.task = .reading buf → Net.progress buf = .oversized → GivesUp s
  /-- the enclave has closed, everything it wrote has been read, and it is no request -/
  | hangup (buf : Bytes) (m : Nat) : s.task = .reading buf → Net.progress buf = .more m → s.clientOpen = false →
      s.inp.length ≤ s.inpRead → GivesUp s
  /-- the answer is too long -/
  | tooLong (m : Msg) : s.task = .replying m → Stream.maxPayloadSize < (msgCodec.enc m).length → GivesUp s

/-- What the proxy does by itself. -/
inductive Work [DecidableEq Ip] (A : Addresses Ip) : Sys Ip → Sys Ip → Prop
  /-- the accept loop gets a permit -/
  | permit (σ : Sys Ip) (l n : Nat) (g : Gate) : σ.gates[l]? = some g → g.running = true → g.held = false →
      g.permits = n + 1 → Work A σ (σ.setGate l ⟨n, true, true⟩)
  /-- and accepts a connection -/
  | accept (σ : Sys Ip) (l j : Nat) (g : Gate) (s : Session Ip) : σ.gates[l]? = some g → g.running = true → g.held = true →
      σ.sessions[j]? = some s → s.listener = l → s.task = .queued →
      Work A σ ((σ.setGate l ⟨g.permits, false, true⟩).setSession j { s with task := .reading [] })
  /-- a session goes on -/
  | session (σ : Sys Ip) (j : Nat) (s s' : Session Ip) : σ.sessions[j]? = some s → LocalWork A s s' →
      Work A σ (σ.setSession j s')
  /-- first look at the cache: found -/
  | found (σ : Sys Ip) (j r : Nat) (s : Session Ip) (hostname : String) (port : UInt16) (key : Key Ip) :
      σ.sessions[j]? = some s → s.task = .seeking hostname port key → σ.cache.lookup key = some r →
      Work A σ (σ.setSession j { s with task := .querying hostname port r })
  /-- not found -/
  | missing (σ : Sys Ip) (j : Nat) (s : Session Ip) (hostname : String) (port : UInt16) (key : Key Ip) :
      σ.sessions[j]? = some s → s.task = .seeking hostname port key → σ.cache.lookup key = none →
      Work A σ (σ.setSession j { s with task := .building hostname port key })
  /-- built, second look -/
  | insert (σ : Sys Ip) (j : Nat) (s : Session Ip) (hostname : String) (port : UInt16) (key : Key Ip) :
      σ.sessions[j]? = some s → s.task = .building hostname port key →
      Work A σ ((σ.insertResolver key).1.setSession j { s with task := .querying hostname port (σ.insertResolver key).2 })
  /-- the pipe is closed on both sides -/
  | finish (σ : Sys Ip) (j : Nat) (s : Session Ip) (up down : Half) (g : Gate) : σ.sessions[j]? = some s →
      s.task = .piping up down → up.done = true → down.done = true → σ.gates[s.listener]? = some g →
      Work A σ ((σ.setSession j (s.end true)).setGate s.listener { g with permits := g.permits + 1 })
  /-- the answer is written and there is no TCP connection -/
  | missingConnection (σ : Sys Ip) (j : Nat) (s : Session Ip) (g : Gate) : σ.sessions[j]? = some s →
      s.task = .writing [] → s.held = false → σ.gates[s.listener]? = some g →
      Work A σ ((σ.setSession j (s.end false)).setGate s.listener { g with permits := g.permits + 1 })
  /-- a session ends without an answer -/
  | giveUp (σ : Sys Ip) (j : Nat) (s : Session Ip) (g : Gate) : σ.sessions[j]? = some s → GivesUp s →
      σ.gates[s.listener]? = some g →
      Work A σ ((σ.setSession j (s.end false)).setGate s.listener { g with permits := g.permits + 1 })

/-- The same, with the time-out of `run` (10 s, proxy.rs:131-141), which may strike at any time. -/
inductive TimedWork [DecidableEq Ip] (A : Addresses Ip) : Sys Ip → Sys Ip → Prop
  | work (σ σ' : Sys Ip) : Work A σ σ' → TimedWork A σ σ'
  | timeout (σ : Sys Ip) (j : Nat) (s : Session Ip) (g : Gate) : σ.sessions[j]? = some s → s.task.active = true →
      σ.gates[s.listener]? = some g →
      TimedWork A σ ((σ.setSession j (s.end false)).setGate s.listener { g with permits := g.permits + 1 })

/-- Nothing more happens by itself. -/
def Settled (R : Sys Ip → Sys Ip → Prop) (σ : Sys Ip) : Prop := ∀ σ', ¬ R σ σ'

/-- The whole answer `m` has been written, and: no connection was made and the session has ended; or one was
made, and everything the enclave wrote after its request is at the remote host, everything the remote host sent is at the
enclave, each has been told of the other's end if there is one, and if both have ended the session has ended normally. -/
def Served (s : Session Ip) (req : Bytes) (m : Msg) : Prop :=
  ((∀ d ∈ s.dials, d.connected = false) ∧ s.tcp = none ∧ s.task = .closed false ∧
    s.out = leBytes 8 (msgCodec.enc m).length ++ msgCodec.enc m) ∨
  (∃ d ∈ s.dials, d.connected = true) ∧ ∃ t, s.tcp = some t ∧ s.out = leBytes 8 (msgCodec.enc m).length ++ msgCodec.enc m ++ t.incoming ∧
    t.sent = afterFrame s.inp req ∧ (s.clientOpen = false → t.shut = true) ∧ (t.remoteOpen = false → s.outShut = true) ∧
    (s.clientOpen = false → t.remoteOpen = false → s.task = .closed true)

/-- The request has been answered: `m` is the right answer (`Trail`), and it has been served unless it is too long for a
frame, in which case the session has ended. -/
def Answered (A : Addresses Ip) (config : Nat → Key Ip → Prop) (s : Session Ip) (req : Bytes) : Prop :=
  ∃ m, Trail A config req s.queries s.dials (some m) ∧
    (if (msgCodec.enc m).length ≤ 134217728 then Served s req m else s.task = .closed false ∧ s.out = [])

/-- What the enclave has written so far is the beginning of a request and not all of it. -/
def Incomplete (inp : Bytes) : Prop :=
  inp.length < 8 ∨ leNat (inp.take 8) ≤ 134217728 ∧ inp.length < 8 + leNat (inp.take 8)

end Qos.Proxy
