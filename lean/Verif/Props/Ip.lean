import Verif.Lemmas.ClientCli
import Verif.Props.ReaperEnclave
import Verif.Props.Proxy
/-!
# C61: IP addresses

Which texts are accepted as addresses, how addresses are written, and that the addresses of the DNS resolvers survive all
the way from the operator's command line to the file the pivot's resolver reads.
-/
namespace Qos.Ip
open Reaper (SetUp Act Launch Tick Config)
open Lifecycle

/-! ## Texts -/

/-- C61: a text is accepted as an IP address exactly if it is one of the texts of RFC 4291 for that address. -/
theorem parse_exact (s : String) (a : IpAddr) : parse s = some a ↔ Denotes s.toList a := parse_iff

/-- C61: a text denotes at most one address. -/
theorem denotes_unique {t : List Char} {a b : IpAddr} (ha : Denotes t a) (hb : Denotes t b) : a = b := by
  rw [← String.toList_ofList (l := t)] at ha hb
  have h := parse_iff.mpr ha
  rw [parse_iff.mpr hb] at h
  exact (Option.some.inj h).symm

/-- C61: an address is written in the text RFC 5952 recommends, and reads back as the same address. -/
theorem display_exact (a : IpAddr) : Recommended (display a).toList a ∧ parse (display a) = some a :=
  ⟨display_recommended a, parse_display a⟩

/-- C61: different addresses have different texts. -/
theorem display_injective {a b : IpAddr} (h : display a = display b) : a = b := by
  have h1 := parse_display a
  rw [h, parse_display b] at h1
  exact (Option.some.inj h1).symm

/-! ## The manifest -/

/-- C61: a resolver in a manifest is accepted exactly if it is a JSON string that denotes an address; and it is written as
that address's recommended text, so two manifests that differ only in how an address is spelled are the same manifest. -/
theorem manifest_resolver (v : Json) (a : IpAddr) : JCodec.ipAddr.dec v = some a ↔ ∃ s, v = .str s ∧ Denotes s.toList a := by
  constructor
  · intro h
    cases v with
    | str s => exact ⟨s, rfl, parse_iff.mp h⟩
    | _ => cases h
  · rintro ⟨s, rfl, h⟩
    exact parse_iff.mpr h

/-- The same for the list of resolvers. -/
theorem manifest_resolvers (vs : List Json) (d : DnsConfig) :
    JCodec.dnsConfig.dec (.obj [("resolvers", .arr vs)]) = some d ↔
      List.Forall₂ (fun v a => ∃ s, v = .str s ∧ Denotes s.toList a) vs d.resolvers := by
  have key : JCodec.dnsConfig.dec (.obj [("resolvers", .arr vs)]) = (JCodec.decAll JCodec.ipAddr vs).map DnsConfig.mk := by
    cases h : JCodec.decAll JCodec.ipAddr vs <;>
      simp [JCodec.dnsConfig, JCodec.struct, JCodec.entriesOf, JCodec.decEntries, Fields.imap, Fields.req, JCodec.vec, h, Json.lookup]
  rw [key]
  have all : ∀ (vs : List Json) (l : List IpAddr), JCodec.decAll JCodec.ipAddr vs = some l ↔
      List.Forall₂ (fun v a => ∃ s, v = .str s ∧ Denotes s.toList a) vs l := by
    intro vs
    induction vs with
    | nil => intro l; cases l <;> simp [JCodec.decAll]
    | cons v vs ih =>
      intro l
      cases l with
      | nil =>
        simp only [JCodec.decAll]
        constructor
        · intro h; split at h <;> cases h
        · intro h; cases h
      | cons a l =>
        rw [List.forall₂_cons, ← manifest_resolver, ← ih]
        simp only [JCodec.decAll]
        constructor
        · intro h
          split at h
          · rename_i h1 h2
            cases h
            exact ⟨h1, h2⟩
          · cases h
        · rintro ⟨h1, h2⟩
          rw [h1, h2]
  cases hd : JCodec.decAll JCodec.ipAddr vs with
  | none =>
    simp only [Option.map_none]
    constructor
    · intro h; cases h
    · intro h
      rw [(all _ _).mpr h] at hd
      cases hd
  | some l =>
    simp only [Option.map_some, Option.some.injEq]
    rw [← all, hd]
    constructor
    · rintro rfl; rfl
    · intro h; cases h; rfl

/-! ## `/etc/resolv.conf` -/

/-- The lines of a text. -/
def lines : List Char → List (List Char)
  | [] => []
  | c :: cs => if c = '\n' then [] :: lines cs else
    match lines cs with
    | [] => [[c]]
    | l :: ls => (c :: l) :: ls

/-- A line of `resolv.conf` that names a server. -/
def Names (line : List Char) (a : IpAddr) : Prop := ∃ t, line = "nameserver ".toList ++ t ∧ Denotes t a ∧ Recommended t a

theorem lines_cons {t r : List Char} (h : '\n' ∉ t) : lines (t ++ '\n' :: r) = t :: lines r := by
  induction t with
  | nil => simp [lines]
  | cons c t ih =>
    simp only [List.mem_cons, not_or] at h
    rw [List.cons_append, lines, if_neg (Ne.symm h.1), ih h.2]

theorem resolv_conf_lines (rs : List IpAddr) : List.Forall₂ Names (lines (Reaper.resolvConf rs).toList) rs := by
  induction rs with
  | nil => exact .nil
  | cons a rs ih =>
    have hn : '\n' ∉ "nameserver ".toList ++ (display a).toList := by
      intro h
      rcases List.mem_append.mp h with h | h
      · revert h; decide
      · have := denotes_chars (parse_iff.mp (parse_display a)) _ h
        revert this; decide
    have e : (Reaper.resolvConf (a :: rs)).toList =
        ("nameserver ".toList ++ (display a).toList) ++ '\n' :: (Reaper.resolvConf rs).toList := by
      unfold Reaper.resolvConf
      rw [List.map_cons, String.join_cons, String.toList_append, String.toList_append, String.toList_append]
      simp only [List.append_assoc]
      rfl
    rw [e, lines_cons hn]
    exact .cons ⟨_, rfl, parse_iff.mp (parse_display a), display_recommended a⟩ ih

/-- C61: if a pivot has been started, then before it `/etc/resolv.conf` was written exactly if the approved manifest has a DNS
configuration, once, and its lines name exactly the approved resolvers, in order, and nothing else: no text of a manifest
can put anything else into that file. -/
theorem approved_resolvers_written {E : Env} {fs0 : Files} {h : List (Msg × Msg)} {s : St} {c : Config} {ts : List Tick}
    (H : History E fs0 h s) (hc : c.paths = E.paths) (hs : Reaper.Sees fs0 s ts) {l : Launch} (hl : Act.launch l ∈ (Reaper.run c ts).2) :
    ∃ (e : Envelope) (pivot : Bytes) (su rest : List Act) (l' : Launch), (∃ r ∈ requests h, r.BootsWith e pivot) ∧
      ApprovedBoot E.prims e pivot ∧ (Reaper.run c ts).2 = su ++ .launch l' :: rest ∧ Reaper.PivotOf c e.manifest l' ∧
      (e.manifest.dnsConfig = none → Reaper.resolvers su = []) ∧
      ∀ d, e.manifest.dnsConfig = some d → ∃ file, Reaper.resolvers su = [file] ∧
        List.Forall₂ Names (lines file.toList) d.resolvers := by
  obtain ⟨e, pivot, su, rest, l', g1, g2, g3, g4, g5, -⟩ := Reaper.setup_approved H hc hs hl
  refine ⟨e, pivot, su, rest, l', g1, g2, g3, g5, ?_, ?_⟩
  · intro hn
    rw [g4.dns, hn]
  · intro d hd
    have := g4.dns
    rw [hd] at this
    exact ⟨_, this, resolv_conf_lines d.resolvers⟩

/-! ## The network proxy -/

/-- The addresses of the standard library, as the network proxy uses them. qos_net/src/proxy_connection.rs:50-72, 119-127. -/
def addresses : Proxy.Addresses IpAddr := ⟨parse, display⟩

/-- C61: with the standard library's addresses, the proxy dials only the address that the request's text denotes, or one that
was asked for by name through resolvers that the request's texts denote. -/
theorem proxy_dials_denoted {listeners max : Nat} {σ : Proxy.Sys IpAddr}
    (hr : Proxy.Reachable addresses (Proxy.Sys.start listeners max) σ) {s : Proxy.Session IpAddr} (hs : s ∈ σ.sessions) :
    ∀ d ∈ s.dials, ∃ req, Proxy.FirstFrame s.inp req ∧
      ((∃ ip : String, Proxy.Encodes req (.connectByIp ip d.port) ∧ Denotes ip.toList d.addr) ∨
       ∃ h rs dp ips r more, Proxy.Encodes req (.connectByName h d.port rs dp) ∧
         List.Forall₂ (fun (t : String) a => Denotes t.toList a) rs ips ∧
         σ.built[r]? = some (ips, dp) ∧ s.queries = [⟨r, h, some (d.addr :: more)⟩]) := by
  intro d hd
  obtain ⟨req, h1, ⟨ip, h2, h3⟩ | ⟨h, rs, dp, ips, r, more, h2, h3, h4⟩⟩ := (Proxy.dials_only_what_was_asked hr hs).2 d hd
  · exact ⟨req, h1, .inl ⟨ip, h2, parse_iff.mp h3⟩⟩
  · refine ⟨req, h1, .inr ⟨h, rs, dp, ips, r, more, h2, ?_, h4⟩⟩
    unfold Proxy.AllParse at h3
    clear h2 h4
    induction rs generalizing ips with
    | nil => cases ips with
      | nil => exact .nil
      | cons a ips => cases h3
    | cons t rs ih => cases ips with
      | nil => cases h3
      | cons a ips =>
        simp only [List.map_cons, List.cons.injEq] at h3
        exact .cons (parse_iff.mp h3.1) (ih _ h3.2)

/-! ## Concrete cases -/

/-- `approved_resolvers_written` applies to the toy enclave, whose pivot is started. -/
example : ∃ (h : List (Msg × Msg)) (s : St) (c : Config) (ts : List Tick) (l : Launch),
    History toyEnv noFiles h s ∧ c.paths = toyEnv.paths ∧ Reaper.Sees noFiles s ts ∧ Act.launch l ∈ (Reaper.run c ts).2 := by
  obtain ⟨h, s, c, t, ts, l, new, h1, h2, h3, h4, h5⟩ := Reaper.toy_launch
  exact ⟨h, s, c, ts ++ [t], l, h1, h2, h3, by rw [h4]; exact List.mem_append_right _ h5⟩

/-- The addresses of the project's own tests, in the file. -/
example : (parse "1.1.1.1").bind (fun a => (parse "2606:4700:4700:0::1111").map fun b => Reaper.resolvConf [a, b]) =
    some "nameserver 1.1.1.1\nnameserver 2606:4700:4700::1111\n" := by decide +kernel

/-- Several texts of one address, one of which is written. -/
example : ["1:0:0:2:0:0:0:3", "0001::2:0:0:0:3", "1:0:0:2::3", "1:0:0:2:0:0:0.0.0.3"].map (fun s => (parse s).map display) =
    List.replicate 4 (some "1:0:0:2::3") := by decide +kernel

/-- Texts that denote no address. -/
example : ["", "1.1.1.1 ", "01.1.1.1", "1.1.1", "1::2::3", "1:2:3:4:5:6:7:8:9", "12345::", "1:2:3:4:5:6:7:1.2.3.4", "fe80::1%eth0",
    "[::1]", "1.1.1.1\nsearch evil", "dns.example"].map parse = List.replicate 12 none := by decide +kernel

end Qos.Ip
