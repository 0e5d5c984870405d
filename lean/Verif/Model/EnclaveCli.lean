import Verif.Model.ClientFiles
import Verif.Model.HostCli
import Verif.Model.Nsm
/-!
# The command line of the enclave program and the seed file of the mock device

`/repo/src/qos_core/src/cli.rs`, except for the option table and `enclave_socket`, which are in `Model/Parser.lean`.
Simplifications: printed text is not modelled; the targets other than macOS.
-/
namespace Qos.EnclaveCli
open Parser (TokenMap single flag)
open Pool (Address)

/-- `str::lines`: split at `\n`, one `\r` before a `\n` removed, no last empty line. External: standard library, used at
cli.rs:142-142. -/
def strLines : List Char → List (List Char)
  | [] => []
  | c :: cs =>
    if c = '\n' then [] :: strLines cs
    else if c = '\r' ∧ cs.head? = some '\n' then strLines cs
    else match strLines cs with
      | [] => [[c]]
      | l :: ls => (c :: l) :: ls

/-- A character that is no white space before some words: it begins the first of them unless white space or the end follows.
Part of `str::split_whitespace`, used at cli.rs:148-148. -/
def joinWord (c : Char) (next : Option Char) (words : List (List Char)) : List (List Char) :=
  match next, words with
  | some d, w :: ws => if P256.isWhitespace d then [c] :: w :: ws else (c :: w) :: ws
  | _, ws => [c] :: ws

/-- `str::split_whitespace`. External: standard library, used at cli.rs:148-148. -/
def splitWhitespace : List Char → List (List Char)
  | [] => []
  | c :: cs => if P256.isWhitespace c then splitWhitespace cs else joinWord c cs.head? (splitWhitespace cs)

/-- `label.strip_prefix("PCR").and_then(|index| index.parse().ok())` (cli.rs:156-158). -/
def labelIndex : List Char → Option UInt16
  | 'P' :: 'C' :: 'R' :: index => (parseUnsigned (2 ^ 16) index).map UInt16.ofNat
  | _ => none

/-- One line of `seed_mock_pcrs` (cli.rs:143-169); `none` is a panic. -/
def seedLine (nsm : MockNsm.State) (line : List Char) : Option MockNsm.State :=
  let line := P256.trim (String.ofList line)
  if line = "" then some nsm
  else match splitWhitespace line.toList with
    | [valueHex, label] =>
      (labelIndex label).bind fun index =>
      match Hex.decode (utf8 (String.ofList valueHex)) with
      | .ok value => MockNsm.withPcr nsm index value
      | .error _ => none
    | _ => none

/-- `seed_mock_pcrs` (cli.rs:134-173); `none` is a panic. -/
def seedMockPcrs (file : String → Option Bytes) (nsm : MockNsm.State) (path : String) : Option MockNsm.State :=
  (file path).bind fun contents =>
  (utf8Decode contents).bind fun text =>
  (strLines text.toList).foldlM seedLine nsm

/-- The `NsmProvider` the enclave is started with. cli.rs:75-92. -/
inductive Device where
  | hardware
  | mock (start : MockNsm.State)

/-- `EnclaveOpts::nsm` (cli.rs:74-92), with the `mock` feature or without; `none` is a panic. -/
def nsm (mockFeature : Bool) (file : String → Option Bytes) (m : TokenMap) : Option Device :=
  if (flag m "mock").getD false then
    if mockFeature then
      match single m "mock-pcrs" with
      | some path => (seedMockPcrs file MockNsm.initial path).map .mock
      | none => some (.mock MockNsm.initial)
    else none
  else some .hardware

/-- `enclave_socket` (cli.rs:53-71) with the `expect` on its result; `none` is a panic. -/
def socket (m : TokenMap) : Option Address :=
  match single m "cid", single m "port", single m "usock" with
  | some c, some p, none => HostCli.newVsock c p (some 0)
  | none, none, some u => HostCli.newUnix u
  | _, _, _ => none

/-- What `Reaper::execute` gets (cli.rs:191-201). -/
structure Config where
  ephemeral : String
  quorum : String
  manifest : String
  pivot : String
  device : Device
  socket : Address

/-- The arguments of `Reaper::execute` (cli.rs:191-201) from the options; `none` is a panic of the task. The `expect`s of
cli.rs:95-123 are on options with defaults. -/
def config (mockFeature : Bool) (file : String → Option Bytes) (m : TokenMap) : Option Config :=
  (single m "ephemeral-file").bind fun ephemeral =>
  (single m "quorum-file").bind fun quorum =>
  (single m "manifest-file").bind fun manifest =>
  (single m "pivot-file").bind fun pivot =>
  (nsm mockFeature file m).bind fun device =>
  (socket m).bind fun socket =>
  some ⟨ephemeral, quorum, manifest, pivot, device, socket⟩

/-- What the enclave program does with its arguments. cli.rs:182-208. -/
inductive Outcome where
  /-- `expect("Entered invalid CLI args")` -/
  | panics
  | version
  | help
  /-- the task that should run the reaper has panicked; the process waits for ctrl+c and serves nothing -/
  | idle
  /-- the reaper runs -/
  | reaper (c : Config)

/-- `CLI::execute` (cli.rs:182-208). The program is not built with the aborting profile (Cargo.toml:124-127), so a panic of the
spawned task does not end the process. -/
def execute (mockFeature : Bool) (file : String → Option Bytes) (args : List String) : Outcome :=
  match Parser.parseOptions (Parser.enclaveTokens mockFeature) args with
  | .error _ => .panics
  | .ok m => if Parser.version m then .version else if Parser.help m then .help else
    match config mockFeature file m with
    | some c => .reaper c
    | none => .idle

end Qos.EnclaveCli
