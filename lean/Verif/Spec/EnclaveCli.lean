import Verif.Model.EnclaveCli
import Verif.Spec.HostCli
import Verif.Spec.ClientFiles
import Verif.Spec.Device
/-!
# What the command line and the seed file of the enclave program mean

In terms of the words on the command line and of the lines of the file.
-/
namespace Qos.EnclaveCli
open Parser (Item)
open HostCli (Says Silent SaysOr SaysUnix Number)
open Client (LinesOf)

/-- White space. -/
def Blank (cs : List Char) : Prop := ∀ c ∈ cs, P256.isWhitespace c = true

/-- A word: some characters, none of them white space. -/
def Word (s : String) : Prop := s ≠ "" ∧ ∀ c ∈ s.toList, P256.isWhitespace c = false

/-- A line of exactly two words. -/
def TwoWordLine (line : String) (first second : String) : Prop :=
  Word first ∧ Word second ∧ ∃ a b c, Blank a ∧ Blank b ∧ Blank c ∧ b ≠ [] ∧
    line.toList = a ++ first.toList ++ b ++ second.toList ++ c

/-- The line gives this value, in hex, for the register of this number: `<hex> PCR<number>`, a register below 32 and a value of a
hash's length. -/
def SeedLine (line : String) (index : UInt16) (value : Bytes) : Prop :=
  ∃ hex number, TwoWordLine line hex ("PCR" ++ number) ∧ Number number index.toNat ∧ index < 32 ∧
    Hex.decode (utf8 hex) = .ok value ∧ value.length ∈ [32, 48, 64]

/-- The lines give these values, in order; lines of white space give none, and there are no others. -/
inductive SeedLines : List String → List (UInt16 × Bytes) → Prop where
  | done : SeedLines [] []
  | blank {line : String} {rest : List String} {es : List (UInt16 × Bytes)} : Blank line.toList → SeedLines rest es →
      SeedLines (line :: rest) es
  | entry {line : String} {rest : List String} {es : List (UInt16 × Bytes)} {index : UInt16} {value : Bytes} :
      SeedLine line index value → SeedLines rest es → SeedLines (line :: rest) ((index, value) :: es)

/-- The contents of a text file with these lines. -/
def TextFile (contents : Bytes) (lines : List String) : Prop := LinesOf contents (lines.map utf8)

/-- The value of a register after these seeds: the last one given for it, otherwise zero for the two commitment registers, and
not set for the others. -/
def seeded (es : List (UInt16 × Bytes)) (i : UInt16) : Option Bytes :=
  match (es.filter fun e => e.1 = i).getLast? with
  | some e => some e.2
  | none => if i = 16 ∨ i = 17 then some (List.replicate 48 0) else none

/-- A mock device started with these seeds. -/
structure SeededDevice (es : List (UInt16 × Bytes)) (d : MockNsm.State) : Prop where
  max : d.maxPcrs = 32
  unlocked : ∀ i, d.locked i = false
  pcrs : ∀ i, d.pcrs i = seeded es i

/-- The device a command line asks for: the hardware; the mock with nothing seeded; the mock with the seeds of a file. -/
def SaysDevice (mockFeature : Bool) (file : String → Option Bytes) (items : List Item) : Device → Prop
  | .hardware => .flag "mock" ∉ items
  | .mock d => mockFeature = true ∧ .flag "mock" ∈ items ∧
      ((Silent items "mock-pcrs" ∧ SeededDevice [] d) ∨
       ∃ path contents lines es, Says items "mock-pcrs" path ∧ file path = some contents ∧ TextFile contents lines ∧
         SeedLines lines es ∧ SeededDevice es d)

/-- What the enclave is started with. -/
structure EnclaveAsks (mockFeature : Bool) (file : String → Option Bytes) (items : List Item) (c : Config) : Prop where
  ephemeral : SaysOr items "ephemeral-file" "/qos.ephemeral.key" c.ephemeral
  quorum : SaysOr items "quorum-file" "/qos.quorum.key" c.quorum
  manifest : SaysOr items "manifest-file" "/qos.manifest" c.manifest
  pivot : SaysOr items "pivot-file" "/qos.pivot.bin" c.pivot
  device : SaysDevice mockFeature file items c.device
  socket : SaysUnix items c.socket ∨ ∃ cid port cs ps, c.socket = .vsock cid port 0 ∧ Says items "cid" cs ∧
    Number cs cid.toNat ∧ Says items "port" ps ∧ Number ps port.toNat

end Qos.EnclaveCli
