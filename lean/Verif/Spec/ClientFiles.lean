import Verif.Model.ClientFiles
import Verif.Spec.Quorum
/-!
# What the operator's files say

Independent reading of the key set directories, PCR files and confirmations; the client's parsing functions are
not used, apart from the standard library's notions of lines, trimming and decimal numbers, and hexadecimal
decoding (claim C22).
-/
namespace Qos.Client

/-- The file contains a public key in hexadecimal, possibly surrounded by white space. -/
def KeyText (p : Prims) (contents key : Bytes) : Prop :=
  ∃ text, utf8Decode contents = some text ∧ Hex.decode (utf8 (P256.trim text)) = .ok key ∧
    key.length = 130 ∧ p.pointOk (key.take 65) ∧ p.pointOk (key.drop 65)

/-- Names like `alice.pub`, not counting the `._` files macOS leaves behind. -/
def IsKeyName (name : String) : Prop :=
  (name = "pub" ∨ ∃ stem, name = stem ++ ".pub") ∧ ¬ ∃ r, name = "._" ++ r

/-- The part of the name before the first dot. -/
def AliasOf (name a : String) : Prop :=
  '.' ∉ a.toList ∧ (name = a ∨ ∃ r, name = a ++ "." ++ r)

/-- Order of members: by alias, then by key, both compared bytewise. -/
def MemberOrder (a b : QuorumMember) : Prop :=
  utf8 a.aliasName < utf8 b.aliasName ∨ (a.aliasName = b.aliasName ∧ a.pubKey ≤ b.pubKey)

/-- One line without its line feed: a carriage return right before the line feed belongs to the line ending. -/
def LineBody (l body : Bytes) : Prop := l = body ++ [13] ∨ (l = body ∧ l.getLast? ≠ some 13)

/-- The lines of a file: each ends in a line feed, except that the last one may lack it. `rawLines` computes exactly these
(theorem `lines_exact`). -/
inductive LinesOf : Bytes → List Bytes → Prop where
  | done : LinesOf [] []
  | last {l : Bytes} : l ≠ [] → 10 ∉ l → LinesOf l [l]
  | more {l body rest : Bytes} {ls : List Bytes} : 10 ∉ l → LineBody l body → LinesOf rest ls →
      LinesOf (l ++ 10 :: rest) (body :: ls)

/-- The first line of the contents, trimmed, is this decimal number. -/
def NumberText (contents : Bytes) (n : UInt32) : Prop :=
  ∃ l rest text, rawLines contents = l :: rest ∧ utf8Decode l = some text ∧
    parseUnsigned (2 ^ 32) (P256.trim text).toList = some n.toNat

/-- Member `m` is what key file `name` of the directory describes. -/
def MemberFile (p : Prims) (d : Disk) (dir name : String) (m : QuorumMember) : Prop :=
  AliasOf name m.aliasName ∧ ∃ c, d.file (pathJoin dir name) = some c ∧ KeyText p c m.pubKey

open Classical in
/-- The members described by a directory, in the order of its listing. -/
def Listed (p : Prims) (d : Disk) (dir : String) (ms : List QuorumMember) : Prop :=
  ∃ names, d.dir dir = some names ∧
    List.Forall₂ (MemberFile p d dir) (names.filter fun n => decide (IsKeyName n)) ms

/-- The threshold described by a directory: one file `quorum_threshold`, with a number on its first line. -/
def Threshold (d : Disk) (dir : String) (t : UInt32) : Prop :=
  ∃ names c, d.dir dir = some names ∧ names.count "quorum_threshold" = 1 ∧
    d.file (pathJoin dir "quorum_threshold") = some c ∧ NumberText c t

/-- The set described by a directory. -/
structure SetIn (p : Prims) (d : Disk) (dir : String) (set : QuorumSet) : Prop where
  members : ∃ ms, Listed p d dir ms ∧ set.members.Perm ms
  sorted : set.members.Pairwise MemberOrder
  threshold : Threshold d dir set.threshold

/-- The patch set described by a directory: keys only. -/
structure PatchSetIn (p : Prims) (d : Disk) (dir : String) (set : PatchSet) : Prop where
  members : ∃ ms, Listed p d dir ms ∧ set.members.Perm (ms.map (·.pubKey))
  sorted : set.members.Pairwise (· ≤ ·)
  threshold : Threshold d dir set.threshold

/-- A line of two words. -/
def TwoWords (line v l : String) : Prop := line = v ++ " " ++ l ∧ ' ' ∉ v.toList ∧ ' ' ∉ l.toList

/-- The release's PCR file: three labelled values on its first lines, and only two-word lines. -/
def ReleasePcrs (d : Disk) (dir : String) (pcr0 pcr1 pcr2 : Bytes) : Prop :=
  ∃ c v0 v1 v2 l0 l1 l2 rest, d.file (pathJoin dir "aws-x86_64.pcrs") = some c ∧
    textLines c = some (l0 :: l1 :: l2 :: rest) ∧
    TwoWords l0 v0 "PCR0" ∧ TwoWords l1 v1 "PCR1" ∧ TwoWords l2 v2 "PCR2" ∧
    (∀ l ∈ rest, ∃ v w, TwoWords l v w) ∧
    Hex.decode (utf8 v0) = .ok pcr0 ∧ Hex.decode (utf8 v1) = .ok pcr1 ∧ Hex.decode (utf8 v2) = .ok pcr2

/-- The role name: first line of the PCR3 preimage file. -/
def RoleIn (d : Disk) (path role : String) : Prop :=
  ∃ c rest, d.file path = some c ∧ textLines c = some (role :: rest)

/-- The PCR3 value of a role: SHA-384 of 48 zero bytes and the role's name. -/
def rolePcr3 (p : Prims) (role : String) : Bytes := p.sha384 (List.replicate 48 0 ++ utf8 role)

/-- The pivot hash file: hexadecimal on its first line. -/
def PivotHashIn (d : Disk) (path : String) (hash : Bytes) : Prop :=
  ∃ c l rest, d.file path = some c ∧ textLines c = some (l :: rest) ∧ Hex.decode (utf8 l) = .ok hash

/-- The quorum key file. -/
def KeyIn (p : Prims) (d : Disk) (path : String) (key : Bytes) : Prop :=
  ∃ c, d.file path = some c ∧ KeyText p c key

/-- The Nitro configuration a local release directory and role file stand for. -/
structure NitroIn (p : Prims) (awsRoot : Bytes) (d : Disk) (releaseDir pcr3Path : String) (n : NitroConfig) : Prop where
  pcrs : ReleasePcrs d releaseDir n.pcr0 n.pcr1 n.pcr2
  role : ∃ r, RoleIn d pcr3Path r ∧ n.pcr3 = rolePcr3 p r
  root : n.awsRootCertificate = awsRoot
  commit : n.qosCommit = ""

/-- A yes. -/
def IsYes (line : String) : Prop := P256.trim line ∈ ["yes", "Yes", "YES", "Y", "y"]
/-- A no. -/
def IsNo (line : String) : Prop := P256.trim line ∈ ["no", "No", "NO", "N", "n"]

/-- The lines read in answer to a question mean yes: a yes after at most two lines that are neither yes nor no. -/
def Confirmed (answers : List String) : Prop :=
  ∃ ws y, answers = ws ++ [y] ∧ ws.length ≤ 2 ∧ IsYes y ∧ ∀ w ∈ ws, ¬ IsYes w ∧ ¬ IsNo w

/-- The events are exactly these questions, in this order, each confirmed. -/
def AllConfirmed (qs : List Question) (es : List Event) : Prop :=
  List.Forall₂ (fun q e => ∃ ans, e = .asked q ans ∧ Confirmed ans) qs es

end Qos.Client
