import Verif.Conformance.Real
import Verif.Model.EnclaveCli
import Verif.Model.Launcher
import Verif.Model.NChooseK
import Verif.Model.Env
import Verif.Model.EnvBorsh
import Verif.Model.Manifest
/-!
# Replay of unit tests of the small crates

The inputs and the expected results of the repository's tests of hexadecimal text, the options parser, the command lines,
the environment of the pivot and the console log. Checks of the model against the program's own tests, not properties.
-/
namespace Qos.Conformance

instance {α ε : Type} [DecidableEq α] [DecidableEq ε] : DecidableEq (Except ε α) := fun a b =>
  match a, b with
  | .ok x, .ok y => if h : x = y then isTrue (by rw [h]) else isFalse (by simpa using h)
  | .error x, .error y => if h : x = y then isTrue (by rw [h]) else isFalse (by simpa using h)
  | .ok _, .error _ => isFalse (by simp)
  | .error _, .ok _ => isFalse (by simp)

/-! ## qos_hex/src/lib.rs:235-474 -/

example : Hex.decode [] = .ok [] ∧ Hex.decodeToBuf [] 0 = .ok [] := by decide +kernel
example : Hex.decode (utf8 "a") = .error .lengthOne ∧ Hex.decode (utf8 " ") = .error .lengthOne ∧
    Hex.decodeToBuf (utf8 " ") 2 = .error .lengthOne := by decide +kernel
example : Hex.decode (utf8 "0fÓ") = .error .nonAsciiChar ∧ Hex.decodeToBuf (utf8 "0fÓ") 2 = .error .nonAsciiChar ∧
    Hex.decode (utf8 "0x0fÓ") = .error .nonAsciiChar ∧ Hex.decodeToBuf (utf8 "0x0fÓ") 2 = .error .nonAsciiChar ∧
    Hex.decode (utf8 "Óff") = .error .nonAsciiChar ∧ Hex.decodeToBuf (utf8 "Óff") 2 = .error .nonAsciiChar := by
  decide +kernel
example :
    let text := utf8 "C6ff584301800c5f60000000000000000000000000Óf8$6800;033333333333333333333333344444444333"
    Hex.decode text = .error .nonAsciiChar ∧ Hex.decodeToBuf text (text.length / 2) = .error .nonAsciiChar := by
  decide +kernel
example : Hex.encode [0, 0, 0, 0] = utf8 "00000000" ∧ Hex.decode (utf8 "00000000") = .ok [0, 0, 0, 0] ∧
    Hex.decodeToBuf (utf8 "00000000") 4 = .ok [0, 0, 0, 0] ∧
    Hex.encode [255, 0, 255] = utf8 "ff00ff" ∧ Hex.decode (utf8 "ff00ff") = .ok [255, 0, 255] ∧
    Hex.encode [31, 52, 228, 109, 140, 170, 124, 94] = utf8 "1f34e46d8caa7c5e" ∧
    Hex.decode (utf8 "1f34e46d8caa7c5e") = .ok [31, 52, 228, 109, 140, 170, 124, 94] := by decide +kernel
example :
    let address := utf8 "0x00000000219ab540356cBB839Cbe05303d7705Fa"
    let decoded : Bytes := [0, 0, 0, 0, 33, 154, 181, 64, 53, 108, 187, 131, 156, 190, 5, 48, 61, 119, 5, 250]
    Hex.encode decoded = utf8 "00000000219ab540356cbb839cbe05303d7705fa" ∧ Hex.decode address = .ok decoded ∧
      Hex.decodeToBuf address 20 = .ok decoded := by decide +kernel
#eval check (decide (Hex.decode (utf8 "a1b2fh") = .error .parseInt ∧ Hex.decodeToBuf (utf8 "a1b2fh") 3 = .error .parseInt ∧
    Hex.decode (utf8 "fff") = .error .oddLength ∧ Hex.decodeToBuf (utf8 "fff") 1 = .error .oddLength))

/-! ## qos_core/src/parser.rs:634-875 -/

/-- `setup` (parser.rs:637-674). -/
def parserTokens : List Parser.Token :=
  [{ name := "required-with-value", required := true, takesValue := true },
   { name := "requires-no-value", requires := some "optional-value" },
   { name := "multiple", allowMultiple := true, takesValue := true },
   { name := "optional-with-default", takesValue := true, default := some "default1" },
   { name := "forbid1-with-value", takesValue := true, forbids := ["forbid2-no-value"] },
   { name := "forbid2-no-value", forbids := ["forbid1-with-value"] },
   { name := "optional-value", takesValue := true }]

/-- The parser of the tests. -/
def parserRun (args : List String) : Except Parser.Error Parser.TokenMap := Parser.parseOptions parserTokens args

/-- What the test reads after a parse. -/
def parserReads (args : List String) : Option (List (Option String) × List (Option Bool) × Option (List String)) :=
  match parserRun args with
  | .error _ => none
  | .ok m => some (["required-with-value", "optional-with-default", "forbid1-with-value", "optional-value"].map
      (Parser.single m), ["requires-no-value", "requires-no-va"].map (Parser.flag m), Parser.multiple m "multiple")

/-- The error of a parse. -/
def parserError (args : List String) : Option Parser.Error :=
  match parserRun args with
  | .error e => some e
  | .ok _ => none

#eval check (decide (parserReads ["--required-with-value", "val1", "--requires-no-value", "--multiple", "val2", "--multiple", "val3",
      "--optional-with-default", "--forbid1-with-value", "val4", "--optional-value", "val5"] =
    some ([some "val1", some "default1", some "val4", some "val5"], [some true, none], some ["val2", "val3"])))
#eval check (decide (parserError ["--requires-no-value", "--required-with-value", "--forbid2-with-default", "a"] =
    some (.missingValue "required-with-value")))
#eval check (decide (parserError ["--forbid2-no-value", "--multiple", "beans", "--required-with-value", "a", "--forbid2-no-value",
    "--multiple", "based"] = some (.duplicateInput "forbid2-no-value")))
#eval check (decide (parserError ["--requires-no-value", "--optional-with-default", "420"] =
    some (.missingInput "required-with-value")))
#eval check (decide (parserError ["--requires-no-value", "--required-with-value", "brawndo", "--vape-nation"] =
    some (.unexpectedInput "--vape-nation")))
#eval check (decide (parserError ["--requires-no-value", "--required-with-value", "brawndo", "one-vape-world"] =
    some (.unexpectedInput "one-vape-world")))
#eval check (decide (parserError ["--forbid1-with-value", "eataly", "--forbid2-no-value"] =
    some (.mutuallyExclusiveInput "forbid1-with-value" "forbid2-no-value")))
#eval check (decide (((parserRun ["--version", "right to bear vapes"]).toOption.map Parser.version) = some true))
#eval check (decide (((parserRun ["--help", "your body needs to vape", "--because", "vapes got what your body needs"]).toOption.map
    Parser.help) = some true))

/-! ## The command lines of the enclave, the host and the proxy -/

/-- The options of the enclave program. -/
def enclaveRun (args : List String) : Except Parser.Error Parser.TokenMap :=
  Parser.parseOptions (Parser.enclaveTokens true) args

/-- The single values of these options. -/
def readsOf (r : Except Parser.Error Parser.TokenMap) (names : List String) : Option (List (Option String)) :=
  match r with
  | .error _ => none
  | .ok m => some (names.map (Parser.single m))

/-- The error of the options. -/
def errorOf (r : Except Parser.Error Parser.TokenMap) : Option Parser.Error :=
  match r with
  | .error e => some e
  | .ok _ => none

/-! qos_core/src/cli.rs:211-320: the first argument is the program's name. -/
#eval check (decide (readsOf (enclaveRun ["binary", "--cid", "6", "--port", "3999"]) ["cid", "port"] = some [some "6", some "3999"] ∧
    readsOf (enclaveRun ["--cid", "6", "--port", "3999"]) ["cid", "port"] = some [some "6", some "3999"] ∧
    readsOf (enclaveRun ["binary", "--usock", "/tmp/usock"]) ["usock"] = some [some "/tmp/usock"]))
#eval check (decide (readsOf (enclaveRun ["binary", "--cid", "6", "--port", "3999", "--quorum-file", "secret.file", "--pivot-file",
      "pivot.file", "--ephemeral-file", "ephemeral.file"])
      ["cid", "port", "quorum-file", "pivot-file", "ephemeral-file"] =
    some [some "6", some "3999", some "secret.file", some "pivot.file", some "ephemeral.file"]))
#eval check (decide (readsOf (enclaveRun ["binary", "--usock", "./test.sock"]) ["manifest-file"] = some [some "/qos.manifest"] ∧
    readsOf (enclaveRun ["binary", "--usock", "./test.sock", "--manifest-file", "brawndo"]) ["manifest-file"] =
      some [some "brawndo"]))
#eval check (decide (errorOf (enclaveRun ["binary", "--usock", "./test.sock", "--mock-pcrs", "./some.pcrs"]) =
    some (.missingInput "mock")))
#eval check (decide (errorOf (enclaveRun ["binary", "--cid", "6", "--port", "3999", "--usock", "my.sock"]) =
    some (.mutuallyExclusiveInput "cid" "usock")))
#eval check (decide (errorOf (enclaveRun ["binary", "--cid", "6"]) = some (.missingInput "port")))
#eval check (decide (errorOf (enclaveRun ["--durp"]) = some (.unexpectedInput "--durp")))

/-- The mock device that the enclave program is started with. -/
def mockRegister (files : List (String × Bytes)) (args : List String) (i : UInt16) : Option Bytes :=
  match EnclaveCli.execute true (fun p => files.lookup p) args with
  | .reaper c => match c.device with
    | .mock s => s.pcrs i
    | .hardware => none
  | _ => none

/-! qos_core/src/cli.rs:321-371, `mock_pcrs_seed_the_mock_nsm`. -/
#eval check (decide (let file := Hex.encode (List.replicate 48 7) ++ utf8 " PCR0\n" ++ Hex.encode (List.replicate 48 9) ++ utf8 " PCR3\n"
    let args := ["binary", "--usock", "./test.sock", "--mock", "--mock-pcrs", "p"]
    mockRegister [("p", file)] args 0 = some (List.replicate 48 7) ∧
      mockRegister [("p", file)] args 3 = some (List.replicate 48 9) ∧
      mockRegister [("p", file)] args 1 = none))

/-- The address that the enclave program listens on. -/
def enclaveAddress (args : List String) : Option Pool.Address :=
  match enclaveRun args with
  | .ok m => EnclaveCli.socket m
  | .error _ => none

/-! qos_core/src/cli.rs:407-419, `build_vsock`. -/
#eval check (decide (enclaveAddress ["binary", "--cid", "6", "--port", "3999"] = some (.vsock 6 3999 0)))

/-- The address of the enclave that the host program is started with. -/
def hostAddress (args : List String) : Option Pool.Address :=
  match HostCli.host args with
  | .runs c => some c.socket
  | _ => none

/-- qos_host/src/cli.rs:216-354. -/
example : readsOf (Parser.parseOptions HostCli.hostTokens ["binary", "--cid", "6", "--port", "3999", "--host-ip", "0.0.0.0",
      "--host-port", "3000", "--vsock-to-host", "false"]) ["cid", "port", "host-ip", "host-port", "vsock-to-host"] =
    some [some "6", some "3999", some "0.0.0.0", some "3000", some "false"] := by decide +kernel
example : errorOf (Parser.parseOptions HostCli.hostTokens ["--durp"]) = some (.unexpectedInput "--durp") := by decide +kernel
#eval check (decide (hostAddress ["binary", "--cid", "6", "--port", "3999", "--host-ip", "0.0.0.0", "--host-port", "3000",
      "--vsock-to-host", "false"] = some (.vsock 6 3999 0) ∧
    hostAddress ["binary", "--cid", "6", "--port", "3999", "--host-ip", "0.0.0.0", "--host-port", "3000",
      "--vsock-to-host", "true"] = some (.vsock 6 3999 1)))

/-- The options of the proxy. -/
def proxyRun (args : List String) : Except Parser.Error Parser.TokenMap := Parser.parseOptions HostCli.proxyTokens args

/-- The number of sockets that the proxy is started with. -/
def proxySockets (args : List String) : Option Nat :=
  match HostCli.proxy .wraps args with
  | .runs c => some c.pool.addresses.length
  | _ => none

/-! qos_net/src/cli.rs:128-232. -/
#eval check (decide (readsOf (proxyRun ["binary", "--cid", "6", "--port", "3999"]) ["cid", "port"] = some [some "6", some "3999"] ∧
    readsOf (proxyRun ["binary", "--usock", "/tmp/usock"]) ["usock"] = some [some "/tmp/usock"]))
#eval check (decide (proxySockets ["binary", "--usock", "./test.sock", "--pool-size", "7"] = some 7 ∧
    proxySockets ["binary", "--usock", "./test.sock", "--pool-size", "3"] = some 3 ∧
    proxySockets ["binary", "--cid", "6", "--port", "3999"] = some 1))
#eval check (decide (errorOf (proxyRun ["binary", "--cid", "6", "--port", "3999", "--usock", "my.sock"]) =
      some (.mutuallyExclusiveInput "cid" "usock") ∧
    errorOf (proxyRun ["binary", "--cid", "6"]) = some (.missingInput "port") ∧
    errorOf (proxyRun ["--derp"]) = some (.unexpectedInput "--derp")))

/-! ## qos_core/src/protocol/services/boot/env.rs:398-560 -/

#eval check (decide ((Env.newName "A").isSome ∧ (Env.newName "_").isSome ∧ (Env.newName "_WITH_NUMBERS_123").isSome ∧
    (Env.newName (String.ofList (List.replicate 1024 'A'))).isSome))
#eval check (decide (Env.newName "" = none ∧ Env.newName "BAD=NAME" = none ∧ Env.newName "1BAD" = none ∧ Env.newName "BAD-NAME" = none ∧
    Env.newName "BAD.NAME" = none ∧ Env.newName "BAD NAME" = none ∧ Env.newName "BAD/NAME" = none ∧
    Env.newName "BAD+NAME" = none ∧ Env.newName (String.ofList (List.replicate 1025 'A')) = none ∧
    Env.newValue "bad\x00value" = none))
#eval check (Env.newValue (String.ofList (List.replicate (64 * 1024 + 1) 'A'))).isNone
#eval check (Env.decode ((List.range 513).map fun i => (s!"KEY_{i}", "value"))).isNone
/-- Variables put one by one. -/
def envOf (pairs : List (String × String)) : Env.Map := pairs.foldl (fun m p => (Env.insert p.1 p.2 m).2) []
#eval check ((Json.writeBytes <| JCodec.pivotEnv.enc (envOf [("ZETA", "last"), ("ALPHA", "first")])) ==
  utf8 "{\"ALPHA\":{\"plain\":{\"value\":\"first\"}},\"ZETA\":{\"plain\":{\"value\":\"last\"}}}")
#eval check (let m := envOf ((List.range 512).map fun i => (s!"KEY_{i}", "value"))
  (Env.insert "ONE_TOO_MANY" "value" m).1.isNone && (Env.insert "ONE_TOO_MANY" "value" m).2.length == 512 &&
  (Env.get "ONE_TOO_MANY" (Env.insert "ONE_TOO_MANY" "value" m).2).isNone)

/-! ## qos_crypto/src/n_choose_k.rs:72-140 -/

example : NChooseK.combinations .panics 100 ["a", "b", "c", "d"] 2 =
    .returns [["a", "b"], ["a", "c"], ["a", "d"], ["b", "c"], ["b", "d"], ["c", "d"]] := by decide +kernel
example : NChooseK.combinations .panics 100 ["x", "y", "z"] 3 = .returns [["x", "y", "z"]] ∧
    NChooseK.combinations .panics 100 ["p", "q"] 1 = .returns [["p"], ["q"]] ∧
    NChooseK.combinations .panics 100 ([] : List Nat) 0 = .returns [] ∧
    NChooseK.combinations .panics 100 [1, 2, 3, 4, 5] 0 = .returns [] := by decide +kernel
example : NChooseK.factorial .panics 0 = some 1 ∧ NChooseK.factorial .panics 1 = some 1 ∧
    NChooseK.factorial .panics 5 = some 120 ∧ NChooseK.factorial .panics 10 = some 3628800 ∧
    NChooseK.factorial .panics 20 = some 2432902008176640000 := by decide +kernel

/-! ## qos_enclave/src/main.rs:336-440, the console log -/

/-- The text of bytes that are ASCII. -/
def plainText (b : Bytes) : String := String.ofList (b.map fun c => Char.ofNat c.toNat)

/-- The chunks of a text, of this size. -/
def chunksOf (size : Nat) : Nat → Bytes → List Bytes
  | 0, _ => []
  | fuel + 1, b => if b = [] then [] else b.take size :: chunksOf size fuel (b.drop size)

example : (Launcher.writes plainText [] [utf8 "first\nsecond\n"]).1 = ["first", "second"] := by decide +kernel
#eval check (((List.range 20).map (· + 1)).all fun size =>
  Launcher.readLogs plainText (chunksOf size 20 (utf8 "first\nsecond\r\n\nthird")) == ["first", "second", "third"])
#eval check (decide ((Launcher.writes plainText [] [utf8 "partial"]).1 = [] ∧
    Launcher.readLogs plainText [utf8 "partial"] = ["partial"]))

end Qos.Conformance
