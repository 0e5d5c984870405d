import Verif.Model.Client
import Mathlib.Data.Nat.Digits.Defs
/-!
# What the operator reads

The texts of the prompts of `approve-manifest` and `proxy-re-encrypt-share`
(qos_client/src/cli/services.rs:1124-1228, 1737-1801) and the writes of `Prompter` (services.rs:2681-2720). `Client.lean`
treats a prompt as the value that it shows; here it is the text. Characters that the standard library's `Debug` writes as
`\u{…}` depend on a Unicode table: they are an arbitrary predicate `odd` on characters.
-/
namespace Qos.Client

/-- `char::escape_unicode` without leading zeros. Standard library; a character 0 has its own escape. services.rs:1178-1181. -/
def unicodeEscape (c : Char) : List Char :=
  '\\' :: 'u' :: '{' :: ((Nat.digits 16 c.toNat).reverse.map Ip.hexChar ++ ['}'])

/-- One character of `impl Debug for str`. Standard library (`escape_debug_ext` with double quotes escaped); services.rs:1178-1181. -/
def debugChar (odd : Char → Bool) (c : Char) : List Char :=
  if c = '\x00' then ['\\', '0']
  else if c = '\t' then ['\\', 't']
  else if c = '\r' then ['\\', 'r']
  else if c = '\n' then ['\\', 'n']
  else if c = '\\' then ['\\', '\\']
  else if c = '"' then ['\\', '"']
  else if odd c then unicodeEscape c
  else [c]

/-- `impl Debug for str`. Standard library; services.rs:1178-1181. -/
def debugText (odd : Char → Bool) (s : String) : List Char := '"' :: (s.toList.flatMap (debugChar odd) ++ ['"'])

/-- The elements after the first of `impl Debug for [T]`, and the closing bracket. Standard library; services.rs:1178-1219. -/
def debugRest {α : Type} (f : α → List Char) : List α → List Char
  | [] => [']']
  | a :: as => ',' :: ' ' :: (f a ++ debugRest f as)

/-- `impl Debug for [T]`. Standard library; services.rs:1178-1219. -/
def debugList {α : Type} (f : α → List Char) : List α → List Char
  | [] => ['[', ']']
  | a :: as => '[' :: (f a ++ debugRest f as)

/-- `impl Debug for Option<String>`. Standard library; services.rs:1200-1203. -/
def debugHost (odd : Char → Bool) : Option String → List Char
  | none => "None".toList
  | some h => "Some(".toList ++ (debugText odd h ++ [')'])

/-- Derived `Debug` of `BridgeConfig` (boot.rs:134-167). -/
def debugBridge (odd : Char → Bool) : BridgeConfig → List Char
  | .server port host => "Server { port: ".toList ++ (natText port.toNat ++ (", host: ".toList ++ (debugText odd host ++ " }".toList)))
  | .client port host => "Client { port: ".toList ++ (natText port.toNat ++ (", host: ".toList ++ (debugHost odd host ++ " }".toList)))

/-- `Debug` of `RestartPolicy` (boot.rs:111-119). -/
def debugRestart : RestartPolicy → List Char
  | .never => "RestartPolicy::Never".toList
  | .always => "RestartPolicy::Always".toList

/-- The lines of the approvers after the first (services.rs:1781-1789). -/
def approverRest : List String → List Char
  | [] => []
  | a :: as => "\n\talias: ".toList ++ (a.toList ++ approverRest as)

/-- The lines of the approvers, joined (services.rs:1781-1789). The program sorts the lines; they start alike, so this is the
order of the aliases. -/
def approverLines : List String → List Char
  | [] => []
  | a :: as => "\talias: ".toList ++ (a.toList ++ approverRest as)

/-- The end of most prompts. services.rs:1134-1202. -/
def askEnd : List Char := "? (y/n)".toList

/-- The end of a prompt that shows a list. services.rs:1178-1219. -/
def askEndLine : List Char := "?\n(y/n)".toList

/-- The text of a prompt (services.rs:1134-1221, 1750-1793). -/
def promptText (odd : Char → Bool) : Question → List Char
  | .schemaVersion v => "Is this the correct manifest schema version: ".toList ++ (v.toList ++ askEnd)
  | .namespaceName n => "Is this the correct namespace name: ".toList ++ (n.toList ++ askEnd)
  | .namespaceNonce n => "Is this the correct namespace nonce: ".toList ++ (natText n.toNat ++ askEnd)
  | .restartPolicy r => "Is this the correct pivot restart policy: ".toList ++ (debugRestart r ++ askEnd)
  | .pivotArgs a => "Are these the correct pivot args:\n".toList ++ (debugList (debugText odd) a ++ askEndLine)
  | .debugMode b => "Is this the correct pivot debug mode: ".toList ++ ((if b then "true" else "false").toList ++ askEnd)
  | .bridges b => "Is this the correct pivot bridge configuration:\n".toList ++ (debugList (debugBridge odd) b ++ askEndLine)
  | .dns none => "Is this the correct DNS configuration: absent? (y/n)".toList
  | .dns (some ⟨[]⟩) => "Is this the correct DNS configuration: configured with no resolvers? (y/n)".toList
  | .dns (some ⟨a :: as⟩) =>
    "Are these the correct DNS resolvers:\n".toList ++ (debugList (fun i => (Ip.display i).toList) (a :: as) ++ askEndLine)
  | .iamRole r => "Does this AWS IAM role belong to the intended organization: ".toList ++ (r.toList ++ askEnd)
  | .approvers as =>
    "The following manifest set members approved:\n".toList ++ (approverLines as ++ "\nIs this ok? (y/n)".toList)

/-- The reminder of `prompt_is_yes` (services.rs:2716-2716). -/
def reminder : List Char := "Please answer with either \"yes\" (y) or \"no\" (n)".toList

/-- What `Prompter` writes for a question with these answers, one text per `writeln!` (services.rs:2691-2719): the question,
then the reminder before every further answer. -/
def writesFor (odd : Char → Bool) (q : Question) (answers : List String) : List (List Char) :=
  promptText odd q :: List.replicate (answers.length - 1) reminder

/-- Everything the prompts of a command write, one text per `writeln!`. services.rs:2681-2720. -/
def screen (odd : Char → Bool) : List Event → List (List Char)
  | [] => []
  | .asked q answers :: es => writesFor odd q answers ++ screen odd es
  | .sent _ :: es => screen odd es
  | .wrote _ _ :: es => screen odd es

end Qos.Client
