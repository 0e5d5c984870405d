import Verif.Model.Text
/-!
# Command lines

`/repo/src/qos_core/src/parser.rs`, and the enclave's command line (`/repo/src/qos_core/src/cli.rs`). Help texts are not
modelled. A `String` is a list of Unicode characters on both sides, compared by code point, which is the order of its UTF-8
bytes.
-/
namespace Qos.Parser

/-- `ParserError` (parser.rs:13-24). -/
inductive Error where
  | unexpectedInput (s : String)
  | duplicateInput (s : String)
  | mutuallyExclusiveInput (a b : String)
  | missingValue (s : String)
  | missingInput (s : String)
  deriving DecidableEq, Repr

/-- `TokenType` (parser.rs:359-367). -/
inductive Value where
  | flag
  | single (s : String)
  | multiple (l : List String)
  deriving DecidableEq, Repr

/-- `Token` (parser.rs:268-280) without the help text and the user's value. A default value is a single value
(parser.rs:331-334). -/
structure Token where
  name : String
  required : Bool := false
  requires : Option String := none
  forbids : List String := []
  takesValue : Bool := false
  default : Option String := none
  allowMultiple : Bool := false
  deriving DecidableEq, Repr

/-- A registered token with the user's value. parser.rs:270-281, `Token`. -/
structure Entry where
  token : Token
  user : Option Value
  deriving DecidableEq, Repr

/-- `TokenMap` (parser.rs:410-414): a `BTreeMap` by name, in order. -/
abbrev TokenMap := List Entry

/-- `BTreeMap::insert` (parser.rs:584-586). -/
def insert (t : Token) : TokenMap → TokenMap
  | [] => [⟨t, none⟩]
  | e :: m =>
    if t.name < e.token.name then ⟨t, none⟩ :: e :: m
    else if t.name = e.token.name then ⟨t, none⟩ :: m
    else e :: insert t m

/-- `TokenMap::default` (parser.rs:584-596) and `Parser::token` (parser.rs:169-172) for each token. -/
def register (ts : List Token) : TokenMap :=
  ts.foldl (fun m t => insert t m) (insert { name := "version" } (insert { name := "help" } []))

/-- `BTreeMap::get`. parser.rs:410-596, `TokenMap`. -/
def get (name : String) : TokenMap → Option Entry
  | [] => none
  | e :: m => if e.token.name = name then some e else get name m

/-- Writing the user's value through `get_mut`. parser.rs:410-596, `TokenMap`. -/
def put (name : String) (v : Value) : TokenMap → TokenMap
  | [] => []
  | e :: m => if e.token.name = name then { e with user := some v } :: m else e :: put name v m

/-- `starts_with(INPUT_PREFIX)` (parser.rs:9, 80, 480, 556). -/
def isOption (s : String) : Bool := ['-', '-'].isPrefixOf s.toList

/-- `&input[INPUT_PREFIX.len()..]`. parser.rs:9, 467, 559. -/
def nameOf (s : String) : String := String.ofList (s.toList.drop 2)

/-- `format!("--{name}")`. parser.rs:9, 467, 559. -/
def optionOf (name : String) : String := "--" ++ name

/-- `check_input` (parser.rs:555-574). -/
def checkInput (m : TokenMap) (input : String) : Except Error Entry :=
  if !isOption input then .error (.unexpectedInput input)
  else match get (nameOf input) m with
    | none => .error (.unexpectedInput input)
    | some e => if !e.token.allowMultiple && e.user.isSome then .error (.duplicateInput (nameOf input)) else .ok e

/-- The value of a token and the inputs left (parser.rs:474-490). -/
def takeValue (t : Token) : List String → Except Error (String × List String)
  | v :: rest =>
    if !isOption v then .ok (v, rest)
    else match t.default with
      | some d => .ok (d, v :: rest)
      | none => .error (.missingValue t.name)
  | [] => match t.default with
    | some d => .ok (d, [])
    | none => .error (.missingValue t.name)

/-- `push_val` (parser.rs:388-396). -/
def pushVal (val : String) : Value → Except Error Value
  | .multiple l => .ok (.multiple (l ++ [val]))
  | _ => .error (.duplicateInput val)

/-- Storing the value (parser.rs:492-502). -/
def store (e : Entry) (val : String) : Except Error Value :=
  if e.token.allowMultiple then match e.user with
    | some v => pushVal val v
    | none => .ok (.multiple [val])
  else .ok (.single val)

theorem takeValue_length {t : Token} {rest rest' : List String} {v : String} (h : takeValue t rest = .ok (v, rest')) :
    rest'.length ≤ rest.length := by
  unfold takeValue at h
  split at h
  · split at h
    · cases h; simp
    · split at h
      · cases h; exact Nat.le_refl _
      · cases h
  · split at h
    · cases h; exact Nat.le_refl _
    · cases h

/-- The loop of `do_parse` (parser.rs:461-512). The second look-up (parser.rs:469-471) finds what `check_input` found. -/
def fill (m : TokenMap) : List String → Except Error TokenMap
  | [] => .ok m
  | input :: rest => match checkInput m input with
    | .error e => .error e
    | .ok e =>
      if e.token.takesValue then match h : takeValue e.token rest with
        | .error er => .error er
        | .ok (v, rest') => match store e v with
          | .error er => .error er
          | .ok val => fill (put (nameOf input) val m) rest'
      else fill (put (nameOf input) .flag m) rest
  termination_by inputs => inputs.length
  decreasing_by
    · have := takeValue_length h; simp; omega
    · simp

/-- The checks of one token (parser.rs:527-548). -/
def checkToken (inputs : List String) (e : Entry) : Except Error Unit :=
  match e.user with
  | none => if e.token.required then .error (.missingInput e.token.name) else .ok ()
  | some _ =>
    match e.token.requires.filter fun o => !inputs.contains (optionOf o) with
    | some o => .error (.missingInput o)
    | none => match e.token.forbids.find? fun o => inputs.contains (optionOf o) with
      | some o => .error (.mutuallyExclusiveInput e.token.name o)
      | none => .ok ()

/-- `check_constraints` (parser.rs:526-551): the first failure in the order of the names. -/
def checkConstraints (inputs : List String) : TokenMap → Except Error Unit
  | [] => .ok ()
  | e :: m => match checkToken inputs e with
    | .error er => .error er
    | .ok () => checkConstraints inputs m

/-- `do_parse` (parser.rs:462-516). -/
def doParse (m : TokenMap) (inputs : List String) : Except Error TokenMap :=
  match fill m inputs with
  | .error e => .error e
  | .ok m' => match checkConstraints inputs m' with
    | .error e => .error e
    | .ok () => .ok m'

/-- `TokenMap::parse` (parser.rs:422-443). `get_mut` finds the two tokens, which are always registered: `Parser::token` can
replace but not remove them. -/
def parse (m : TokenMap) (inputs : List String) : Except Error TokenMap :=
  if inputs.contains "--help" then .ok (put "help" .flag m)
  else if inputs.contains "--version" then .ok (put "version" .flag m)
  else doParse m inputs

/-- `type_of` (parser.rs:577-581). -/
def typeOf (m : TokenMap) (name : String) : Option Value :=
  match get name m with
  | none => none
  | some e => match e.user with
    | some v => some v
    | none => e.token.default.map .single

/-- `flag` (parser.rs:192-194, 456-458). -/
def flag (m : TokenMap) (name : String) : Option Bool := (typeOf m name).map fun | .flag => true | _ => false

/-- `single` (parser.rs:199-201, 450-452). -/
def single (m : TokenMap) (name : String) : Option String := (typeOf m name).bind fun | .single s => some s | _ => none

/-- `multiple` (parser.rs:206-208, 445-447). -/
def multiple (m : TokenMap) (name : String) : Option (List String) :=
  (typeOf m name).bind fun | .multiple l => some l | _ => none

/-- `help` (parser.rs:179-182). -/
def help (m : TokenMap) : Bool := (flag m "help").getD false

/-- `version` (parser.rs:185-188). -/
def version (m : TokenMap) : Bool := (flag m "version").getD false

/-- `OptionsParser::parse` (parser.rs:78-88). -/
def parseOptions (ts : List Token) (inputs : List String) : Except Error TokenMap :=
  match inputs with
  | [] => parse (register ts) []
  | a :: rest => parse (register ts) (if isOption a then a :: rest else rest)

/-- `CommandParser::parse` (parser.rs:113-139). Without any argument `inputs.remove(0)` panics: `none`. `command` is
`From<String>` and may panic too. -/
def parseCommand {C : Type} (command : String → Option C) (tokens : C → List Token) (inputs : List String) :
    Option (Except Error (C × TokenMap)) :=
  match inputs with
  | [] => none
  | [_] => some (.error (.missingInput "No command provided"))
  | _ :: c :: rest => match command c with
    | none => none
    | some c => some (match parse (register (tokens c)) rest with
      | .error e => .error e
      | .ok m => .ok (c, m))

/-! ## The enclave's options -/

/-- `EnclaveParser` (cli.rs:218-268), with the `mock` feature or without. -/
def enclaveTokens (mockFeature : Bool) : List Token :=
  [{ name := "cid", takesValue := true, forbids := ["usock"], requires := some "port" },
   { name := "port", takesValue := true, forbids := ["usock"], requires := some "cid" },
   { name := "usock", takesValue := true, forbids := ["port", "cid"] },
   { name := "mock" },
   { name := "quorum-file", takesValue := true, default := some "/qos.quorum.key" },
   { name := "pivot-file", takesValue := true, default := some "/qos.pivot.bin" },
   { name := "ephemeral-file", takesValue := true, default := some "/qos.ephemeral.key" },
   { name := "manifest-file", takesValue := true, default := some "/qos.manifest" }] ++
  if mockFeature then [{ name := "mock-pcrs", takesValue := true, requires := some "mock" }] else []

/-- What `enclave_socket` (cli.rs:53-71) gives. -/
inductive Socket where
  | vsock (cid port : Nat)
  | unix (path : String)
  deriving DecidableEq, Repr

/-- The outcome of `enclave_socket`. cli.rs:53-71, `enclave_socket`. -/
inductive SocketResult where
  | ok (s : Socket)
  | invalid
  | panic
  deriving DecidableEq, Repr

/-- `enclave_socket` (cli.rs:53-71); the numbers are `u32`. -/
def enclaveSocket (m : TokenMap) : SocketResult :=
  match single m "cid", single m "port", single m "usock" with
  | some c, some p, none => match parseUnsigned (2 ^ 32) c.toList, parseUnsigned (2 ^ 32) p.toList with
    | some c, some p => .ok (.vsock c p)
    | _, _ => .invalid
  | none, none, some u => .ok (.unix u)
  | _, _, _ => .panic

end Qos.Parser
