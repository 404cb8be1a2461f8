import Verif.Model.Main
import Verif.Model.Startup
/-!
# Command line and environment of `tcp-info` (main.go:54-84)

`flag.Parse` and `strconv.ParseInt`, `ParseBool` are Go's standard library; `flagx.ArgsFromEnv`, `flagx.StringArray` and the flags of `prometheusx` and
`anonymize` are in `m-lab/go`. None of this is in /repo. What is assumed of it: the definitions below. Text is a list of characters (Go: bytes; all that is
looked for is ASCII). The flags of the libraries are a parameter: which there are, whether they are boolean, which values they accept; so is what
`StringArray.Set` appends (`m-lab/go` splits the value at commas).
-/

namespace TcpInfo.Flags

abbrev Text := List Char

/-! ## Numbers and booleans -/

/-- Lower case, ASCII. -/
def lowerC (c : Char) : Char := if 'A' ≤ c ∧ c ≤ 'Z' then Char.ofNat (c.toNat + 32) else c

/-- The value of a digit or letter (strconv/atoi.go `ParseUint`). -/
def digitVal (c : Char) : Option Nat :=
  if '0' ≤ c ∧ c ≤ '9' then some (c.toNat - 48)
  else if 'a' ≤ lowerC c ∧ lowerC c ≤ 'z' then some ((lowerC c).toNat - 87)
  else none

/-- Errors of `strconv`. -/
inductive NumErr where
  | syntax
  | range
  deriving DecidableEq

/-- `ParseUint`: the loop over the digits, in base `base`, from value `n`; underscores are skipped. -/
def digits (base : Nat) : (n : Nat) → Text → Nat × Option NumErr
  | n, [] => (n, none)
  | n, c :: cs =>
    if c = '_' then digits base n cs
    else match digitVal c with
      | none => (0, some .syntax)
      | some d =>
        if base ≤ d then (0, some .syntax)
        else if 2 ^ 64 ≤ n * base + d then (2 ^ 64 - 1, some .range)
        else digits base (n * base + d) cs

/-- Base prefix (base 0): base and rest. -/
def basePrefix (s : Text) : Nat × Text :=
  match s with
  | '0' :: c :: d :: r =>
    if lowerC c = 'b' then (2, d :: r) else if lowerC c = 'o' then (8, d :: r) else if lowerC c = 'x' then (16, d :: r) else (8, c :: d :: r)
  | '0' :: r => (8, r)
  | _ => (10, s)

/-- `underscoreOK`, the loop: `dig`, the last character was a digit or the prefix; `und`, it was an underscore. -/
def underLoop (hex : Bool) : (dig und : Bool) → Text → Bool
  | _, und, [] => !und
  | dig, und, c :: cs =>
    if ('0' ≤ c ∧ c ≤ '9') ∨ (hex = true ∧ 'a' ≤ lowerC c ∧ lowerC c ≤ 'f') then underLoop hex true false cs
    else if c = '_' then if dig then underLoop hex false true cs else false
    else if und then false else underLoop hex false false cs

/-- `underscoreOK` of a text without sign. -/
def underscoreOK (s : Text) : Bool :=
  match s with
  | '0' :: c :: r =>
    if lowerC c = 'b' ∨ lowerC c = 'o' ∨ lowerC c = 'x' then underLoop (lowerC c = 'x') true false r else underLoop false false false s
  | _ => underLoop false false false s

/-- `strconv.ParseUint(s, 0, 64)`. -/
def parseUint (s : Text) : Nat × Option NumErr :=
  if s = [] then (0, some .syntax)
  else
    let (base, r) := basePrefix s
    match digits base 0 r with
    | (n, some e) => (n, some e)
    | (n, none) => if '_' ∈ r ∧ underscoreOK s = false then (0, some .syntax) else (n, none)

/-- `strconv.ParseInt(s, 0, 64)`: the number returned, also when there is an error. -/
def parseInt (s : Text) : Int × Option NumErr :=
  if s = [] then (0, some .syntax)
  else
    let neg := s.head? = some '-'
    let r := if s.head? = some '+' ∨ s.head? = some '-' then s.tail else s
    match parseUint r with
    | (_, some .syntax) => (0, some .syntax)
    | (u, e) =>
      if ¬ neg ∧ 2 ^ 63 ≤ u then (2 ^ 63 - 1, some .range)
      else if neg ∧ 2 ^ 63 < u then (-2 ^ 63, some .range)
      else (if neg then -(u : Int) else u, e)

/-- `strconv.ParseBool`. -/
def parseBool (s : Text) : Option Bool :=
  if s ∈ ["1".toList, "t".toList, "T".toList, "TRUE".toList, "true".toList, "True".toList] then some true
  else if s ∈ ["0".toList, "f".toList, "F".toList, "FALSE".toList, "false".toList, "False".toList] then some false
  else none

/-! ## The flags -/

/-- Kinds of flags: `flag.IntVar`, `BoolVar`, `StringVar`, `flagx.StringArray`, and those of the libraries. -/
inductive Kind where
  | int
  | bool
  | str
  | list
  | lib (isBool : Bool)
  deriving DecidableEq

/-- What comes from outside /repo. -/
structure Libs where
  /-- further flags, and whether they are boolean -/
  flags : List (Text × Bool)
  /-- which values they accept -/
  accepts : Text → Text → Bool
  /-- what `StringArray.Set` appends -/
  items : Text → List Text

/-- main.go:54-71 and eventsocket/client.go:21: the flags of this repository. -/
def ownFlags : List (Text × Kind) :=
  [("reps".toList, .int), ("trace".toList, .bool), ("output".toList, .str), ("exclude-srcport".toList, .list), ("exclude-dstip".toList, .list),
   ("tcpinfo.eventsocket".toList, .str)]

/-- A set of flags, with what `Set` does for the kinds that are not Go's. -/
structure FlagSet where
  flags : List (Text × Kind)
  accepts : Text → Text → Bool
  items : Text → List Text

/-- All flags that are defined when `main` of `tcp-info` begins. -/
def mainFlags (L : Libs) : FlagSet := ⟨ownFlags ++ L.flags.map (fun f => (f.1, .lib f.2)), L.accepts, L.items⟩

/-- The flags of `cmd/example-eventsocket-client`: of this repository only the one of eventsocket/client.go:21. -/
def clientFlags (L : Libs) : FlagSet := ⟨[("tcpinfo.eventsocket".toList, .str)] ++ L.flags.map (fun f => (f.1, .lib f.2)), L.accepts, L.items⟩

/-- `f.formal[name]`. -/
def kindOf (F : FlagSet) (name : Text) : Option Kind := F.flags.lookup name

/-- `IsBoolFlag`. -/
def Kind.isBool : Kind → Bool
  | .bool => true
  | .lib b => b
  | _ => false

/-- Whether `Value.Set` returns no error. -/
def setOK (F : FlagSet) (name : Text) (k : Kind) (v : Text) : Bool :=
  match k with
  | .int => (parseInt v).2.isNone
  | .bool => (parseBool v).isSome
  | .str => true
  | .list => true
  | .lib _ => F.accepts name v

/-! ## `flag.Parse` -/

/-- How an argument begins. -/
inductive Arg where
  /-- not a flag: fewer than two characters or no dash -/
  | plain
  /-- `--` -/
  | terminator
  /-- bad syntax: `---`, `-=`, … -/
  | bad
  /-- `-name`, `--name`, `-name=value`, `--name=value` -/
  | opt (name : Text) (value : Option Text)
  deriving DecidableEq

/-- The name ends at the first `=` behind its first character. -/
def splitEq : Text → Text × Option Text
  | [] => ([], none)
  | c :: cs => if c = '=' then ([], some cs) else (c :: (splitEq cs).1, (splitEq cs).2)

/-- `parseOne`: the text behind the dashes. -/
def nameArg : Text → Arg
  | [] => .bad
  | c :: cs => if c = '-' ∨ c = '=' then .bad else .opt (c :: (splitEq cs).1) (splitEq cs).2

/-- `parseOne`: what kind of argument it is. -/
def classify : Text → Arg
  | '-' :: c :: cs => if c = '-' then if cs = [] then .terminator else nameArg cs else nameArg (c :: cs)
  | _ => .plain

/-- How `flag.Parse` ends: with arguments left over, or by ending the program (`flag.ExitOnError`): 0 for help, otherwise 2. -/
inductive Outcome where
  | done (rest : List Text)
  | exit (status : Nat)
  deriving DecidableEq

/-- A value is assigned and parsing goes on, or the value is refused. -/
def assign (ok : Bool) (name value : Text) (next : List (Text × Text) × Outcome) : List (Text × Text) × Outcome :=
  if ok then ((name, value) :: next.1, next.2) else ([], .exit 2)

/-- `FlagSet.Parse` and `parseOne`: the values set, in order, and how it ends. `pending`: a flag that is not boolean has been read without value; the next
argument is its value, whatever it is. -/
def parse (F : FlagSet) : (pending : Option (Text × Kind)) → List Text → List (Text × Text) × Outcome
  | none, [] => ([], .done [])
  | some _, [] => ([], .exit 2)
  | some (n, k), v :: args => assign (setOK F n k v) n v (parse F none args)
  | none, a :: args =>
    match classify a with
    | .plain => ([], .done (a :: args))
    | .terminator => ([], .done args)
    | .bad => ([], .exit 2)
    | .opt n v =>
      match kindOf F n with
      | none => ([], .exit (if n = "help".toList ∨ n = "h".toList then 0 else 2))
      | some k =>
        match v with
        | some v => assign (setOK F n k v) n v (parse F none args)
        | none => if k.isBool then assign (setOK F n k "true".toList) n "true".toList (parse F none args) else parse F (some (n, k)) args

/-! ## The variables -/

/-- main.go:54-60 and eventsocket/client.go:21: the variables that flags set. -/
structure Settings where
  reps : Int
  trace : Bool
  output : Text
  srcPorts : List Text
  dstIPs : List Text
  socket : Text
  deriving DecidableEq

/-- Defaults (main.go:54-71, eventsocket/client.go:21). -/
def defaults : Settings := ⟨0, false, [], [], [], []⟩

/-- `Value.Set` of Go's flag package stores the number or boolean also if there is an error (flag/flag.go `intValue.Set`, `boolValue.Set`). -/
def Settings.set (F : FlagSet) (s : Settings) (name value : Text) : Settings :=
  if name = "reps".toList then { s with reps := (parseInt value).1 }
  else if name = "trace".toList then { s with trace := (parseBool value).getD false }
  else if name = "output".toList then { s with output := value }
  else if name = "exclude-srcport".toList then { s with srcPorts := s.srcPorts ++ F.items value }
  else if name = "exclude-dstip".toList then { s with dstIPs := s.dstIPs ++ F.items value }
  else if name = "tcpinfo.eventsocket".toList then { s with socket := value }
  else s

/-- All values, in order. -/
def Settings.setAll (F : FlagSet) (s : Settings) (l : List (Text × Text)) : Settings := l.foldl (fun s p => s.set F p.1 p.2) s

/-- `flagx.MakeShellVariableName`: upper case letters, digits and underscores. -/
def shellName (name : Text) : Text :=
  name.map (fun c => if c.isAlphanum then c.toUpper else '_')

/-- `flagx.ArgsFromEnv`: the values it sets: those of the environment for the flags that were not given. (It goes through the flags in the order of their names; each sets its own
variable only, so the order does not matter.) -/
def fromEnv (F : FlagSet) (env : Text → Option Text) (given : List (Text × Text)) : List (Text × Text) :=
  F.flags.filterMap (fun f => if f.1 ∈ given.map (·.1) then none else (env (shellName f.1)).map (fun v => (f.1, v)))

/-- The error of `flagx.ArgsFromEnv`: whether some value was refused. -/
def envOK (F : FlagSet) (env : Text → Option Text) (given : List (Text × Text)) : Bool :=
  (fromEnv F env given).all (fun p => match kindOf F p.1 with | some k => setOK F p.1 k p.2 | none => true)

/-- How the command begins. -/
inductive Start where
  | exit (status : Nat)
  | go (s : Settings)
  deriving DecidableEq

/-- main.go:83-84: `flag.Parse()`, `flagx.ArgsFromEnv(flag.CommandLine)`, whose error is not looked at. -/
def mainStart (L : Libs) (args : List Text) (env : Text → Option Text) : Start :=
  match parse (mainFlags L) none args with
  | (_, .exit n) => .exit n
  | (given, .done _) => .go ((defaults.setAll (mainFlags L) given).setAll (mainFlags L) (fromEnv (mainFlags L) env given))

/-- cmd/example-eventsocket-client/main.go:69-74: here an error of `ArgsFromEnv` ends the program with status 1 (`rtx.Must`), and so does an empty name of the socket
(`log.Fatal`). -/
def clientStart (L : Libs) (args : List Text) (env : Text → Option Text) : Start :=
  match parse (clientFlags L) none args with
  | (_, .exit n) => .exit n
  | (given, .done _) =>
    if envOK (clientFlags L) env given = false then .exit 1
    else
      let s := (defaults.setAll (clientFlags L) given).setAll (clientFlags L) (fromEnv (clientFlags L) env given)
      if s.socket = [] then .exit 1 else .go s

/-- main.go:115-136 with the settings. -/
def Settings.exclude (s : Settings) : ExcludeConfig := excludeConfig s.dstIPs s.srcPorts

/-- main.go:87-113 with the settings. -/
def Settings.startup (s : Settings) : Startup.Flags := { output := s.output, trace := s.trace, socket := s.socket }

end TcpInfo.Flags
