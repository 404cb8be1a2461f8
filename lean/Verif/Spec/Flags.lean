import Verif.Model.Flags
/-!
# Specification: options of a command

An option has a name and a value, and can be written in several ways. What a command makes of its options: the last value counts, or all of them for
options that can be given several times; for those that are not given, the variable of the environment; otherwise the default.
-/

namespace TcpInfo.Spec
open TcpInfo.Flags

/-- How an option is written. -/
inductive Spelling where
  /-- `-name=value` -/
  | joined
  /-- `-name value` -/
  | apart
  /-- `-name`, which means the value `true` -/
  | alone
  deriving DecidableEq

/-- An option on the command line. -/
structure Opt where
  name : Text
  value : Text
  /-- with two dashes -/
  double : Bool
  spelling : Spelling
  deriving DecidableEq

/-- The dashes. -/
def Opt.dashes (o : Opt) : Text := if o.double then ['-', '-'] else ['-']

/-- The arguments it consists of. -/
def Opt.args (o : Opt) : List Text :=
  match o.spelling with
  | .joined => [o.dashes ++ o.name ++ '=' :: o.value]
  | .apart => [o.dashes ++ o.name, o.value]
  | .alone => [o.dashes ++ o.name]

/-- A command line that consists of options. -/
def argsOf (opts : List Opt) : List Text := opts.flatMap Opt.args

/-- The option exists, its spelling is possible and its value is accepted. Options that are on or off are written alone or joined, the others with a value. -/
def Opt.Valid (F : FlagSet) (o : Opt) : Prop :=
  ∃ k, kindOf F o.name = some k ∧ setOK F o.name k o.value = true
    ∧ match o.spelling with
      | .joined => True
      | .apart => k.isBool = false
      | .alone => k.isBool = true ∧ o.value = "true".toList

/-- Names that flags can have: not empty, no dash in front, no `=`. -/
def GoodNames (F : FlagSet) : Prop := ∀ f ∈ F.flags, f.1 ≠ [] ∧ f.1.head? ≠ some '-' ∧ '=' ∉ f.1

/-- An argument that is no option: it does not begin with a dash or is a dash. -/
def Plain (a : Text) : Prop := a.head? ≠ some '-' ∨ a = ['-']

/-- What may stand behind the options: nothing, the terminator `--`, or an argument that is no option. -/
def EndsOptions (tail : List Text) : Prop := tail = [] ∨ (∃ rest, tail = ['-', '-'] :: rest) ∨ ∃ a rest, tail = a :: rest ∧ Plain a

/-- The values given for a name. -/
def given (opts : List Opt) (name : String) : List Text := (opts.filter (fun o => o.name = name.toList)).map (·.value)

/-- The value that counts, if there is one: the last one given; otherwise that of the environment. -/
def effective (opts : List Opt) (env : Text → Option Text) (name var : String) : Option Text :=
  match (given opts name).getLast? with
  | some v => some v
  | none => env var.toList

/-- The values that count for an option that can be given several times. -/
def allValues (opts : List Opt) (env : Text → Option Text) (name var : String) : List Text :=
  if given opts name = [] then (env var.toList).toList else given opts name

/-- The settings the options and the environment stand for. -/
def settingsOf (items : Text → List Text) (opts : List Opt) (env : Text → Option Text) : Settings :=
  { reps := ((effective opts env "reps" "REPS").map (fun v => (parseInt v).1)).getD 0
    trace := ((effective opts env "trace" "TRACE").bind parseBool).getD false
    output := (effective opts env "output" "OUTPUT").getD []
    srcPorts := (allValues opts env "exclude-srcport" "EXCLUDE_SRCPORT").flatMap items
    dstIPs := (allValues opts env "exclude-dstip" "EXCLUDE_DSTIP").flatMap items
    socket := (effective opts env "tcpinfo.eventsocket" "TCPINFO_EVENTSOCKET").getD [] }

/-- The ways to write "on". -/
def onTexts : List Text := ["1", "t", "T", "true", "True", "TRUE"].map String.toList

/-- The ways to write "off". -/
def offTexts : List Text := ["0", "f", "F", "false", "False", "FALSE"].map String.toList

/-- `c` is the digit of value `d`, in upper or lower case. -/
def IsDigit (c : Char) (d : Nat) : Prop := "0123456789abcdef".toList[d]? = some c ∨ "0123456789ABCDEF".toList[d]? = some c

/-- Further digits of base `b` behind a numeral of value `n`, each perhaps with an underscore before it: all together have value `v`. -/
inductive More (b : Nat) : Nat → Text → Nat → Prop
  | nil (n : Nat) : More b n [] n
  | digit (n : Nat) (c : Char) (d : Nat) (t : Text) (v : Nat) : IsDigit c d → d < b → More b (n * b + d) t v → More b n (c :: t) v
  | under (n : Nat) (c : Char) (d : Nat) (t : Text) (v : Nat) : IsDigit c d → d < b → More b (n * b + d) t v → More b n ('_' :: c :: t) v

/-- Whole numbers as in Go's source text: decimal, octal (behind `0` or `0o`), binary (`0b`), hexadecimal (`0x`). -/
inductive Literal : Text → Nat → Prop
  | decimal (c : Char) (d : Nat) (t : Text) (v : Nat) : IsDigit c d → 0 < d → d < 10 → More 10 d t v → Literal (c :: t) v
  | octal (t : Text) (v : Nat) : More 8 0 t v → Literal ('0' :: t) v
  | prefixed (c : Char) (b : Nat) (t : Text) (v : Nat) : (c, b) ∈ [('b', 2), ('B', 2), ('o', 8), ('O', 8), ('x', 16), ('X', 16)] → t ≠ [] → More b 0 t v →
      Literal ('0' :: c :: t) v

/-- With or without a sign. -/
inductive IntLiteral : Text → Int → Prop
  | bare (t : Text) (v : Nat) : Literal t v → IntLiteral t v
  | plus (t : Text) (v : Nat) : Literal t v → IntLiteral ('+' :: t) v
  | minus (t : Text) (v : Nat) : Literal t v → IntLiteral ('-' :: t) (-(v : Int))

/-- A number as it is usually written. -/
def Decimal (s : Text) (i : Int) : Prop := s = (toString i).toList

/-- Why a command line is refused, at its first argument, and the exit status. -/
inductive Refused (F : FlagSet) : List Text → Nat → Prop
  /-- three dashes, or nothing or `=` behind the dashes -/
  | syntax (a : Text) (rest : List Text) : (∃ d r, a = d ++ r ∧ (d = ['-'] ∧ r.head? = some '=' ∨ d = ['-', '-'] ∧ (r.head? = some '-' ∨ r.head? = some '='))) →
      Refused F (a :: rest) 2
  /-- no such option -/
  | unknown (o : Opt) (rest : List Text) : kindOf F o.name = none → o.name ≠ [] → o.name.head? ≠ some '-' → '=' ∉ o.name → o.spelling ≠ .apart →
      o.name ≠ "help".toList → o.name ≠ "h".toList → Refused F (o.args ++ rest) 2
  /-- help is wanted -/
  | help (o : Opt) (rest : List Text) : kindOf F o.name = none → o.name = "help".toList ∨ o.name = "h".toList → o.spelling ≠ .apart → Refused F (o.args ++ rest) 0
  /-- the value is not accepted -/
  | value (o : Opt) (k : Kind) (rest : List Text) : kindOf F o.name = some k → setOK F o.name k o.value = false →
      (match o.spelling with
      | .joined => True
      | .apart => k.isBool = false
      | .alone => k.isBool = true ∧ o.value = "true".toList) → Refused F (o.args ++ rest) 2
  /-- the value is missing -/
  | missing (o : Opt) (k : Kind) : kindOf F o.name = some k → k.isBool = false → o.spelling = .alone → Refused F o.args 2

end TcpInfo.Spec
