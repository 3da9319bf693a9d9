import Verif.Model.Config
/-!
# Configuration (C76, C77)

What a command line says, written down by generating command lines instead of parsing them.
-/
namespace Spec
open Comfo

/-- An element of a command line. -/
inductive Item
  /-- `--name=value` -/
  | set (k : Key) (v : Str)
  /-- `--name value`, in two words -/
  | set2 (k : Key) (v : Str)
  /-- `--debug` -/
  | debug
  /-- a word that is no flag -/
  | word (w : Str)
  /-- `-test.…`, which is left to the test library -/
  | test (w : Str)

/-- The name of a flag. -/
def flagName : Key → Str
  | .debug => "--debug".toList
  | .mode => "--mode".toList
  | .target => "--target".toList
  | .listen => "--listen".toList

/-- The words of an element. -/
def Item.words : Item → List Str
  | .set k v => [flagName k ++ '=' :: v]
  | .set2 k v => [flagName k, v]
  | .debug => ["--debug".toList]
  | .word w => [w]
  | .test w => ["-test.".toList ++ w]

/-- What is taken for yes and no. -/
def yes : List Str := ["1", "t", "T", "true", "TRUE", "True"].map String.toList
def no : List Str := ["0", "f", "F", "false", "FALSE", "False"].map String.toList

/-- `debug` is yes or no, and takes no second word; a word does not begin with a dash, unless it is
one. -/
def Item.ok : Item → Prop
  | .set k v => k = .debug → v ∈ yes ∨ v ∈ no
  | .set2 k _ => k ≠ .debug
  | .debug => True
  | .word w => w.head? ≠ some '-' ∨ w = ['-']
  | .test _ => True

/-- The value an element gives to `k`. -/
def Item.says (k : Key) : Item → Option Str
  | .set k' v => if k' = k then some v else none
  | .set2 k' v => if k' = k then some v else none
  | .debug => if k = .debug then some "true".toList else none
  | .word _ => none
  | .test _ => none

/-- A command line: elements, and possibly `--` followed by anything. -/
def commandLine (items : List Item) (rest : Option (List Str)) : List Str :=
  items.flatMap Item.words ++ match rest with
    | none => []
    | some ws => "--".toList :: ws

/-- The environment variable of a setting. -/
def variableOf : Key → Str
  | .debug => "COMFO_DEBUG".toList
  | .mode => "COMFO_MODE".toList
  | .target => "COMFO_TARGET".toList
  | .listen => "COMFO_LISTEN".toList

/-- The documented defaults. -/
def fallback : Key → Str
  | .debug => "false".toList
  | .mode => "serial".toList
  | .target => "/dev/ttyUSB0".toList
  | .listen => "[::]:3094".toList

/-- The last value given on the command line, else the environment variable unless it is empty, else
the default. -/
def chosen (items : List Item) (env : Environ) (k : Key) : Str :=
  match (items.filterMap (Item.says k)).getLast? with
  | some v => v
  | none =>
    match env (variableOf k) with
    | some (c :: v) => c :: v
    | _ => fallback k

/-- What the program is to do with its settings: only the modes `tcp` and `serial` connect anywhere,
and nothing else is touched. -/
def Connects (d : Dialer κ ε ω) (mode target listen : Str) (debug : Bool) (w : ω)
    (r : Boot κ ε × ω) : Prop :=
  (mode = "tcp".toList → ∃ o w', d (.tcp target) w = (o, w') ∧ r.2 = w' ∧
    (o.2 = none → r.1 = .serving o.1 listen debug) ∧ (∀ e, o.2 = some e → r.1 = .noUnit (.dial target e))) ∧
  (mode = "serial".toList → ∃ o w', d (.serial target 9600) w = (o, w') ∧ r.2 = w' ∧
    (o.2 = none → r.1 = .serving o.1 listen debug) ∧
    (∀ e, o.2 = some e → r.1 = .noUnit (.openPort target e))) ∧
  (mode ≠ "tcp".toList → mode ≠ "serial".toList → r = (.noUnit (.unsupported mode), w))

end Spec
