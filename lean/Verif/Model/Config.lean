import Verif.Model.Http
/-!
# Model of the configuration: `config.go` and the beginning of `main` (`comfo.go:31-56`)

The libraries pflag (v1.0.5) and viper (v1.18.2) are modelled as far as the program uses them: long
flags without abbreviations, no shorthands, no normalisation; viper with flags and the automatic
environment, without configuration file, defaults of its own, aliases or remote stores. Printing is
not modelled.
-/
namespace Comfo

/-- The configuration keys, `config.go:10-13`. -/
inductive Key
  | debug | mode | target | listen
  deriving DecidableEq, Repr

/-- `config.go:10-13`. -/
def Key.name : Key → Str
  | .debug => "debug".toList
  | .mode => "mode".toList
  | .target => "target".toList
  | .listen => "listen".toList

/-- `config.go:16-19`; a flag's value as a string. -/
def Key.default : Key → Str
  | .debug => "false".toList
  | .mode => "serial".toList
  | .target => "/dev/ttyUSB0".toList
  | .listen => "[::]:3094".toList

/-- pflag's table of flags, after `config.go:24-27`. -/
def Key.ofName (n : Str) : Option Key :=
  if n = "debug".toList then some .debug
  else if n = "mode".toList then some .mode
  else if n = "target".toList then some .target
  else if n = "listen".toList then some .listen
  else none

/-- `strconv.ParseBool` (Go standard library). -/
def parseBool (s : Str) : Option Bool :=
  if s = "1".toList ∨ s = "t".toList ∨ s = "T".toList ∨ s = "true".toList ∨ s = "TRUE".toList ∨
    s = "True".toList then some true
  else if s = "0".toList ∨ s = "f".toList ∨ s = "F".toList ∨ s = "false".toList ∨ s = "FALSE".toList ∨
    s = "False".toList then some false
  else none

/-- `strconv.FormatBool`. -/
def formatBool (b : Bool) : Str := if b then "true".toList else "false".toList

/-- What pflag keeps of a flag: its value and whether it was set. -/
structure Flag where
  value : Str
  changed : Bool

abbrev Flags := Key → Flag

/-- After `config.go:24-27`. -/
def Flags.start : Flags := fun k => ⟨k.default, false⟩

/-- pflag's `FlagSet.Set`: `none` is an error. `config.go:24` makes `debug` a `boolValue`, the others
are `stringValue`s. -/
def Flags.set (f : Flags) (k : Key) (v : Str) : Option Flags :=
  match k with
  | .debug => (parseBool v).map fun b => fun k' => if k' = k then ⟨formatBool b, true⟩ else f k'
  | _ => some fun k' => if k' = k then ⟨v, true⟩ else f k'

/-- pflag's `parseArgs`, `parseLongArg` and `parseShortArg`. `none` is an error (also the one for
`--help`): the program ends with code 2, since `CommandLine` is made with `ExitOnError`. A boolean flag
has "true" as its value when none is given (`NoOptDefVal`). -/
def parseArgs (f : Flags) : List Str → Option Flags
  | [] => some f
  | s :: args =>
    match s with
    | '-' :: '-' :: name =>
      if name = [] then some f
      else if name.head? = some '-' ∨ name.head? = some '=' then none
      else
        match Key.ofName (name.takeWhile (· ≠ '=')) with
        | none => none
        | some k =>
          match name.dropWhile (· ≠ '=') with
          | _ :: v => (f.set k v).bind fun f => parseArgs f args
          | [] =>
            if k = .debug then (f.set k "true".toList).bind fun f => parseArgs f args
            else
              match args with
              | [] => none
              | v :: args => (f.set k v).bind fun f => parseArgs f args
    | '-' :: c :: shorts =>
      if "test.".toList.isPrefixOf (c :: shorts) then parseArgs f args else none
    | _ => parseArgs f args

/-- The environment, `os.LookupEnv`. -/
abbrev Environ := Str → Option Str

/-- `strings.ToUpper` for the ASCII letters of the keys. -/
def toUpper (c : Char) : Char := if 'a' ≤ c ∧ c ≤ 'z' then Char.ofNat (c.toNat - 32) else c

/-- viper's `mergeWithEnvPrefix`, with the prefix of `comfo.go:36`. -/
def envName (k : Key) : Str := ("comfo".toList ++ '_' :: k.name).map toUpper

/-- viper's `getEnv`: an empty variable does not count. -/
def getEnv (env : Environ) (n : Str) : Option Str :=
  match env n with
  | some [] => none
  | x => x

/-- viper's `find`: a flag that was set, then the environment (`comfo.go:37`), then the default of the
flag (bound in `config.go:30`). -/
def find (f : Flags) (env : Environ) (k : Key) : Str :=
  if (f k).changed then (f k).value
  else match getEnv env (envName k) with
    | some v => v
    | none => (f k).value

/-- viper's `GetBool`: `cast.ToBool` takes what cannot be parsed for false. -/
def findBool (f : Flags) (env : Environ) (k : Key) : Bool := (parseBool (find f env k)).getD false

/-- What becomes of the program until it serves. -/
inductive Boot (κ ε : Type)
  /-- `pflag.Parse` ends the program. -/
  | usage
  /-- `comfo.go:49-51`. -/
  | noUnit (e : DialErr ε)
  /-- `StartCaches` is called with this connection, then the server listens. -/
  | serving (conn : Option κ) (listen : Str) (debug : Bool)
  deriving DecidableEq, Repr

/-- `config.go:22-33` and `comfo.go:31-65`, up to `StartCaches`. `args` is `os.Args[1:]`. -/
def boot (d : Dialer κ ε ω) (args : List Str) (env : Environ) (w : ω) : Boot κ ε × ω :=
  match parseArgs Flags.start args with
  | none => (.usage, w)
  | some f =>
    let debug := findBool f env .debug
    match connectUnit d (find f env .mode) (find f env .target) w with
    | ((_, some e), w) => (.noUnit e, w)
    | ((conn, none), w) => (.serving conn (find f env .listen) debug, w)

end Comfo
