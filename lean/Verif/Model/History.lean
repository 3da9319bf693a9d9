import Verif.Model.Server
/-!
# Histories of the server

RPCs, flushes and ticks one after the other, each run to completion before the next (that
interleaving them does no harm is the subject of `Verif/Props/Sync.lean`), with arbitrary changes
of the other end of the line and arbitrary pauses in between.
-/
namespace Comfo

/-- One event of a history. -/
inductive Op (σ : Type)
  | getBoot | getBypass | getErrors | getFans | getProfiles | getTemps
  | setComfort (temp : UInt32)
  | setSpeed (abs : UInt32) (rel : Bool)
  | setProfile (mode target : UInt32)
  /-- The worker's part of `FlushCache`. -/
  | flush (t : Int)
  | tick (k : Tick)
  /-- The other end of the line changes on its own. -/
  | environment (f : σ → σ)
  /-- Time passes. -/
  | pause (ns : Nat)

/-- Forget the result. -/
def Prog.drop (p : Prog α) : Prog Unit := p.bind fun _ => .ret ()

/-- The program an event runs: the handlers of `comfoserver/server.go` and the branches of
`CacheWorker` (`comfoserver/timers.go:45-65`). -/
def Op.prog (cv : FloatConv) : Op σ → Prog Unit
  | .getBoot => getBootInfoRpc.drop
  | .getBypass => getBypassRpc.drop
  | .getErrors => getErrorsRpc.drop
  | .getFans => getFansRpc.drop
  | .getProfiles => getFanProfilesRpc.drop
  | .getTemps => getTempsRpc.drop
  | .setComfort v => (setComfortTemp cv v).drop
  | .setSpeed a r => (setFanSpeed a r).drop
  | .setProfile m t => (setFanProfileRpc m t).drop
  | .flush t => flushCaches t
  | .tick k => onTick k
  | .environment _ => .ret ()
  | .pause ns => .sleep ns (.ret ())

/-- One event. -/
def Op.exec (cv : FloatConv) (L : Line σ) (w : World σ) : Op σ → World σ
  | .environment f => { w with line := f w.line }
  | o => ((o.prog cv).run L w).2

/-- A history. -/
def runOps (cv : FloatConv) (L : Line σ) (ops : List (Op σ)) (w : World σ) : World σ :=
  ops.foldl (Op.exec cv L) w

/-- The state before `StartCaches`: all caches zero (`comfoserver/caches.go:15-20`). -/
def World.initial (line : σ) (clock : Int) (adv : List Nat) : World σ :=
  { line := line, clock := clock, adv := adv }

/-! ## A sample unit for examples -/

/-- A unit that always answers at once; its state is the last command it got. Not part of the
code. -/
def sampleLine (payload : UInt8 → List UInt8) : Line UInt8 where
  write bs s := ((bs.length, none), if bs.length = 2 then s else bs.getD 3 0)
  read e s := (.ret (if e then { command := s + 1, data := payload s } else {}) none, s)

/-- Payloads of a plausible unit: fans at 30/35 %, comfort 21 °C, mode 2 (low). -/
def samplePayload (cmd : UInt8) : List UInt8 :=
  if cmd = 0x0B then [30, 35, 4, 0, 4, 0]
  else if cmd = 0x67 then [3, 20, 0, 67, 65, 51, 53, 48, 32, 32, 32, 32, 32]
  else if cmd = 0xCD then [15, 35, 55, 15, 30, 50, 30, 35, 2, 1, 75, 70, 0, 0]
  else if cmd = 0xD1 then [82, 50, 80, 82, 52, 0, 0, 0, 0]
  else if cmd = 0xD9 then [0, 0, 0, 0, 0, 0, 0, 0, 1, 0, 0, 0, 0, 0, 0, 0, 0]
  else if cmd = 0xDF then [0, 0, 5, 40, 1, 0, 1]
  else []

end Comfo
