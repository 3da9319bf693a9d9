import Verif.Model.Api
/-!
# Programs: what a goroutine does, step by step

A handler of the server or a call of the library is a tree of primitive actions (`Prog`). The same
tree is interpreted by one goroutine alone (`Prog.run`, below) and by any number of goroutines
interleaved (`Verif/Model/Sys.lean`).
-/
namespace Comfo

/-- The six caches, `comfoserver/caches.go:15-20`. -/
inductive CacheId
  | boot | bypass | temps | fans | profiles | errors
  deriving DecidableEq, Repr

/-- What each cache holds, `comfoserver/caches.go:26-66`. -/
def CVal : CacheId → Type
  | .boot => BootInfo
  | .bypass => Bypass
  | .temps => Temps
  | .fans => Fans
  | .profiles => FanProfiles
  | .errors => Errors

instance : (id : CacheId) → DecidableEq (CVal id)
  | .boot => inferInstanceAs (DecidableEq BootInfo)
  | .bypass => inferInstanceAs (DecidableEq Bypass)
  | .temps => inferInstanceAs (DecidableEq Temps)
  | .fans => inferInstanceAs (DecidableEq Fans)
  | .profiles => inferInstanceAs (DecidableEq FanProfiles)
  | .errors => inferInstanceAs (DecidableEq Errors)

/-- A cache: the embedded value and `LastUpdated`. Times are nanoseconds since the zero
`time.Time`. -/
structure Entry (α : Type) where
  val : α
  last : Int := 0
  deriving DecidableEq, Repr

/-- The mutexes: `tempLock`, `fanLock` (`comfoserver/server.go:19-22`), `am`
(`libcomfo/api.go:10`), the `CacheLock`s (`comfoserver/caches.go:26-66`), `pm`
(`libcomfo/conn.go:12`). -/
inductive Lock
  | temp | fan | am | cache (id : CacheId) | pm
  deriving DecidableEq, Repr

/-- A program with result `α`. `panic` is a run-time panic (deferred unlocks are not modelled:
panics are proved unreachable). -/
inductive Prog (α : Type) : Type
  /-- The function returns. -/
  | ret (a : α)
  /-- Run-time panic. -/
  | panic
  /-- `Lock()` / `Unlock()` / `RLock()` / `RUnlock()`. -/
  | lock (l : Lock) (k : Prog α)
  | unlock (l : Lock) (k : Prog α)
  | rlock (l : Lock) (k : Prog α)
  | runlock (l : Lock) (k : Prog α)
  /-- `time.Now()`. -/
  | now (k : Int → Prog α)
  /-- `time.Sleep`, nanoseconds. -/
  | sleep (ns : Nat) (k : Prog α)
  /-- `conn.Write(bs)`. -/
  | write (bs : List UInt8) (k : Nat × Option Err → Prog α)
  /-- `ReadPacket(conn, time.NewTimer(time.Second), expect)` (`libcomfo/conn.go:182-185`). -/
  | read (expect : Bool) (k : Packet × Option Err → Prog α)
  /-- Read from a cache. -/
  | load (id : CacheId) (k : Entry (CVal id) → Prog α)
  /-- Assign value and time stamp of a cache. -/
  | store (id : CacheId) (e : Entry (CVal id)) (k : Prog α)
  /-- Ghost action without counterpart in the code: marks in the I/O log that a refresh of a
  cache begins. No program looks at the log. -/
  | note (id : CacheId) (t : Int) (k : Prog α)
  /-- `flushCache <- t` (`comfoserver/server.go:239`). -/
  | sendFlush (t : Int) (k : Prog α)
  /-- `<-flushSuccess` (`comfoserver/server.go:243`). -/
  | recvFlushed (k : Bool → Prog α)
  /-- `flushSuccess <- b` (`comfoserver/caches.go:86-103`). -/
  | sendFlushed (b : Bool) (k : Prog α)

namespace Prog

/-- Sequencing. -/
def bind : Prog α → (α → Prog β) → Prog β
  | ret a, f => f a
  | panic, _ => panic
  | lock l k, f => lock l (k.bind f)
  | unlock l k, f => unlock l (k.bind f)
  | rlock l k, f => rlock l (k.bind f)
  | runlock l k, f => runlock l (k.bind f)
  | now k, f => now fun t => (k t).bind f
  | sleep ns k, f => sleep ns (k.bind f)
  | write bs k, f => write bs fun r => (k r).bind f
  | read e k, f => read e fun r => (k r).bind f
  | load id k, f => load id fun r => (k r).bind f
  | store id e k, f => store id e (k.bind f)
  | note id t k, f => note id t (k.bind f)
  | sendFlush t k, f => sendFlush t (k.bind f)
  | recvFlushed k, f => recvFlushed fun b => (k b).bind f
  | sendFlushed b k, f => sendFlushed b (k.bind f)

instance : Monad Prog where
  pure := ret
  bind := bind

end Prog

/-! ## The world a program acts on -/

/-- The other end of the connection: what a `Write` and a `ReadPacket` do. -/
structure Line (σ : Type) where
  write : List UInt8 → σ → (Nat × Option Err) × σ
  read : Bool → σ → Go Packet × σ

/-- The connection as a script (`Verif/Model/Conn.lean`). -/
def scriptLine : Line Conn where
  write bs c := c.write bs
  read expect c := readPacket c expect

/-- One entry of the I/O log. -/
inductive IoEv
  | wrote (bs : List UInt8) (r : Nat × Option Err)
  | got (expect : Bool) (r : Packet × Option Err)
  | refresh (id : CacheId) (t : Int)
  | answered (b : Bool)
  deriving DecidableEq, Repr

/-- The global variables of the program and its environment: the connection
(`comfoserver/caches.go:13`), the clock (`adv`: by how much it advances before each `time.Now`),
the caches (`comfoserver/caches.go:15-20`), and a log of all I/O. -/
structure World (σ : Type) where
  line : σ
  clock : Int := 0
  adv : List Nat := []
  boot : Entry BootInfo := { val := {} }
  bypass : Entry Bypass := { val := {} }
  temps : Entry Temps := { val := {} }
  fans : Entry Fans := { val := {} }
  profiles : Entry FanProfiles := { val := {} }
  errors : Entry Errors := { val := {} }
  io : List IoEv := []
  deriving DecidableEq, Repr

/-- A cache by name. -/
def World.get (w : World σ) : (id : CacheId) → Entry (CVal id)
  | .boot => w.boot
  | .bypass => w.bypass
  | .temps => w.temps
  | .fans => w.fans
  | .profiles => w.profiles
  | .errors => w.errors

/-- Assignment to a cache. -/
def World.set (w : World σ) : (id : CacheId) → Entry (CVal id) → World σ
  | .boot, e => { w with boot := e }
  | .bypass, e => { w with bypass := e }
  | .temps, e => { w with temps := e }
  | .fans, e => { w with fans := e }
  | .profiles, e => { w with profiles := e }
  | .errors, e => { w with errors := e }

/-- Append to the log. -/
def World.log (w : World σ) (ev : IoEv) : World σ := { w with io := w.io ++ [ev] }

/-- `time.Now()`. -/
def World.tick (w : World σ) : World σ :=
  { w with clock := w.clock + (w.adv.headD 0 : Nat), adv := w.adv.tail }

/-- The program alone: no other goroutine runs, every lock is free (that a goroutine never waits
for itself is part of C30), and a receiver of `flushSuccess` is ready. `none` is a panic, or one of
the two channel operations of a `FlushCache` request, which need the worker. -/
def Prog.run (L : Line σ) : Prog α → World σ → Option α × World σ
  | ret a, w => (some a, w)
  | panic, w => (none, w)
  | lock _ k, w => k.run L w
  | unlock _ k, w => k.run L w
  | rlock _ k, w => k.run L w
  | runlock _ k, w => k.run L w
  | now k, w => (k w.tick.clock).run L w.tick
  | sleep ns k, w => k.run L { w with clock := w.clock + (ns : Int) }
  | write bs k, w =>
    let (r, line) := L.write bs w.line
    (k r).run L ({ w with line := line }.log (.wrote bs r))
  | read e k, w =>
    match L.read e w.line with
    | (.panic, line) => (none, { w with line := line })
    | (.ret q err, line) => (k (q, err)).run L ({ w with line := line }.log (.got e (q, err)))
  | load id k, w => (k (w.get id)).run L w
  | store id e k, w => k.run L (w.set id e)
  | note id t k, w => k.run L (w.log (.refresh id t))
  | sendFlush _ _, w => (none, w)
  | recvFlushed _, w => (none, w)
  | sendFlushed b k, w => k.run L (w.log (.answered b))

/-! ## The library calls as programs -/

/-- `libcomfo/conn.go:170-200` `QueryPacket` with `WritePacket` (`:128-149`) and `WriteAck`
(`:152-164`) inlined. The deferred unlock is spelled out on every path. -/
def queryPacketP (p : Packet) : Prog (Packet × Option Err) :=
  .lock .pm <|
  match marshalPacket p with
  | (_, some e) => .unlock .pm <| .ret ({}, some e)
  | (pb, none) =>
    .write (pktStart ++ pb ++ pktEnd) fun (_, err) =>
    match err with
    | some e => .unlock .pm <| .ret ({}, some e)
    | none =>
      .read p.expect fun (out, err) =>
      match err with
      | some e => .unlock .pm <| .ret (out, some e)
      | none =>
        if p.expect ∧ out.command ≠ p.command + 1 then
          .unlock .pm <| .ret (out, some .invalidResponse)
        else
          .write pktAck fun (num, err) =>
          match err with
          | some e => .unlock .pm <| .ret (out, some e)
          | none =>
            .unlock .pm <| .ret (out, if num ≠ pktAck.length then some .ack else none)

/-- `libcomfo/message.go:89-99` `setQuery`. -/
def setQueryP (inp : SetRequest) : Prog (Option Err) :=
  match encodeSetRequest inp with
  | (_, some e) => .ret (some e)
  | (sr, none) => (queryPacketP sr).bind fun (_, e) => .ret e

/-- `libcomfo/message.go:103-115` `getQuery` and the getters of `libcomfo/api.go:68-154` (see
`getter` in `Verif/Model/Api.lean`). -/
def getterP (gr : GetRequest) (zero : α) (assert : Response → Option α) :
    Prog (α × Option Err) :=
  (queryPacketP (encodeGetRequest gr)).bind fun (qp, e) =>
  match e with
  | some e => .ret (zero, some e)
  | none =>
    match decodeResponse qp with
    | .panic => .panic
    | .ret _ (some e) => .ret (zero, some e)
    | .ret none none => .panic
    | .ret (some resp) none =>
      match assert resp with
      | some v => .ret (v, none)
      | none => .panic

/-- `libcomfo/api.go:69-77`. -/
def getTemperaturesP : Prog (Temps × Option Err) :=
  getterP .temps {} (fun | .temps v => some v | _ => none)
/-- `libcomfo/api.go:80-88`. -/
def getBypassP : Prog (Bypass × Option Err) :=
  getterP .bypass {} (fun | .bypass v => some v | _ => none)
/-- `libcomfo/api.go:91-99`. -/
def getFansP : Prog (Fans × Option Err) :=
  getterP .fans {} (fun | .fans v => some v | _ => none)
/-- `libcomfo/api.go:113-121`. -/
def getBootloaderP : Prog (BootInfo × Option Err) :=
  getterP .bootloader {} (fun | .bootInfo v => some v | _ => none)
/-- `libcomfo/api.go:135-143`. -/
def getFanProfilesP : Prog (FanProfiles × Option Err) :=
  getterP .fanProfiles {} (fun | .fanProfiles v => some v | _ => none)
/-- `libcomfo/api.go:146-154`. -/
def getErrorsP : Prog (Errors × Option Err) :=
  getterP .errors {} (fun | .errors v => some v | _ => none)

/-- `libcomfo/api.go:14-17`. -/
def setComfortP (val : UInt8) : Prog (Option Err) := setQueryP (.comfort (val.toNat : Int))

/-- `libcomfo/api.go:20-23`. -/
def setSpeedP (val : UInt8) : Prog (Option Err) := setQueryP (.speed val)

/-- `libcomfo/api.go:63-66`, for a non-nil argument. -/
def setFanProfilesP (q : FanProfiles) : Prog (Option Err) := setQueryP (.fanProfiles q)

/-- `libcomfo/api.go:26-59` `SetFanProfile` with its mutex (lines 39-40). -/
def setFanProfileP (mode speed : UInt8) : Prog (Option Err) :=
  if mode > 3 then .ret (some .unknownMode)
  else if speed > 100 then .ret (some .tooHigh)
  else
    .lock .am <|
    getFanProfilesP.bind fun (cfp, err) =>
    match err with
    | some e => .unlock .am <| .ret (some e)
    | none =>
      (setQueryP (.fanProfiles (patchProfile mode speed cfp))).bind fun e =>
      .unlock .am <| .ret e

end Comfo
