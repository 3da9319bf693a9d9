import Verif.Model.Server
/-!
# The server with all its goroutines

Any number of requests run at the same time as the cache worker. One step of the system is one
primitive action of one goroutine (`Prog`), a rendezvous on one of the two channels, a tick of a
timer, the arrival of a request, or a change at the other end of the line.
-/
namespace Comfo

/-- The goroutines: one per request (in order of arrival) and the cache worker
(`comfoserver/timers.go:40`). -/
inductive Tid
  | client (i : Nat)
  | worker
  deriving DecidableEq, Repr

/-- An action that was carried out, with its result. -/
inductive Act
  | lock (l : Lock)
  | unlock (l : Lock)
  | rlock (l : Lock)
  | runlock (l : Lock)
  | now (t : Int)
  | sleep (ns : Nat)
  | wrote (bs : List UInt8) (r : Nat × Option Err)
  | got (expect : Bool) (r : Packet × Option Err)
  | load (id : CacheId) (c : Entry (CVal id))
  | store (id : CacheId) (e : Entry (CVal id))
  | note (id : CacheId) (t : Int)
  | sendFlush (t : Int)
  | recvFlushed (b : Bool)
  | sendFlushed (b : Bool)

/-- `p.Next a q`: the next action of `p` may be `a`, and what is left to do then is `q`. -/
inductive Prog.Next : Prog α → Act → Prog α → Prop
  | lock : Next (.lock l k) (.lock l) k
  | unlock : Next (.unlock l k) (.unlock l) k
  | rlock : Next (.rlock l k) (.rlock l) k
  | runlock : Next (.runlock l k) (.runlock l) k
  | now (t) : Next (.now k) (.now t) (k t)
  | sleep : Next (.sleep ns k) (.sleep ns) k
  | write (r) : Next (.write bs k) (.wrote bs r) (k r)
  | read (r) : Next (.read e k) (.got e r) (k r)
  | load {id : CacheId} {k} (c) : Next (.load id k) (.load id c) (k c)
  | store {id : CacheId} {e k} : Next (.store id e k) (.store id e) k
  | note {id : CacheId} {t k} : Next (.note id t k) (.note id t) k
  | sendFlush : Next (.sendFlush t k) (.sendFlush t) k
  | recvFlushed (b) : Next (.recvFlushed k) (.recvFlushed b) (k b)
  | sendFlushed : Next (.sendFlushed b k) (.sendFlushed b) k

/-- A lock that is held: exclusively (`Lock`) or shared (`RLock`), and by whom. -/
structure Held where
  lock : Lock
  excl : Bool
  tid : Tid
  deriving DecidableEq, Repr

/-- What the goroutines share: the world, the state of the mutexes, and a record of everything
done. The record is not part of the code. -/
structure Shared (σ : Type) where
  world : World σ
  held : List Held := []
  trace : List (Tid × Act) := []

/-- `s.Acts L t a s'`: goroutine `t` can carry out `a` in `s`, with result `s'`.
`sync.Mutex`/`sync.RWMutex`: `Lock` waits until nobody holds the lock, `RLock` until nobody holds
it exclusively. (Go's `RLock` also waits for a waiting `Lock`; the model allows both, and C30 is
proved for the stricter rule.) Unlocking a lock one does not hold is never possible; C30 shows that
no program tries. Sleeping lets any time pass, since others sleep at the same time; that it lasts at
least as long as asked for is added in `Spec.Timed`. -/
inductive Acts (L : Line σ) (t : Tid) : Act → Shared σ → Shared σ → Prop
  | lock : (∀ h ∈ s.held, h.lock ≠ l) →
    Acts L t (.lock l) s
      { s with held := ⟨l, true, t⟩ :: s.held, trace := s.trace ++ [(t, .lock l)] }
  | unlock : ⟨l, true, t⟩ ∈ s.held →
    Acts L t (.unlock l) s
      { s with held := s.held.erase ⟨l, true, t⟩, trace := s.trace ++ [(t, .unlock l)] }
  | rlock : (∀ h ∈ s.held, h.lock = l → h.excl = false) →
    Acts L t (.rlock l) s
      { s with held := ⟨l, false, t⟩ :: s.held, trace := s.trace ++ [(t, .rlock l)] }
  | runlock : ⟨l, false, t⟩ ∈ s.held →
    Acts L t (.runlock l) s
      { s with held := s.held.erase ⟨l, false, t⟩, trace := s.trace ++ [(t, .runlock l)] }
  | now : Acts L t (.now s.world.tick.clock) s
      { s with world := s.world.tick, trace := s.trace ++ [(t, .now s.world.tick.clock)] }
  | sleep (d : Nat) : Acts L t (.sleep ns) s
      { s with world := { s.world with clock := s.world.clock + (d : Int) },
               trace := s.trace ++ [(t, .sleep ns)] }
  | wrote : L.write bs s.world.line = (r, line) →
    Acts L t (.wrote bs r) s
      { s with world := { s.world with line := line }.log (.wrote bs r),
               trace := s.trace ++ [(t, .wrote bs r)] }
  | got : L.read e s.world.line = (.ret q err, line) →
    Acts L t (.got e (q, err)) s
      { s with world := { s.world with line := line }.log (.got e (q, err)),
               trace := s.trace ++ [(t, .got e (q, err))] }
  | load {id : CacheId} : Acts L t (.load id (s.world.get id)) s
      { s with trace := s.trace ++ [(t, .load id (s.world.get id))] }
  | store {id : CacheId} {e} : Acts L t (.store id e) s
      { s with world := s.world.set id e, trace := s.trace ++ [(t, .store id e)] }
  | note {id : CacheId} {ts} : Acts L t (.note id ts) s
      { s with world := s.world.log (.refresh id ts), trace := s.trace ++ [(t, .note id ts)] }

/-! ## Requests -/

/-- What a goroutine may be asked to do: the ten RPCs, and calls of the library by a program that
uses it directly. -/
inductive Call
  | getBoot | getBypass | getErrors | getFans | getProfiles | getTemps
  | setComfort (temp : UInt32)
  | setSpeed (abs : UInt32) (rel : Bool)
  | setProfile (mode target : UInt32)
  | flush (t : Int)
  /-- `libcomfo.QueryPacket` with any packet of at most 255 bytes of data. -/
  | libQuery (p : Packet)
  /-- The getters of the library. -/
  | libGet (id : CacheId)
  | libSetComfort (v : UInt8)
  | libSetSpeed (v : UInt8)
  | libSetProfile (mode speed : UInt8)
  | libSetProfiles (q : FanProfiles)
  deriving DecidableEq

/-- The answers. -/
inductive Resp
  | boot (r : Rpc PbBootInfo)
  | bypass (r : Rpc PbBypass)
  | errors (r : Rpc PbErrors)
  | fans (r : Rpc PbFans)
  | profiles (r : Rpc PbFanProfiles)
  | temps (r : Rpc PbTemps)
  | comfort (r : Rpc ComfortModified)
  | speed (r : Rpc SpeedModified)
  | flushed (r : Rpc FlushResponse)
  | packet (r : Packet × Option Err)
  | value (id : CacheId) (r : CVal id × Option Err)
  | err (e : Option Err)

/-- Apply a function to the result. -/
def Prog.map (f : α → β) (p : Prog α) : Prog β := p.bind fun a => .ret (f a)

/-- The program of a request. -/
def Call.prog (cv : FloatConv) : Call → Prog Resp
  | .getBoot => getBootInfoRpc.map .boot
  | .getBypass => getBypassRpc.map .bypass
  | .getErrors => getErrorsRpc.map .errors
  | .getFans => getFansRpc.map .fans
  | .getProfiles => getFanProfilesRpc.map .profiles
  | .getTemps => getTempsRpc.map .temps
  | .setComfort v => (setComfortTemp cv v).map .comfort
  | .setSpeed a r => (setFanSpeed a r).map .speed
  | .setProfile m t => (setFanProfileRpc m t).map .speed
  | .flush t => (flushCacheRpc t).map .flushed
  | .libQuery p => (queryPacketP p).map .packet
  | .libGet id => id.fetch.map (.value id)
  | .libSetComfort v => (setComfortP v).map .err
  | .libSetSpeed v => (setSpeedP v).map .err
  | .libSetProfile m s => (setFanProfileP m s).map .err
  | .libSetProfiles q => (setFanProfilesP q).map .err

/-- A request and what is left to do for it. -/
structure Client where
  call : Call
  prog : Prog Resp

/-- The whole system. `worker = .ret ()`: the worker waits in its `select`
(`comfoserver/timers.go:50`). -/
structure Sys (σ : Type) where
  sh : Shared σ
  clients : List Client := []
  worker : Prog Unit := .ret ()

/-- The state of one client after it moved. -/
def Sys.setClient (s : Sys σ) (i : Nat) (p : Prog Resp) : List Client :=
  s.clients.modify i fun c => { c with prog := p }

/-- Steps that carry on with work that has begun. -/
inductive Work (L : Line σ) : Sys σ → Sys σ → Prop
  /-- A request does its next action. -/
  | client (i c a p sh) : s.clients[i]? = some c → c.prog.Next a p → Acts L (.client i) a s.sh sh →
    Work L s { s with sh := sh, clients := s.setClient i p }
  /-- The worker does its next action. -/
  | worker (a p sh) : s.worker.Next a p → Acts L .worker a s.sh sh →
    Work L s { s with sh := sh, worker := p }
  /-- The worker takes a value sent on `flushCache` (`comfoserver/timers.go:60-61`). -/
  | flush (i c t p) : s.clients[i]? = some c → c.prog.Next (.sendFlush t) p → s.worker = .ret () →
    Work L s { s with
      sh := { s.sh with trace := s.sh.trace ++ [(.client i, .sendFlush t)] }
      clients := s.setClient i p
      worker := flushCaches t }
  /-- A client takes the value the worker sends on `flushSuccess`. -/
  | flushed (i c b p q) : s.clients[i]? = some c → c.prog.Next (.recvFlushed b) p →
    s.worker.Next (.sendFlushed b) q →
    Work L s { s with
      sh := { s.sh with
        world := s.sh.world.log (.answered b)
        trace := s.sh.trace ++ [(.worker, .sendFlushed b), (.client i, .recvFlushed b)] }
      clients := s.setClient i p
      worker := q }

/-- What surrounds the server: how floats are converted, what is at the other end of the line, how
that may change on its own, and which requests may arrive. -/
structure Setup (σ : Type) where
  cv : FloatConv
  line : Line σ
  env : σ → σ → Prop := fun _ _ => True
  calls : Call → Prop := fun _ => True

/-- All steps. -/
inductive Step (S : Setup σ) : Sys σ → Sys σ → Prop
  | work : Work S.line s s' → Step S s s'
  /-- A ticker fires while the worker waits. -/
  | tick (k) : s.worker = .ret () → Step S s { s with worker := onTick k }
  /-- A request arrives. -/
  | arrive (c : Call) : S.calls c →
    Step S s { s with clients := s.clients ++ [{ call := c, prog := c.prog S.cv }] }
  /-- The other end of the line changes, time passes. -/
  | environment (line) (ns : Nat) : S.env s.sh.world.line line →
    Step S s { s with sh := { s.sh with
      world := { s.sh.world with line := line, clock := s.sh.world.clock + (ns : Int) } } }

/-- The states the system can reach from `s₀`. -/
inductive Reachable (S : Setup σ) (s₀ : Sys σ) : Sys σ → Prop
  | start : Reachable S s₀ s₀
  | step : Reachable S s₀ s → Step S s s' → Reachable S s₀ s'

/-- The system when the HTTP server starts: `StartCaches` has left some world, nothing runs. -/
def Sys.initial (w : World σ) : Sys σ := { sh := { world := w } }

end Comfo
