import Verif.Spec.Sync
/-! Helper definitions: running the system along a given schedule, for examples and
counterexamples. -/
namespace Comfo
open Spec

def Prog.exec (L : Line σ) (t : Tid) (sh : Shared σ) : Prog α → Option (Prog α × Shared σ)
  | .lock l k =>
    if sh.held.all (·.lock ≠ l) then
      some (k, { sh with held := ⟨l, true, t⟩ :: sh.held, trace := sh.trace ++ [(t, .lock l)] })
    else none
  | .unlock l k =>
    if ⟨l, true, t⟩ ∈ sh.held then
      some (k, { sh with held := sh.held.erase ⟨l, true, t⟩, trace := sh.trace ++ [(t, .unlock l)] })
    else none
  | .rlock l k =>
    if sh.held.all fun h => h.lock = l → h.excl = false then
      some (k, { sh with held := ⟨l, false, t⟩ :: sh.held, trace := sh.trace ++ [(t, .rlock l)] })
    else none
  | .runlock l k =>
    if ⟨l, false, t⟩ ∈ sh.held then
      some (k, { sh with held := sh.held.erase ⟨l, false, t⟩, trace := sh.trace ++ [(t, .runlock l)] })
    else none
  | .now k => some (k sh.world.tick.clock,
      { sh with world := sh.world.tick, trace := sh.trace ++ [(t, .now sh.world.tick.clock)] })
  | .sleep ns k => some (k,
      { sh with world := { sh.world with clock := sh.world.clock + (ns : Int) },
                trace := sh.trace ++ [(t, .sleep ns)] })
  | .write bs k =>
    match L.write bs sh.world.line with
    | (r, line) => some (k r,
        { sh with world := { sh.world with line := line }.log (.wrote bs r),
                  trace := sh.trace ++ [(t, .wrote bs r)] })
  | .read e k =>
    match L.read e sh.world.line with
    | (.ret q err, line) => some (k (q, err),
        { sh with world := { sh.world with line := line }.log (.got e (q, err)),
                  trace := sh.trace ++ [(t, .got e (q, err))] })
    | (.panic, _) => none
  | .load id k => some (k (sh.world.get id),
      { sh with trace := sh.trace ++ [(t, .load id (sh.world.get id))] })
  | .store id e k => some (k,
      { sh with world := sh.world.set id e, trace := sh.trace ++ [(t, .store id e)] })
  | .note id ts k => some (k,
      { sh with world := sh.world.log (.refresh id ts), trace := sh.trace ++ [(t, .note id ts)] })
  | _ => none

theorem exec_sound {L : Line σ} {t : Tid} {sh sh' : Shared σ} {p q : Prog α}
    (h : p.exec L t sh = some (q, sh')) : ∃ a, p.Next a q ∧ Acts L t a sh sh' := by
  cases p with
  | lock l k =>
    simp only [Prog.exec] at h
    split at h
    · rename_i hl
      cases h
      exact ⟨_, .lock, .lock (by simpa using hl)⟩
    · cases h
  | unlock l k =>
    simp only [Prog.exec] at h
    split at h
    · rename_i hl
      cases h
      exact ⟨_, .unlock, .unlock hl⟩
    · cases h
  | rlock l k =>
    simp only [Prog.exec] at h
    split at h
    · rename_i hl
      cases h
      refine ⟨_, .rlock, .rlock fun h hh e => ?_⟩
      have := List.all_eq_true.mp hl h hh
      simp only [decide_eq_true_eq] at this
      exact this e
    · cases h
  | runlock l k =>
    simp only [Prog.exec] at h
    split at h
    · rename_i hl
      cases h
      exact ⟨_, .runlock, .runlock hl⟩
    · cases h
  | now k => cases h; exact ⟨_, .now _, .now⟩
  | sleep ns k => cases h; exact ⟨_, .sleep, .sleep ns⟩
  | write bs k => cases h; exact ⟨_, .write _, .wrote rfl⟩
  | read e k =>
    simp only [Prog.exec] at h
    split at h
    · rename_i hl
      cases h
      exact ⟨_, .read _, .got hl⟩
    · cases h
  | load id k => cases h; exact ⟨_, .load _, .load⟩
  | store id e k => cases h; exact ⟨_, .store, .store⟩
  | note id ts k => cases h; exact ⟨_, .note, .note⟩
  | _ => cases h

/-- What to do next. -/
inductive Cmd
  /-- Goroutine `t` takes a step. -/
  | go (t : Tid)
  | tick (k : Tick)
  | arrive (c : Call)

def Prog.waits : Prog Unit → Bool
  | .ret () => true
  | _ => false

theorem waits_iff {p : Prog Unit} (h : p.waits = true) : p = .ret () := by
  cases p <;> simp_all [Prog.waits]

def Sys.exec1 (S : Setup σ) : Cmd → Sys σ → Option (Sys σ)
  | .go (.client i), s =>
    match s.clients[i]? with
    | none => none
    | some c =>
      match c.prog with
      | .sendFlush t k =>
        if s.worker.waits then
          some { s with
            sh := { s.sh with trace := s.sh.trace ++ [(.client i, .sendFlush t)] }
            clients := s.setClient i k
            worker := flushCaches t }
        else none
      | .recvFlushed k =>
        match s.worker with
        | .sendFlushed b q =>
          some { s with
            sh := { s.sh with
              world := s.sh.world.log (.answered b)
              trace := s.sh.trace ++ [(.worker, .sendFlushed b), (.client i, .recvFlushed b)] }
            clients := s.setClient i (k b)
            worker := q }
        | _ => none
      | p =>
        match p.exec S.line (.client i) s.sh with
        | some (q, sh) => some { s with sh := sh, clients := s.setClient i q }
        | none => none
  | .go .worker, s =>
    match s.worker.exec S.line .worker s.sh with
    | some (q, sh) => some { s with sh := sh, worker := q }
    | none => none
  | .tick k, s => if s.worker.waits then some { s with worker := onTick k } else none
  | .arrive c, s => some { s with clients := s.clients ++ [{ call := c, prog := c.prog S.cv }] }

theorem exec1_work {S : Setup σ} {t : Tid} {s s' : Sys σ}
    (h : Sys.exec1 S (.go t) s = some s') : Work S.line s s' := by
  cases t with
  | worker =>
    simp only [Sys.exec1] at h
    split at h
    · rename_i q sh he
      cases h
      obtain ⟨a, h1, h2⟩ := exec_sound he
      exact .worker a q sh h1 h2
    · cases h
  | client i =>
    simp only [Sys.exec1] at h
    split at h
    · cases h
    · rename_i c hc
      split at h
      · rename_i t k hp
        split at h
        · rename_i hw
          cases h
          exact (.flush i c t k hc (by rw [hp]; exact .sendFlush) (waits_iff hw))
        · cases h
      · rename_i k hp
        split at h
        · rename_i b q hq
          cases h
          exact (.flushed i c b (k b) q hc (by rw [hp]; exact .recvFlushed b)
            (by rw [hq]; exact .sendFlushed))
        · cases h
      · split at h
        · rename_i q sh he
          cases h
          obtain ⟨a, h1, h2⟩ := exec_sound he
          exact .client i c a q sh hc h1 h2
        · cases h

theorem exec1_sound {S : Setup σ} {cmd : Cmd} (hS : ∀ c, cmd = .arrive c → S.calls c) {s s' : Sys σ}
    (h : Sys.exec1 S cmd s = some s') : Step S s s' := by
  cases cmd with
  | tick k =>
    simp only [Sys.exec1] at h
    split at h
    · rename_i hw; cases h; exact .tick k (waits_iff hw)
    · cases h
  | arrive c => cases h; exact .arrive c (hS c rfl)
  | go t => exact .work (exec1_work h)

def Sys.execs (S : Setup σ) : List Cmd → Sys σ → Option (Sys σ)
  | [], s => some s
  | c :: cs, s =>
    match Sys.exec1 S c s with
    | some s' => Sys.execs S cs s'
    | none => none

theorem execs_sound {S : Setup σ} {cmds : List Cmd} (hS : ∀ c, .arrive c ∈ cmds → S.calls c)
    {s₀ s s' : Sys σ} (h0 : Reachable S s₀ s) (h : Sys.execs S cmds s = some s') : Reachable S s₀ s' := by
  induction cmds generalizing s with
  | nil => cases h; exact h0
  | cons c cs ih =>
    simp only [Sys.execs] at h
    split at h
    · rename_i s1 h1
      exact ih (fun c hc => hS c (List.mem_cons_of_mem _ hc))
        (h0.step (exec1_sound (fun c hc => hS c (hc ▸ List.mem_cons_self)) h1)) h
    · cases h

/-- A property that can be tested holds in the state the schedule leads to. -/
theorem exec_witness {S : Setup σ} (w : World σ) (cmds : List Cmd)
    (hS : ∀ c, .arrive c ∈ cmds → S.calls c) (test : Sys σ → Bool) (h : (Sys.execs S cmds (Sys.initial w)).any test = true) :
    ∃ s, Reachable S (Sys.initial w) s ∧ test s = true := by
  match hs : Sys.execs S cmds (Sys.initial w) with
  | none => rw [hs] at h; cases h
  | some s => rw [hs] at h; exact ⟨s, execs_sound hS .start hs, h⟩

/-- Is the program about to read / write the cache? -/
def Prog.loads (id : CacheId) : Prog α → Bool
  | .load i _ => i = id
  | _ => false

def Prog.stores (id : CacheId) : Prog α → Bool
  | .store i _ _ => i = id
  | _ => false

theorem loads_next {id : CacheId} {p : Prog α} (h : p.loads id = true) :
    ∃ c q, p.Next (.load id c) q := by
  cases p with
  | load i k =>
    have : i = id := by simpa [Prog.loads] using h
    subst this
    exact ⟨zeroEntry i, _, .load _⟩
  | _ => cases h

theorem stores_next {id : CacheId} {p : Prog α} (h : p.stores id = true) :
    ∃ e q, p.Next (.store id e) q := by
  cases p with
  | store i e k =>
    have : i = id := by simpa [Prog.stores] using h
    subst this
    exact ⟨e, _, .store⟩
  | _ => cases h

/-- Two states of one execution with properties that can be tested. -/
theorem exec_witness2 {S : Setup σ} (w : World σ) (cmds cmds' : List Cmd)
    (hS : ∀ c, S.calls c) (test test' : Sys σ → Bool)
    (h : ((Sys.execs S cmds (Sys.initial w)).any fun s =>
      test s && (Sys.execs S cmds' s).any test') = true) :
    ∃ s₁ s₂, Reachable S (Sys.initial w) s₁ ∧ test s₁ = true ∧ Reachable S s₁ s₂ ∧ test' s₂ = true := by
  match hs : Sys.execs S cmds (Sys.initial w) with
  | none => rw [hs] at h; cases h
  | some s =>
    rw [hs] at h
    simp only [Option.any_some, Bool.and_eq_true] at h
    obtain ⟨h1, h2⟩ := h
    match hs' : Sys.execs S cmds' s with
    | none => rw [hs'] at h2; cases h2
    | some s' =>
      rw [hs'] at h2
      exact ⟨s, s', execs_sound (fun _ _ => hS _) .start hs, h1, execs_sound (fun _ _ => hS _) .start hs', h2⟩

end Comfo
