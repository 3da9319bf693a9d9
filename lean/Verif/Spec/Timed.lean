import Verif.Spec.Sync
/-!
# Executions with the times at which things happen (C56, C80, C81)

`Reachable` says nothing about time except that the clock never goes back. Here every action gets
the time at which it is done, every request the time at which it arrives, and a goroutine that waits
for a timer waits at least as long as the timer says.
-/
namespace Spec
open Comfo

/-- How long an action takes at the least, in nanoseconds: a pause (`time.Sleep`), and a read that
times out (the timer of one second set before every read, `libcomfo/conn.go:182-185`). -/
def atLeast : Act → Nat
  | .sleep ns => ns
  | .got _ (_, some .timeout) => 1000000000
  | _ => 0

/-- The waiting among some actions. -/
def waited (acts : List Act) : Nat := (acts.map atLeast).sum

/-- A state with its past: when each request arrived, and what was done when. -/
structure Timed (σ : Type) where
  sys : Sys σ
  arrived : List Int := []
  log : List (Tid × Act × Int) := []

/-- What goroutine `t` did, and when. -/
def own (t : Tid) (log : List (Tid × Act × Int)) : List (Act × Int) :=
  log.filterMap fun (u, a, τ) => if u = t then some (a, τ) else none

/-- When goroutine `t` last did something; before its first action, when the request arrived. -/
def Timed.last (c : Timed σ) (t : Tid) : Option Int :=
  match (own t c.log).getLast? with
  | some x => some x.2
  | none =>
    match t with
    | .client i => c.arrived[i]?
    | .worker => none

/-- The executions. In each step the new entries of the record, if any, get the time after the step;
each of them is later than the previous action of its goroutine by at least the time it takes. -/
inductive Clocked (S : Setup σ) (s₀ : Sys σ) : Timed σ → Prop
  | start : Clocked S s₀ { sys := s₀ }
  | step {c : Timed σ} {s : Sys σ} (new : List (Tid × Act)) : Clocked S s₀ c → Step S c.sys s →
    s.sh.trace = c.sys.sh.trace ++ new →
    (∀ t a, (t, a) ∈ new → ∀ b, c.last t = some b → b + atLeast a ≤ s.sh.world.clock) →
    Clocked S s₀
      { sys := s
        arrived := c.arrived ++
          List.replicate (s.clients.length - c.sys.clients.length) s.sh.world.clock
        log := c.log ++ new.map fun x => (x.1, x.2, s.sh.world.clock) }

/-- Request `i` arrived at `a` and its last action was at `e`. -/
def Took (c : Timed σ) (i : Nat) (a e : Int) : Prop :=
  c.arrived[i]? = some a ∧ c.last (.client i) = some e

/-- A response written at `e` reaches the client that made its request at `a`. -/
def InTime (a e : Int) : Prop := e < a + writeTimeout

/-- The `ReqTime` of an answer. -/
def reqTimeOf : Resp → Option Int
  | .comfort (.ok v) => some v.reqTime
  | .speed (.ok v) => some v.reqTime
  | .flushed (.ok v) => some v.reqTime
  | _ => none

/-- From time `a` on the unit takes what is written and answers nothing. -/
def SilentSince (a : Int) (log : List (Tid × Act × Int)) : Prop :=
  ∀ t τ, a ≤ τ →
    (∀ e q err, (t, .got e (q, err), τ) ∈ log → err = some .timeout) ∧
    (∀ bs n err, (t, .wrote bs (n, err), τ) ∈ log → err = none)

end Spec
