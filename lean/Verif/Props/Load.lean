import Verif.Lemmas.Load
import Verif.Props.Sync
/-!
# C72: the traffic the server causes is bounded
-/
namespace Comfo.Props
open Spec

/-- Counting the ticks leaves no execution out. -/
theorem C72_every_execution {S : Setup σ} {s₀ s : Sys σ} :
    Reachable S s₀ s ↔ ∃ n, Run S s₀ n s := by
  constructor
  · intro h
    induction h with
    | start => exact ⟨0, .start⟩
    | step _ hs ih =>
      obtain ⟨n, ih⟩ := ih
      cases hs with
      | work hw => exact ⟨n, ih.work hw⟩
      | tick k hk => exact ⟨n + 1, .tick k ih hk⟩
      | arrive c hc => exact ⟨n, .arrive c ih hc⟩
      | environment l ns he => exact ⟨n, .environment l ns ih he⟩
  · rintro ⟨n, h⟩
    induction h with
    | start => exact .start
    | tick k _ hk ih => exact ih.step (.tick k hk)
    | work _ hw ih => exact ih.step (.work hw)
    | arrive c _ hc ih => exact ih.step (.arrive c hc)
    | environment l ns _ he ih => exact ih.step (.environment l ns he)

/-- **C72** Whatever arrives, in whatever order things happen and whatever the unit does: the frames
sent to the unit are at most two for every tick the worker has served and, for every request that
has arrived, as many as `callLoad` allows. In particular reading costs the unit nothing. -/
theorem C72_load {S : Setup σ} {w : World σ} {n : Nat} {s : Sys σ}
    (h : Run S (Sys.initial w) n s) :
    load s.sh.trace ≤ 2 * n + (s.clients.map fun c => callLoad c.call).sum := by
  obtain ⟨ns, m, _, _, h3⟩ := loadInv h
  omega

/-- The ticks of a schedule. -/
def ticksOf : List Cmd → Nat
  | [] => 0
  | .tick _ :: cs => ticksOf cs + 1
  | _ :: cs => ticksOf cs

theorem execs_run {S : Setup σ} {cmds : List Cmd} (hS : ∀ c, S.calls c) {s₀ s s' : Sys σ} {n : Nat}
    (h0 : Run S s₀ n s) (h : Sys.execs S cmds s = some s') : Run S s₀ (ticksOf cmds + n) s' := by
  induction cmds generalizing s n with
  | nil => cases h; simpa [ticksOf] using h0
  | cons c cs ih =>
    simp only [Sys.execs] at h
    split at h
    · rename_i s1 h1
      cases c with
      | go t => exact ih (h0.work (exec1_work h1)) h
      | arrive c => cases h1; exact ih (.arrive c h0 (hS c)) h
      | tick k =>
        simp only [Sys.exec1] at h1
        split at h1
        · rename_i hw
          cases h1
          have := ih (.tick k h0 (waits_iff hw)) h
          rwa [show ticksOf (.tick k :: cs) + n = ticksOf cs + (n + 1) by simp [ticksOf]; omega]
        · cases h1
    · cases h

/-- Long after the caches were filled. -/
def lateStart : World UInt8 := { line := 0, clock := 100000000000 }

/-- The schedule of the example. -/
def loadSchedule : List Cmd := [.tick .fast] ++ steps 22 .worker ++
  [.arrive (.flush 10)] ++ steps 2 (.client 0) ++ steps 60 .worker ++ steps 2 (.client 0) ++
  [.arrive (.setProfile 1 40), .arrive .getTemps] ++ steps 3 (.client 2) ++ steps 27 (.client 1)

/-- The bound is reached: one tick, `FlushCache(All)`, `SetFanProfile` and a read cost 2 + 6 + 3 + 0
frames. -/
example : ∃ s, Run demo (Sys.initial lateStart) 1 s ∧ load s.sh.trace = 11 ∧
    s.clients.map Client.call = [.flush 10, .setProfile 1 40, .getTemps] := by
  have hd : (Sys.execs demo loadSchedule (Sys.initial lateStart)).any (fun s =>
      load s.sh.trace = 11 ∧ s.clients.map Client.call = [.flush 10, .setProfile 1 40, .getTemps]) =
      true := by
    decide +kernel
  match hs : Sys.execs demo loadSchedule (Sys.initial lateStart) with
  | none => rw [hs] at hd; cases hd
  | some s =>
    rw [hs] at hd
    exact ⟨s, execs_run (fun _ => trivial) .start hs, of_decide_eq_true hd⟩

end Comfo.Props
